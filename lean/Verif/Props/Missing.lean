import Verif.Spec.Missing
import Verif.Props.Order
import Verif.Props.Sizes
import Verif.Lemmas.Consist

/-! C133: missing properties in `add_k0s` and `calc_kG`, and edges of more than two triangles. -/

set_option autoImplicit false

namespace Meshless
open Spec

/-- a loop whose body fails exactly where `P` does not hold -/
theorem loop_stop {α : Type} (g : α → Except Err (List (ℤ × ℤ × ℝ))) (P : α → Bool) (x : Err) : ∀ (l : List α) (K : Mat), (∀ a ∈ l, P a = true → GoodE K.dim (g a)) →
    (∀ a ∈ l, P a = false → g a = .error x) → (∃ a ∈ l, P a = false) →
    matLoop (fun K a => applyE (g a) K) K l = ((matLoop (fun K a => applyE (g a) K) K (l.takeWhile P)).1, some x) ∧ (matLoop (fun K a => applyE (g a) K) K (l.takeWhile P)).2 = none := by
  intro l
  induction l with
  | nil => rintro K _ _ ⟨a, ha, _⟩; cases ha
  | cons b l ih =>
    rintro K h1 h2 ⟨a, ha, hPa⟩
    cases hb : P b with
    | true =>
      obtain ⟨es, e1, e2⟩ := h1 b (by simp) hb
      obtain ⟨K', f1, f2, _⟩ := matLoop_ok g [b] K (fun a ha => by rw [List.mem_singleton.1 ha]; exact h1 b (by simp) hb)
      have f3 : applyE (g b) K = (K', none) := by
        simp only [matLoop] at f1
        rcases h : applyE (g b) K with ⟨K1, _ | y⟩ <;> rw [h] at f1
        · exact f1
        · cases f1
      simp only [List.takeWhile_cons, hb, if_true, matLoop, f3]
      refine ih K' (fun a ha h => ?_) (fun a ha h => h2 a (by simp [ha]) h) ?_
      · rw [f2]; exact h1 a (by simp [ha]) h
      · rcases List.mem_cons.1 ha with rfl | ha
        · rw [hb] at hPa; cases hPa
        · exact ⟨a, ha, hPa⟩
    | false =>
      simp only [List.takeWhile_cons, hb, matLoop]
      rw [h2 b (by simp) hb]
      simp [applyE, matLoop]

/-- the mesh with missing properties filled in -/
def filledIn (m : Mesh) (l : Lam) : Mesh :=
  { m with node := fun i => { m.node i with prop := some ((m.node i).prop.getD l) }, tria := fun e => { m.tria e with prop := some ((m.tria e).prop.getD l) } }

section
variable {m : Mesh} (l : Lam)

theorem filledIn_wf (w : WF m) : WF (filledIn m l) := ⟨w.nids_nodup, w.eids_nodup, w.ekeys_nodup, w.mem_ekeys, w.ends, w.en, w.etrias, w.tedges⟩

theorem filledIn_proper (hp : Proper m) : Proper (filledIn m l) := ⟨hp.distinct, hp.manifold, hp.simple⟩

theorem filledIn_prepared (hq : Prepared m) : Prepared (filledIn m l) := by
  have hs : SameGeo m (filledIn m l) := ⟨rfl, fun _ => ⟨rfl, rfl, rfl⟩, fun _ => rfl, fun _ => rfl⟩
  exact ⟨fun k hk => (hs.geomEdge _).trans (hq.geom k hk), hq.index⟩

theorem filledIn_props (pn : Bool) : HasProps (filledIn m l) pn := by
  unfold HasProps
  split
  · intro _ _ _ _; rfl
  · intro _ _; rfl

theorem node_some {i : ℕ} (h : (m.node i).prop.isSome) : ((filledIn m l).node i).prop = (m.node i).prop := by
  obtain ⟨p, hp⟩ := Option.isSome_iff_exists.1 h
  simp [filledIn, hp]

theorem tria_some {e : ℕ} (h : (m.tria e).prop.isSome) : ((filledIn m l).tria e).prop = (m.tria e).prop := by
  obtain ⟨p, hp⟩ := Option.isSome_iff_exists.1 h
  simp [filledIn, hp]

theorem triHas_node {e : ℕ} : triHas m true e = true ↔ ∀ i, IsCorner m e i → (m.node i).prop.isSome := by
  simp [triHas, corners, IsCorner]

theorem cellShear_has {pn : Bool} {e a b c : ℕ} (hp : [a, b, c].Perm (corners m e)) :
    (triHas m pn e = true → cellShear m pn e a b c = cellShear (filledIn m l) pn e a b c) ∧ (triHas m pn e = false → cellShear m pn e a b c = .error .attributeError) := by
  cases pn with
  | true =>
    have hb : triHas m true e = [a, b, c].all fun i => (m.node i).prop.isSome := by unfold triHas; rw [if_pos rfl]; exact (hp.all_eq ..).symm
    rw [hb]
    unfold cellShear
    rw [if_pos rfl, if_pos rfl]
    cases h1 : (m.node a).prop <;> cases h2 : (m.node b).prop <;> cases h3 : (m.node c).prop <;> simp [h1, h2, h3, filledIn]
  | false =>
    unfold triHas cellShear
    cases h1 : (m.tria e).prop <;> simp [h1, filledIn]

theorem cell_has {pn : Bool} (al : ℝ) (fa : Bool) (e : ℕ) :
    (triHas m pn e = true → cellSEnv m pn al fa e = cellSEnv (filledIn m l) pn al fa e ∧ cellNSEnv m pn al fa e = cellNSEnv (filledIn m l) pn al fa e) ∧
    (triHas m pn e = false → cellSEnv m pn al fa e = .error .attributeError ∧ cellNSEnv m pn al fa e = .error .attributeError) := by
  have q1 : cellOrient (filledIn m l) e = cellOrient m e := rfl
  have q2 : cellNSOrient (filledIn m l) e = cellNSOrient m e := rfl
  have p1 : [(m.tria e).n1, (m.tria e).n2, (m.tria e).n3].Perm (corners m e) := List.Perm.refl _
  have p2 : [(m.tria e).n2, (m.tria e).n1, (m.tria e).n3].Perm (corners m e) := List.Perm.swap _ _ _
  have o1 : [(cellOrient m e).1, (cellOrient m e).2.1, (cellOrient m e).2.2].Perm (corners m e) := by unfold cellOrient; dsimp only; split; exacts [p2, p1]
  have o2 : [(cellNSOrient m e).1, (cellNSOrient m e).2.1, (cellNSOrient m e).2.2].Perm (corners m e) := by unfold cellNSOrient; dsimp only; split; exacts [p2, p1]
  refine ⟨fun h => ⟨?_, ?_⟩, fun h => ⟨?_, ?_⟩⟩
  · have := (cellShear_has l o1).1 h
    unfold cellSEnv
    dsimp only [bind, Except.bind]
    rw [q1, ← this]
    rfl
  · have := (cellShear_has l o2).1 h
    unfold cellNSEnv
    dsimp only [bind, Except.bind]
    rw [q2, ← this]
    rfl
  · have := (cellShear_has l o1).2 h
    unfold cellSEnv
    dsimp only [bind, Except.bind]
    rw [this]
  · have := (cellShear_has l o2).2 h
    unfold cellNSEnv
    dsimp only [bind, Except.bind]
    rw [this]

theorem triHas_side {pn : Bool} {t o : ℕ} {k : Key} (h : Side m t k o) : triHas m pn t = if pn then (m.node k.1).prop.isSome && (m.node k.2).prop.isSome && (m.node o).prop.isSome else (m.tria t).prop.isSome := by
  unfold triHas
  cases pn with
  | true =>
    rw [if_pos rfl, if_pos rfl]
    refine (List.Perm.all_eq (show (corners m t).Perm [k.1, k.2, o] from h.perm) ..).trans ?_
    simp [Bool.and_assoc]
  | false => rfl

theorem edgeOrient_pair (ed : Edge) (t : ℕ) : edgeOrient m ed t = (ed.n1, ed.n2) ∨ edgeOrient m ed t = (ed.n2, ed.n1) := by
  unfold edgeOrient; split
  · right; rfl
  · left; rfl

theorem edge_has (w : WF m) (hp : Proper m) (hq : Prepared m) {pn : Bool} (al : ℝ) (fa : Bool) {k : Key} (hk : k ∈ m.ekeys) :
    (sideHas m pn k = true → edgeSG m pn al fa k = edgeSG (filledIn m l) pn al fa k) ∧ (sideHas m pn k = false → edgeSG m pn al fa k = .error .attributeError) := by
  have qo : ∀ t, edgeOrient (filledIn m l) (m.edge k) t = edgeOrient m (m.edge k) t := fun _ => rfl
  have qe : (filledIn m l).edge k = m.edge k := rfl
  rcases prepared_shape w hp hq hk with ⟨t, o, he, hs⟩ | ⟨t1, t2, o1, o2, he, hs1, hs2, -, -⟩
  · have htr : (m.edge k).trias = [t] := by rw [he]; rfl
    have h1 : (m.edge k).other1 = some o := by rw [he]; rfl
    have h2 : (m.edge k).Ac = some (polyArea (m.edge k).sdomain) := by rw [he]; rfl
    have hor := edgeOrient_pair (m := m) (m.edge k) t
    rw [show (m.edge k).n1 = k.1 by rw [he]; rfl, show (m.edge k).n2 = k.2 by rw [he]; rfl] at hor
    have key : ∀ a b, (a, b) = (k.1, k.2) ∨ (a, b) = (k.2, k.1) → (sideHas m pn k = true → edgeBShear m pn t a b o = edgeBShear (filledIn m l) pn t a b o) ∧
        (sideHas m pn k = false → edgeBShear m pn t a b o = .error .attributeError) := by
      intro a b hab
      have e1 : sideHas m pn k = triHas m pn t := by unfold sideHas; rw [htr]; simp
      rw [e1, triHas_side hs]
      unfold edgeBShear
      cases pn with
      | true =>
        rcases hab with hab | hab <;> cases hab <;> cases p1 : (m.node k.1).prop <;> cases p2 : (m.node k.2).prop <;> cases p3 : (m.node o).prop <;> simp [p1, p2, p3, filledIn]
      | false => cases p1 : (m.tria t).prop <;> simp [p1, filledIn]
    obtain ⟨k1, k2⟩ := key (edgeOrient m (m.edge k) t).1 (edgeOrient m (m.edge k) t).2 hor
    refine ⟨fun h => ?_, fun h => ?_⟩
    · unfold edgeSG
      rw [qe, htr]
      dsimp only
      rw [qo]
      unfold edgeBEnv
      rw [h1, h2]
      dsimp only [bind, Except.bind]
      rw [k1 h]
      rfl
    · unfold edgeSG
      rw [htr]
      dsimp only
      unfold edgeBEnv
      rw [h1, h2]
      dsimp only [bind, Except.bind]
      rw [k2 h]
      rfl
  · have htr : (m.edge k).trias = [t1, t2] := by rw [he]; rfl
    have h1 : (m.edge k).other1 = some o1 := by rw [he]; rfl
    have h2 : (m.edge k).other2 = some o2 := by rw [he]; rfl
    have h3 : (m.edge k).Ac = some (polyArea (m.edge k).sdomain) := by rw [he]; rfl
    have hor := edgeOrient_pair (m := m) (m.edge k) t1
    rw [show (m.edge k).n1 = k.1 by rw [he]; rfl, show (m.edge k).n2 = k.2 by rw [he]; rfl] at hor
    have key : ∀ a b, (a, b) = (k.1, k.2) ∨ (a, b) = (k.2, k.1) → ∀ A1 A2 A, (sideHas m pn k = true → edgeIShear m pn A1 A2 A t1 t2 a b o1 o2 = edgeIShear (filledIn m l) pn A1 A2 A t1 t2 a b o1 o2) ∧
        (sideHas m pn k = false → edgeIShear m pn A1 A2 A t1 t2 a b o1 o2 = .error .attributeError) := by
      intro a b hab A1 A2 A
      have e1 : sideHas m pn k = (triHas m pn t1 && triHas m pn t2) := by unfold sideHas; rw [htr]; simp
      rw [e1, triHas_side hs1, triHas_side hs2]
      unfold edgeIShear
      cases pn with
      | true =>
        rcases hab with hab | hab <;> cases hab <;> cases p1 : (m.node k.1).prop <;> cases p2 : (m.node k.2).prop <;> cases p3 : (m.node o1).prop <;> cases p4 : (m.node o2).prop <;> simp [p1, p2, p3, p4, filledIn]
      | false => cases p1 : (m.tria t1).prop <;> cases p2 : (m.tria t2).prop <;> simp [p1, p2, filledIn]
    have key := key (edgeOrient m (m.edge k) t1).1 (edgeOrient m (m.edge k) t1).2 hor
    refine ⟨fun h => ?_, fun h => ?_⟩
    · unfold edgeSG
      rw [qe, htr]
      dsimp only
      rw [qo]
      unfold edgeIEnv
      rw [h1, h2, h3]
      dsimp only [bind, Except.bind]
      rw [(key _ _ _).1 h]
      rfl
    · unfold edgeSG
      rw [htr]
      dsimp only
      unfold edgeIEnv
      rw [h1, h2, h3]
      dsimp only [bind, Except.bind]
      rw [(key _ _ _).2 h]
      rfl

theorem edgeProp_has (w : WF m) (hp : Proper m) (hq : Prepared m) {pn : Bool} {k : Key} (hk : k ∈ m.ekeys) (sel : Lam → Fin 3 → Fin 3 → ℝ) :
    (sideHas m pn k = true → edgeProp m pn (m.edge k) sel = edgeProp (filledIn m l) pn (m.edge k) sel) ∧ (sideHas m pn k = false → edgeProp m pn (m.edge k) sel = .error .attributeError) := by
  rcases prepared_shape w hp hq hk with ⟨t, o, he, hs⟩ | ⟨t1, t2, o1, o2, he, hs1, hs2, -, -⟩
  · have htr : (m.edge k).trias = [t] := by rw [he]; rfl
    have h1 : (m.edge k).other1 = some o := by rw [he]; rfl
    have e1 : sideHas m pn k = triHas m pn t := by unfold sideHas; rw [htr]; simp
    rw [e1, triHas_side hs]
    unfold edgeProp
    rw [htr, h1, show (m.edge k).n1 = k.1 by rw [he]; rfl, show (m.edge k).n2 = k.2 by rw [he]; rfl]
    cases pn with
    | true => cases p1 : (m.node k.1).prop <;> cases p2 : (m.node k.2).prop <;> cases p3 : (m.node o).prop <;> simp [p1, p2, p3, filledIn]
    | false => cases p1 : (m.tria t).prop <;> simp [p1, filledIn]
  · have htr : (m.edge k).trias = [t1, t2] := by rw [he]; rfl
    have h1 : (m.edge k).other1 = some o1 := by rw [he]; rfl
    have h2 : (m.edge k).other2 = some o2 := by rw [he]; rfl
    have h3 : (m.edge k).Ac = some (polyArea (m.edge k).sdomain) := by rw [he]; rfl
    have e1 : sideHas m pn k = (triHas m pn t1 && triHas m pn t2) := by unfold sideHas; rw [htr]; simp
    have hm : ∀ t, (filledIn m l).mid t = m.mid t := fun _ => rfl
    rw [e1, triHas_side hs1, triHas_side hs2]
    unfold edgeProp
    rw [htr, h1, h2, h3, show (m.edge k).n1 = k.1 by rw [he]; rfl, show (m.edge k).n2 = k.2 by rw [he]; rfl]
    simp only [hm]
    cases pn with
    | true =>
      cases p1 : (m.node k.1).prop <;> cases p2 : (m.node k.2).prop <;> cases p3 : (m.node o1).prop <;> cases p4 : (m.node o2).prop <;> simp [p1, p2, p3, p4, filledIn]
    | false => cases p1 : (m.tria t1).prop <;> cases p2 : (m.tria t2).prop <;> simp [p1, p2, filledIn]

theorem kGEnv_has (w : WF m) (hp : Proper m) (hq : Prepared m) {pn : Bool} {d : List ℝ} (hd : 5 * m.nids.length ≤ d.length) {k : Key} (hk : k ∈ m.ekeys) :
    (sideHas m pn k = true → kGEnv m d pn (m.edge k) = kGEnv (filledIn m l) d pn (m.edge k)) ∧ (sideHas m pn k = false → kGEnv m d pn (m.edge k) = .error .attributeError) := by
  have hA := edgeProp_has l w hp hq (pn := pn) hk Lam.A
  have hB := edgeProp_has l w hp hq (pn := pn) hk Lam.B
  refine ⟨fun h => ?_, fun h => ?_⟩
  · unfold kGEnv
    rw [hA.1 h, hB.1 h]
    rfl
  · obtain ⟨_, _, _, env, _, _, h2, _⟩ := kgEdgeData (filledIn_wf l w) (filledIn_proper l hp) (filledIn_prepared l hq) (filledIn_props l pn) (d := d) hd (k := k) hk
    have h2 : kGEnv (filledIn m l) d pn (m.edge k) = .ok env := h2
    have h3 : iptsIndexed (filledIn m l) (m.edge k).ipts = iptsIndexed m (m.edge k).ipts := rfl
    have h4 : nodeIdx (filledIn m l) = nodeIdx m := rfl
    unfold kGEnv at h2 ⊢
    rw [h3, h4] at h2
    rw [hA.2 h, hB.2 h]
    by_cases c1 : (m.edge k).trias = []
    · rw [if_pos c1] at h2; cases h2
    by_cases c2 : 2 < (m.edge k).trias.length
    · rw [if_neg c1, if_pos c2] at h2; cases h2
    by_cases c3 : (!iptsIndexed m (m.edge k).ipts) = true
    · rw [if_neg c1, if_neg c2, if_pos c3] at h2; cases h2
    rw [if_neg c1, if_neg c2, if_neg c3] at h2 ⊢
    clear h3 c3
    dsimp only at h2 ⊢
    generalize (m.edge k).ipts = P at h2 ⊢
    generalize (if P.length = 3 then _ else _) = ix at h2 ⊢
    rcases ix with _ | ⟨i1, _ | ⟨i2, _ | ⟨i3, _ | ⟨i4, _ | ⟨i5, r⟩⟩⟩⟩⟩ <;> try cases h2
    rcases P with _ | ⟨p1, _ | ⟨p2, _ | ⟨p3, r⟩⟩⟩ <;> try cases h2
    cases (m.edge k).Ac <;> rfl

theorem missing_tri {pn : Bool} (hh : ¬ HasProps m pn) : ∃ e ∈ m.eids, triHas m pn e = false := by
  by_contra h
  push Not at h
  apply hh
  unfold HasProps
  cases pn with
  | true => exact fun e he => triHas_node.1 (by simpa using h e he)
  | false => exact fun e he => by have := h e he; simpa [triHas, Option.isSome_iff_ne_none] using this

theorem missing_side (w : WF m) {pn : Bool} (hh : ¬ HasProps m pn) : ∃ k ∈ m.ekeys, sideHas m pn k = false := by
  obtain ⟨e, he, h⟩ := missing_tri hh
  obtain ⟨k1, k2⟩ := side_trias w he (k := sortPair (m.tria e).n1 (m.tria e).n2) (by simp [Tria.edgeIds])
  refine ⟨_, k1, ?_⟩
  unfold sideHas
  rw [List.all_eq_false]
  exact ⟨e, k2, by simp [h]⟩
end

section
variable {m : Mesh}

/-- C133: when a property is missing, `add_k0s` raises AttributeError, and what it has added before stays in the matrix: the parts of the triangles (edges with
'edge-based') that come before the first one of missing properties -/
theorem C133_k0s (ha : AfterK0 m) (hp : Proper m) {pn : Bool} (hh : ¬ HasProps m pn) {method : String}
    (hm : method = "cell-based" ∨ method = "cell-based-no-smoothing" ∨ method = "edge-based") (al : ℝ) (fa : Bool) {K : Mat} (hK : K.dim = 5 * m.nids.length) :
    addK0s K m pn method al fa = ((addK0s K (cutOff m pn) pn method al fa).1, some .attributeError) ∧ (addK0s K (cutOff m pn) pn method al fa).2 = none := by
  have l : Lam := ⟨fun _ _ => 0, fun _ _ => 0, fun _ _ => 0, fun _ _ => 0, 0, 0, 0⟩
  have good := k0sIncr_good (filledIn_wf l ha.wf) (filledIn_prepared l ha.prepared) (filledIn_proper l hp) (filledIn_props l pn) hm al fa (n := K.dim) hK
  rw [addK0s_eq, addK0s_eq]
  unfold k0sIncr applyAll at *
  rcases hm with rfl | rfl | rfl
  · rw [if_pos rfl] at good ⊢
    rw [if_pos rfl, matLoop_map, matLoop_map]
    exact loop_stop (fun e => (cellSEnv m pn al fa e).map cellSEntries) (triHas m pn) _ m.eids K (fun e he h => by rw [((cell_has l al fa e).1 h).1]; exact good _ (List.mem_map.2 ⟨e, he, rfl⟩))
      (fun e _ h => by rw [((cell_has l al fa e).2 h).1]; rfl) (missing_tri hh)
  · rw [if_neg (by decide), if_pos rfl] at good ⊢
    rw [if_neg (by decide), if_pos rfl, matLoop_map, matLoop_map]
    exact loop_stop (fun e => (cellNSEnv m pn al fa e).map cellNSEntries) (triHas m pn) _ m.eids K (fun e he h => by rw [((cell_has l al fa e).1 h).2]; exact good _ (List.mem_map.2 ⟨e, he, rfl⟩))
      (fun e _ h => by rw [((cell_has l al fa e).2 h).2]; rfl) (missing_tri hh)
  · rw [if_neg (by decide), if_neg (by decide), if_pos rfl] at good ⊢
    rw [if_neg (by decide), if_neg (by decide), if_pos rfl, matLoop_map, matLoop_map]
    exact loop_stop (edgeSG m pn al fa) (sideHas m pn) _ m.ekeys K (fun k hk h => by rw [(edge_has l ha.wf hp ha.prepared al fa hk).1 h]; exact good _ (List.mem_map.2 ⟨k, hk, rfl⟩))
      (fun k hk h => (edge_has l ha.wf hp ha.prepared al fa hk).2 h) (missing_side ha.wf hh)

/-- C133: so does `calc_kG`, which then returns no matrix -/
theorem C133_kG (ha : AfterK0 m) (hp : Proper m) {pn : Bool} (hh : ¬ HasProps m pn) {d : List ℝ} (hd : 5 * m.nids.length ≤ d.length) : calcKG m d pn = .error .attributeError := by
  have l : Lam := ⟨fun _ _ => 0, fun _ _ => 0, fun _ _ => 0, fun _ _ => 0, 0, 0, 0⟩
  have w := ha.wf
  have hq := ha.prepared
  have := loop_stop (fun k => (kGEnv m d pn (m.edge k)).map kGEntries) (sideHas m pn) .attributeError m.ekeys (Mat.zeros (d.length / 5 * 5)) (fun k hk h => by
    rw [(kGEnv_has l w hp hq hd hk).1 h]
    obtain ⟨ns, Ac, pm, e, h1, _, h2, h3⟩ := kgEdgeData (filledIn_wf l w) (filledIn_proper l hp) (filledIn_prepared l hq) (filledIn_props l pn) hd (k := k) hk
    have h2 : kGEnv (filledIn m l) d pn (m.edge k) = .ok e := h2
    exact ⟨kGEntries e, by rw [h2]; rfl, entriesOk_kG (filledIn_prepared l hq) (by change m.nids.length ≤ d.length / 5; omega) ha.nids_ne h1 h3⟩)
    (fun k hk h => by rw [(kGEnv_has l w hp hq hd hk).2 h]; rfl) (missing_side w hh)
  unfold calcKG
  rw [kGEdge_eq, this.1]

/-- C133: on a mesh with an edge of more than two triangles neither `add_k0s(method='edge-based')` nor `calc_kG` returns, whatever has been called before -/
theorem C133_nonmanifold {k : Key} (hk : k ∈ m.ekeys) (h3 : 2 < (m.edge k).trias.length) (K : Mat) (pn : Bool) (al : ℝ) (fa : Bool) (d : List ℝ) :
    (addK0s K m pn "edge-based" al fa).2 ≠ none ∧ ∀ G, calcKG m d pn ≠ .ok G := by
  refine ⟨fun h => ?_, fun G h => ?_⟩
  · rw [addK0s_eq] at h
    obtain ⟨es, h1, _⟩ := matLoop_none (fun g => g) _ _ h (edgeSG m pn al fa k) (by
      unfold k0sIncr
      rw [if_neg (by decide), if_neg (by decide), if_pos rfl]
      exact List.mem_map.2 ⟨k, hk, rfl⟩)
    unfold edgeSG at h1
    split at h1 <;> rename_i h2 <;> first | (rw [h2] at h3; simp at h3) | (cases h1)
  · obtain ⟨_, h1, _⟩ := calcKG_sum h
    obtain ⟨env, h1⟩ := h1 k hk
    unfold kGEnv at h1
    rw [if_neg (by intro h0; rw [h0] at h3; simp at h3), if_pos h3] at h1
    cases h1
end

/-- a mesh with the property of triangle `e` removed -/
def hole (m : Mesh) (e : ℕ) : Mesh := m.updTria e fun t => { t with prop := none }

section
variable (m : Mesh) (e : ℕ)

theorem hole_corner (t : ℕ) : ((hole m e).tria t).n1 = (m.tria t).n1 ∧ ((hole m e).tria t).n2 = (m.tria t).n2 ∧ ((hole m e).tria t).n3 = (m.tria t).n3 := by
  unfold hole
  by_cases h : t = e
  · subst h; simp [Mesh.updTria]
  · simp [Mesh.updTria, Function.update_of_ne h]

theorem hole_proper (hp : Proper m) : Proper (hole m e) := by
  have hc : ∀ t i, IsCorner (hole m e) t i ↔ IsCorner m t i := fun t i => by
    obtain ⟨c1, c2, c3⟩ := hole_corner m e t
    unfold IsCorner
    rw [c1, c2, c3]
  refine ⟨fun t he => ?_, hp.manifold, fun t he t' he' h => hp.simple t he t' he' fun i => by rw [← hc, ← hc]; exact h i⟩
  obtain ⟨c1, c2, c3⟩ := hole_corner m e t
  rw [c1, c2, c3]
  exact hp.distinct t he

theorem hole_has {t : ℕ} (ht : t ≠ e) : triHas (hole m e) false t = triHas m false t ∧ triHas (hole m e) false e = false := by
  unfold triHas hole Mesh.updTria
  simp [Function.update_of_ne ht]
end

/-- after `calc_k0` of the square of two triangles the property of triangle 2 is removed; `add_k0s` then adds the part of triangle 1 and raises -/
example (p1 p2 p3 p4 q1 q2 : Lam) {method : String} (hm : method = "cell-based" ∨ method = "cell-based-no-smoothing" ∨ method = "edge-based") (al : ℝ) (fa : Bool) {K : Mat} (hK : K.dim = 20) (d : List ℝ)
    (hd : d.length = 20) : ∃ m, m = run (exAfter p1 p2 p3 p4 q1 q2) [.setTriaProp 2 none] ∧ (addK0s K m false method al fa).2 = some .attributeError ∧ (cutOff m false).eids = [1] ∧
      addK0s K m false "cell-based" al fa = ((addK0s K (cutOff m false) false "cell-based" al fa).1, some .attributeError) ∧ calcKG m d false = .error .attributeError := by
  obtain ⟨K0, hK0, _⟩ := exMesh_k0 p1 p2 p3 p4 q1 q2 true
  have ha : AfterK0 (run (exAfter p1 p2 p3 p4 q1 q2) [.setTriaProp 2 none]) := .intro _ (exMesh_reachable ..) true K0 hK0 [.setTriaProp 2 none] (by simp [Op.isMove])
  have e1 := (exAfter_static p1 p2 p3 p4 q1 q2).eids
  rw [exMesh_eids] at e1
  have e2 := exAfter_nids p1 p2 p3 p4 q1 q2
  have hp := exAfter_proper p1 p2 p3 p4 q1 q2
  have hh := exAfter_props p1 p2 p3 p4 q1 q2 false
  generalize exAfter p1 p2 p3 p4 q1 q2 = m at *
  have e3 : run m [.setTriaProp 2 none] = hole m 2 := by simp only [run, List.foldl_cons, List.foldl_nil, step, if_pos (show 2 ∈ m.eids by rw [e1]; simp)]; rfl
  refine ⟨_, rfl, ?_⟩
  rw [e3] at ha ⊢
  have hp := hole_proper m 2 hp
  obtain ⟨t1, t2⟩ := hole_has m 2 (show 1 ≠ 2 by decide)
  have t0 : triHas m false 1 = true := by
    unfold triHas
    exact hh 1 (by rw [e1]; simp)
  rw [t0] at t1
  have hh : ¬ HasProps (hole m 2) false := fun h => by
    have : ((hole m 2).tria 2).prop.isSome := h 2 (by change 2 ∈ m.eids; rw [e1]; simp)
    unfold triHas at t2
    simp [this] at t2
  have e2 : (hole m 2).nids.length = 4 := congrArg List.length e2
  refine ⟨?_, ?_, (C133_k0s ha hp hh (Or.inl rfl) al fa (by rw [hK, e2])).1, C133_kG ha hp hh (by rw [hd, e2])⟩
  · rw [(C133_k0s ha hp hh hm al fa (by rw [hK, e2])).1]
  · change m.eids.takeWhile _ = _
    rw [e1]
    simp [t1, t2]

/-- three triangles at one side -/
example (p : Lam) (K : Mat) (pn : Bool) (al : ℝ) (fa : Bool) (d : List ℝ) : (addK0s K (exFan p) pn "edge-based" al fa).2 ≠ none ∧ ∀ G, calcKG (exFan p) d pn ≠ .ok G :=
  C133_nonmanifold (k := (1, 2)) (by show (1, 2) ∈ [(1, 2), (2, 3), (1, 3), (2, 4), (1, 4), (2, 5), (1, 5)]; simp) (by show 2 < [1, 2, 3].length; simp) K pn al fa d

end Meshless
