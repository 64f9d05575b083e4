import Verif.Lemmas.Triang
import Verif.Props.Static
import Verif.Props.Order

/-! C90, C91: from a list of points and triangles to the solution of a static problem. -/

set_option autoImplicit false

namespace Meshless
open Spec Finset

/-! ### scripts that do not move nodes -/

theorem sameGeo_step {m : Mesh} (w : WF m) {op : Op} (ho : op.isMove = false) : SameGeo m (step m op) ∧ (step m op).eids = m.eids := by
  cases op with
  | setNodeProp i p =>
    simp only [step]; split
    · refine ⟨⟨rfl, fun _ => ⟨rfl, rfl, rfl⟩, ?_, ?_⟩, rfl⟩ <;>
      · intro j
        by_cases hj : j = i
        · subst hj; simp [Mesh.updNode]
        · simp [Mesh.updNode, Function.update_of_ne hj]
    · exact ⟨⟨rfl, fun _ => ⟨rfl, rfl, rfl⟩, fun _ => rfl, fun _ => rfl⟩, rfl⟩
  | setTriaProp e p =>
    simp only [step]; split
    · refine ⟨⟨rfl, ?_, fun _ => rfl, fun _ => rfl⟩, rfl⟩
      intro j
      by_cases hj : j = e
      · subst hj; simp [Mesh.updTria]
      · simp [Mesh.updTria, Function.update_of_ne hj]
    · exact ⟨⟨rfl, fun _ => ⟨rfl, rfl, rfl⟩, fun _ => rfl, fun _ => rfl⟩, rfl⟩
  | moveNode i x => cases ho
  | calcK0 pn =>
    have s := calcK0_static m pn w
    exact ⟨⟨s.nids, fun e => by simp only [step, s.tria, and_self], s.xyz, s.cp⟩, s.eids⟩
  | addK0s => exact ⟨⟨rfl, fun _ => ⟨rfl, rfl, rfl⟩, fun _ => rfl, fun _ => rfl⟩, rfl⟩
  | calcKG => exact ⟨⟨rfl, fun _ => ⟨rfl, rfl, rfl⟩, fun _ => rfl, fun _ => rfl⟩, rfl⟩

theorem sameGeo_run : ∀ (ops : List Op) {m : Mesh}, WF m → (∀ op ∈ ops, op.isMove = false) → SameGeo m (run m ops) ∧ (run m ops).eids = m.eids := by
  intro ops
  induction ops with
  | nil => intro m _ _; exact ⟨⟨rfl, fun _ => ⟨rfl, rfl, rfl⟩, fun _ => rfl, fun _ => rfl⟩, rfl⟩
  | cons op ops ih =>
    intro m w ho
    obtain ⟨a, b⟩ := sameGeo_step w (ho op (by simp))
    obtain ⟨c, d⟩ := ih (wf_step m w op) fun x hx => ho x (List.mem_cons_of_mem _ hx)
    have hrun : run m (op :: ops) = run (step m op) ops := rfl
    rw [hrun]
    refine ⟨⟨c.nids.trans a.nids, fun e => ?_, fun i => (c.xyz i).trans (a.xyz i), fun i => (c.cp i).trans (a.cp i)⟩, d.trans b⟩
    obtain ⟨c1, c2, c3⟩ := c.corner e
    obtain ⟨a1, a2, a3⟩ := a.corner e
    exact ⟨c1.trans a1, c2.trans a2, c3.trans a3⟩

theorem SameGeo.triangulation {m m' : Mesh} (h : SameGeo m m') (he : m'.eids = m.eids) (t : Triangulation m) : Triangulation m' := by
  have hpl : ∀ i, nodeAt m' i = nodeAt m i := fun i => by simp only [nodeAt, nx, ny, h.xyz]
  refine ⟨?_, ?_, ?_, ?_⟩
  · intro i hi; rw [h.nids] at hi; rw [h.cp, h.xyz]; exact t.basic i hi
  · intro i hi j hj; rw [h.nids] at hi hj; rw [h.xyz, h.xyz]; exact t.flat i hi j hj
  · intro e hm; rw [he] at hm; obtain ⟨c1, c2, c3⟩ := h.corner e; rw [c1, c2, c3, hpl, hpl, hpl]; exact t.nondeg e hm
  · intro e hm e' hm' hne
    rw [he] at hm hm'
    have hin : ∀ e, inside m' e = inside m e := fun e => by
      obtain ⟨c1, c2, c3⟩ := h.corner e; unfold inside; rw [c1, c2, c3, hpl, hpl, hpl]
    rw [hin, hin]; exact t.apart e hm e' hm' hne

/-! ### C90 -/

/-- C90: a mesh without overlapping triangles meets the hypotheses of the other properties -/
theorem C90_mesh {m : Mesh} (hr : Reachable m) (h : Triangulation m) : Proper m ∧ Planar m := ⟨h.proper hr.wf, h.planar hr.wf⟩

section
variable {pts : List Pt} {P : ℕ → ℝ × ℝ} {z : ℕ → ℝ} {tris : List (ℕ × ℕ × ℕ)}

theorem Spec.InputTriangulation.valid (h : InputTriangulation pts.length P z tris) : ∀ t ∈ tris, ValidTri pts.length t := by
  intro t ht
  obtain ⟨h1, h2, h3⟩ := h.range t ht
  have hn := h.nondeg t ht
  refine ⟨h1, h2, h3, fun h0 => hn ?_, fun h0 => hn ?_, fun h0 => hn ?_⟩ <;> unfold OnLine <;> rw [h0] <;> ring

theorem input_place (hP : ∀ i (hi : i < pts.length), givenXYZ pts[i] = ((P i).1, (P i).2, z i)) {m : Mesh} (hv : ∀ t ∈ tris, ValidTri pts.length t)
    (hm : readDelaunay pts (toInts tris) = .ok m) : ∀ i < pts.length, nodeAt m (i + 1) = P i ∧ (m.node (i + 1)).xyz.z = z i ∧
      (m.node (i + 1)).cp (m.node (i + 1)).xyz = (m.node (i + 1)).xyz := by
  obtain ⟨m', hm', h1, h2, h3, _⟩ := (C05_preserved pts (toInts tris)).2 (by
    intro t ht
    simp only [toInts, List.mem_map] at ht
    obtain ⟨s, hs, rfl⟩ := ht
    obtain ⟨v1, v2, v3, _⟩ := hv s hs
    intro i hi
    simp only [List.mem_cons, List.not_mem_nil, or_false] at hi
    rcases hi with rfl | rfl | rfl <;> constructor <;> omega)
  rw [hm] at hm'
  cases hm'
  intro i hi
  obtain ⟨a, b, _⟩ := h3 i hi
  rw [hP i hi] at a
  simp only [Prod.mk.injEq] at a
  exact ⟨by unfold nodeAt nx ny; rw [a.1, a.2.1], a.2.2, b⟩

theorem Spec.InputTriangulation.mesh (h : InputTriangulation pts.length P z tris) (hP : ∀ i (hi : i < pts.length), givenXYZ pts[i] = ((P i).1, (P i).2, z i))
    {m : Mesh} (hm : readDelaunay pts (toInts tris) = .ok m) : Triangulation m := by
  have hv := h.valid
  have hpl := input_place hP hv hm
  have hid : ∀ i ∈ m.nids, ∃ j < pts.length, i = j + 1 := by
    intro i hi
    rw [nids_of_input hm, List.mem_range'_1] at hi
    exact ⟨i - 1, by omega, by omega⟩
  have hins : ∀ j (hj : j < tris.length), nodeAt m (m.tria (j + 1)).n1 = P tris[j].1 ∧ nodeAt m (m.tria (j + 1)).n2 = P tris[j].2.1 ∧
      nodeAt m (m.tria (j + 1)).n3 = P tris[j].2.2 := by
    intro j hj
    obtain ⟨a, b, c⟩ := tria_of_input hv hm j hj
    obtain ⟨r1, r2, r3⟩ := h.range _ (List.getElem_mem hj)
    rw [a, b, c, (hpl _ r1).1, (hpl _ r2).1, (hpl _ r3).1]
    exact ⟨rfl, rfl, rfl⟩
  refine ⟨?_, ?_, ?_, ?_⟩
  · intro i hi
    obtain ⟨j, hj, rfl⟩ := hid i hi
    exact (hpl j hj).2.2
  · intro i hi i' hi'
    obtain ⟨j, hj, rfl⟩ := hid i hi
    obtain ⟨j', hj', rfl⟩ := hid i' hi'
    rw [(hpl j hj).2.1, (hpl j' hj').2.1]
    exact h.flat j hj j' hj'
  · intro e he
    obtain ⟨j, hj, rfl⟩ := (mem_eids_input hm e).1 he
    obtain ⟨a, b, c⟩ := hins j hj
    rw [a, b, c]
    exact h.nondeg _ (List.getElem_mem hj)
  · intro e he e' he' hne
    obtain ⟨j, hj, rfl⟩ := (mem_eids_input hm e).1 he
    obtain ⟨j', hj', rfl⟩ := (mem_eids_input hm e').1 he'
    obtain ⟨a, b, c⟩ := hins j hj
    obtain ⟨a', b', c'⟩ := hins j' hj'
    unfold inside
    rw [a, b, c, a', b', c']
    rcases lt_or_gt_of_ne (fun h0 => hne (by rw [h0]) : j ≠ j') with hlt | hlt
    · exact List.pairwise_iff_getElem.1 h.apart j j' hj hj' hlt
    · exact (List.pairwise_iff_getElem.1 h.apart j' j hj' hj hlt).symm

/-- C90: every list of non-overlapping triangles in a plane is read; as long as no node is moved the mesh is a valid plate, and `calc_k0` accepts
it once it has properties -/
theorem C90_input (h : InputTriangulation pts.length P z tris) (hP : ∀ i (hi : i < pts.length), givenXYZ pts[i] = ((P i).1, (P i).2, z i))
    (hne : pts ≠ []) : ∃ m, readDelaunay pts (toInts tris) = .ok m ∧ ∀ ops : List Op, (∀ op ∈ ops, op.isMove = false) →
      Proper (run m ops) ∧ Planar (run m ops) ∧
      ∀ pn, HasProps (run m ops) pn → ∃ K, (calcK0 (run m ops) pn).2 = .ok K ∧ K.dim = 5 * pts.length := by
  obtain ⟨m, hm⟩ := C08_accepted pts tris h.range
  refine ⟨m, hm, fun ops ho => ?_⟩
  have w := wf_readDelaunay hm
  have hr : Reachable (run m ops) := .delaunay _ _ _ hm ops
  obtain ⟨hg, he⟩ := sameGeo_run ops w ho
  have ht := hg.triangulation he (h.mesh hP hm)
  refine ⟨ht.proper hr.wf, ht.planar hr.wf, fun pn hh => ?_⟩
  have hn : (run m ops).nids.length = pts.length := by rw [hg.nids, nids_of_input hm, List.length_range']
  obtain ⟨K, hK, hd⟩ := C11_success hr (ht.proper hr.wf) (by intro h0; rw [h0] at hn; exact hne (List.length_eq_zero_iff.1 hn.symm)) hh
  exact ⟨K, hK, by rw [hd, hn]⟩

/-! ### C91 -/

/-- the statements giving every node, or every triangle, its laminate: `lam i` for the `i`-th point or triangle -/
def assign (pn : Bool) (lam : ℕ → Lam) (N T : ℕ) : List Op :=
  if pn then (List.range N).map fun i => .setNodeProp (i + 1) (some (lam i)) else (List.range T).map fun e => .setTriaProp (e + 1) (some (lam e))

theorem setNodes_spec (lam : ℕ → Lam) : ∀ (l : List ℕ) (m : Mesh), (∀ i ∈ l, i + 1 ∈ m.nids) →
    ∀ i, i + 1 ∈ m.nids → (∃ j, j = i ∧ (j ∈ l ∨ (m.node (i + 1)).prop = some (lam i))) →
      ((run m (l.map fun i => .setNodeProp (i + 1) (some (lam i)))).node (i + 1)).prop = some (lam i) := by
  intro l
  induction l with
  | nil => rintro m _ i _ ⟨j, rfl, h | h⟩; · cases h
           · exact h
  | cons a l ih =>
    rintro m hl i hi ⟨j, rfl, h⟩
    have ha := hl a (by simp)
    have hrun : run m ((a :: l).map fun i => .setNodeProp (i + 1) (some (lam i))) =
        run (m.updNode (a + 1) fun n => { n with prop := some (lam a) }) (l.map fun i => .setNodeProp (i + 1) (some (lam i))) := by
      simp only [run, List.map_cons, List.foldl_cons, step, if_pos ha]
    rw [hrun]
    refine ih (m.updNode (a + 1) fun n => { n with prop := some (lam a) }) (fun i hi => hl i (List.mem_cons_of_mem _ hi)) j hi ⟨j, rfl, ?_⟩
    by_cases hja : j = a
    · right; subst hja; simp [Mesh.updNode]
    · rcases h with h | h
      · left; simpa [hja] using h
      · right; simpa [Mesh.updNode, hja] using h

theorem setTrias_spec (lam : ℕ → Lam) : ∀ (l : List ℕ) (m : Mesh), (∀ i ∈ l, i + 1 ∈ m.eids) →
    ∀ i, (i ∈ l ∨ (m.tria (i + 1)).prop = some (lam i)) →
      ((run m (l.map fun i => .setTriaProp (i + 1) (some (lam i)))).tria (i + 1)).prop = some (lam i) := by
  intro l
  induction l with
  | nil => rintro m _ i (h | h); · cases h
           · exact h
  | cons a l ih =>
    rintro m hl i h
    have ha := hl a (by simp)
    have hrun : run m ((a :: l).map fun i => .setTriaProp (i + 1) (some (lam i))) =
        run (m.updTria (a + 1) fun n => { n with prop := some (lam a) }) (l.map fun i => .setTriaProp (i + 1) (some (lam i))) := by
      simp only [run, List.map_cons, List.foldl_cons, step, if_pos ha]
    rw [hrun]
    refine ih (m.updTria (a + 1) fun n => { n with prop := some (lam a) }) (fun i hi => hl i (List.mem_cons_of_mem _ hi)) i ?_
    by_cases hja : i = a
    · right; subst hja; simp [Mesh.updTria]
    · rcases h with h | h
      · left; simpa [hja] using h
      · right; simpa [Mesh.updTria, hja] using h

theorem assign_noMove (pn : Bool) (lam : ℕ → Lam) (N T : ℕ) : ∀ op ∈ assign pn lam N T, op.isMove = false := by
  intro op ho
  unfold assign at ho
  split at ho <;> obtain ⟨i, _, rfl⟩ := List.mem_map.1 ho <;> rfl

/-- a connected input gives a connected mesh -/
theorem input_onePiece (h : InputTriangulation pts.length P z tris) (hc : InputOnePiece pts.length tris) {m m' : Mesh}
    (hm : readDelaunay pts (toInts tris) = .ok m) (hg : SameGeo m m') (he : m'.eids = m.eids) (w' : WF m') : OnePiece m' := by
  have hv := h.valid
  have hnd : tris.Nodup := h.apart.imp (fun {a b} hd h0 => by subst h0; exact openTri_ne _ _ _ hd)
  have hcor : ∀ j (hj : j < tris.length) i, IsCorner m' (j + 1) (i + 1) ↔ InTri tris[j] i := by
    intro j hj i
    obtain ⟨a, b, c⟩ := tria_of_input hv hm j hj
    obtain ⟨a', b', c'⟩ := hg.corner (j + 1)
    unfold IsCorner InTri
    rw [a', b', c', a, b, c]
    simp
  have hdist : ∀ e ∈ m'.eids, (m'.tria e).Distinct := by
    intro e h0
    rw [he] at h0
    obtain ⟨a', b', c'⟩ := hg.corner e
    have := distinct_input hv hm e h0
    unfold Tria.Distinct
    rw [a', b', c']
    exact this
  have hmem : ∀ j < tris.length, j + 1 ∈ m'.eids := fun j hj => by rw [he]; exact (mem_eids_input hm _).2 ⟨j, hj, rfl⟩
  constructor
  · intro e h1 e' h2
    rw [he] at h1 h2
    obtain ⟨j, hj, rfl⟩ := (mem_eids_input hm e).1 h1
    obtain ⟨j', hj', rfl⟩ := (mem_eids_input hm e').1 h2
    have hw := hc.walk _ (List.getElem_mem hj) _ (List.getElem_mem hj')
    have hlift := hw.lift (fun t => tris.idxOf t + 1) (p := Adjacent m') (by
      rintro s s' ⟨hs, hs', a, b, hab, c1, c2, c3, c4⟩
      have l := List.idxOf_lt_length_iff.2 hs
      have l' := List.idxOf_lt_length_iff.2 hs'
      have g : tris[tris.idxOf s] = s := List.getElem_idxOf l
      have g' : tris[tris.idxOf s'] = s' := List.getElem_idxOf l'
      have wlog : ∀ a b, a < b → InTri s a → InTri s b → InTri s' a → InTri s' b → Adjacent m' (tris.idxOf s + 1) (tris.idxOf s' + 1) := by
        intro a b hlt c1 c2 c3 c4
        have k1 : (a + 1, b + 1) ∈ (m'.tria (tris.idxOf s + 1)).edgeIds :=
          (mem_edgeIds (hdist _ (hmem _ l)) _).2 ⟨by simpa using hlt, (hcor _ l a).2 (by rw [g]; exact c1), (hcor _ l b).2 (by rw [g]; exact c2)⟩
        have k2 : (a + 1, b + 1) ∈ (m'.tria (tris.idxOf s' + 1)).edgeIds :=
          (mem_edgeIds (hdist _ (hmem _ l')) _).2 ⟨by simpa using hlt, (hcor _ l' a).2 (by rw [g']; exact c3), (hcor _ l' b).2 (by rw [g']; exact c4)⟩
        have hk : (a + 1, b + 1) ∈ m'.ekeys := (w'.mem_ekeys _).2 ⟨_, hmem _ l, k1⟩
        refine ⟨_, hk, ?_, ?_⟩ <;> rw [w'.etrias _ hk, mem_sideTrias]
        · exact ⟨hmem _ l, k1⟩
        · exact ⟨hmem _ l', k2⟩
      rcases lt_or_gt_of_ne hab with hlt | hlt
      · exact wlog a b hlt c1 c2 c3 c4
      · exact wlog b a hlt c2 c1 c4 c3)
    simpa only [Function.onFun, hnd.idxOf_getElem] using hlift
  · intro i hi
    rw [hg.nids, nids_of_input hm, List.mem_range'_1] at hi
    obtain ⟨t, ht, hti⟩ := hc.used (i - 1) (by omega)
    obtain ⟨j, hj, rfl⟩ := List.getElem_of_mem ht
    refine ⟨j + 1, hmem j hj, ?_⟩
    have := (hcor j hj (i - 1)).2 hti
    rwa [show i - 1 + 1 = i by omega] at this

/-- C91: from points, triangles and laminates to the solution of a static problem. The dofs of point `i` are `5 * i, ..., 5 * i + 4`. -/
theorem C91_static (h : InputTriangulation pts.length P z tris) (hP : ∀ i (hi : i < pts.length), givenXYZ pts[i] = ((P i).1, (P i).2, z i))
    (hc : InputOnePiece pts.length tris) (hne : pts ≠ []) (pn : Bool) (lam : ℕ → Lam) (hl : ∀ i, StiffABD (lam i) ∧ StiffShear (lam i))
    {method : String} (hme : method = "cell-based" ∨ method = "cell-based-no-smoothing") {al : ℝ} (ha : 0 ≤ al) (fa : Bool) :
    ∃ m m' K0 K, readDelaunay pts (toInts tris) = .ok m ∧ calcK0 (run m (assign pn lam pts.length tris.length)) pn = (m', .ok K0) ∧
      addK0s K0 m' pn method al fa = (K, none) ∧ K.dim = 5 * pts.length ∧
      ∀ i < pts.length, ∀ j < pts.length, P i ≠ P j → ∀ S : Set ℕ, (∀ r < 5, 5 * i + r ∈ S ∧ 5 * j + r ∈ S) → ∀ f : ℕ → ℝ,
        ∃ d : ℕ → ℝ, ((∀ a < K.dim, a ∈ S → d a = 0) ∧ ∀ a < K.dim, a ∉ S → ∑ b ∈ range K.dim, K.get a b * d b = f a) ∧
          ∀ d' : ℕ → ℝ, ((∀ a < K.dim, a ∈ S → d' a = 0) ∧ ∀ a < K.dim, a ∉ S → ∑ b ∈ range K.dim, K.get a b * d' b = f a) → ∀ a < K.dim, d' a = d a := by
  obtain ⟨m, hm⟩ := C08_accepted pts tris h.range
  have w := wf_readDelaunay hm
  set ops := assign pn lam pts.length tris.length with hops
  have hr : Reachable (run m ops) := .delaunay _ _ _ hm ops
  obtain ⟨hg, he⟩ := sameGeo_run ops w (assign_noMove _ _ _ _)
  have ht := hg.triangulation he (h.mesh hP hm)
  have hn : (run m ops).nids = List.range' 1 pts.length := by rw [hg.nids, nids_of_input hm]
  have hei : (run m ops).eids = List.range' 1 tris.length := by rw [he, eids_of_input hm]; simp [toInts]
  have hnode : pn = true → ∀ i < pts.length, ((run m ops).node (i + 1)).prop = some (lam i) := by
    intro hpn i hi
    rw [hops, assign, if_pos hpn]
    have hin : ∀ i < pts.length, i + 1 ∈ m.nids := fun i hi => by rw [nids_of_input hm, List.mem_range'_1]; omega
    exact setNodes_spec lam _ m (fun i hi => hin i (List.mem_range.1 hi)) i (hin i hi) ⟨i, rfl, Or.inl (List.mem_range.2 hi)⟩
  have htria : pn = false → ∀ e < tris.length, ((run m ops).tria (e + 1)).prop = some (lam e) := by
    intro hpn e hi
    rw [hops, assign, if_neg (by simp [hpn])]
    exact setTrias_spec lam _ m (fun i hi => (mem_eids_input hm _).2 ⟨i, List.mem_range.1 hi, rfl⟩) e (Or.inl (List.mem_range.2 hi))
  have hp := ht.proper hr.wf
  have hh : HasProps (run m ops) pn := by
    unfold HasProps
    cases hpn : pn with
    | true =>
      rw [if_pos rfl]
      intro e h1 i hi
      have := corner_mem hr.wf hp.distinct h1 hi
      rw [hn, List.mem_range'_1] at this
      have := hnode hpn (i - 1) (by omega)
      rw [show i - 1 + 1 = i by omega] at this
      rw [this]; rfl
    | false =>
      rw [if_neg (by simp)]
      intro e h1
      rw [hei, List.mem_range'_1] at h1
      have := htria hpn (e - 1) (by omega)
      rw [show e - 1 + 1 = e by omega] at this
      rw [this]; rfl
  have huse : ∀ l, InUse (run m ops) pn l → ∃ i, l = lam i := by
    intro l hu
    unfold InUse at hu
    cases hpn : pn with
    | true =>
      rw [if_pos hpn] at hu
      obtain ⟨i, hi, hl⟩ := hu
      rw [hn, List.mem_range'_1] at hi
      have := hnode hpn (i - 1) (by omega)
      rw [show i - 1 + 1 = i by omega, hl] at this
      exact ⟨i - 1, Option.some.inj this⟩
    | false =>
      rw [if_neg (by simp [hpn])] at hu
      obtain ⟨e, h1, hl⟩ := hu
      rw [hei, List.mem_range'_1] at h1
      have := htria hpn (e - 1) (by omega)
      rw [show e - 1 + 1 = e by omega, hl] at this
      exact ⟨e - 1, Option.some.inj this⟩
  have good : GoodPlate (run m ops) pn := ⟨hp, ht.planar hr.wf, input_onePiece h hc hm hg he hr.wf,
    fun l hu => by obtain ⟨i, rfl⟩ := huse l hu; exact (hl i).1, fun l hu => by obtain ⟨i, rfl⟩ := huse l hu; exact (hl i).2⟩
  have hlen : (run m ops).nids.length = pts.length := by rw [hn, List.length_range']
  obtain ⟨K0, hK0, hd0⟩ := C11_success hr hp (by intro h0; rw [h0] at hlen; exact hne (List.length_eq_zero_iff.1 hlen.symm)) hh
  have hadd := (C49_after hr hp hK0 [] (by simp)).1 method (by rcases hme with rfl | rfl <;> simp) al fa K0 rfl
  have hK : Stiffness (run m ops) pn method al fa (addK0s K0 (calcK0 (run m ops) pn).1 pn method al fa).1 := ⟨hme, K0, hK0, Prod.ext rfl hadd⟩
  refine ⟨m, _, K0, (addK0s K0 (calcK0 (run m ops) pn).1 pn method al fa).1, hm, Prod.ext rfl hK0, Prod.ext rfl hadd, ?_, ?_⟩
  · rw [(stiffness_energy hr good hK).1, hlen]
  intro i hi j hj hij S hS f
  have hidx : ∀ i < pts.length, (run m ops).nids.idxOf (i + 1) = i := by
    intro i hi
    have : (run m ops).nids[i]'(by rw [hlen]; exact hi) = i + 1 := by simp [hn, List.getElem_range', add_comm]
    rw [← this]
    exact hr.wf.nids_nodup.idxOf_getElem _ _
  have hpl : ∀ i < pts.length, nodeAt (run m ops) (i + 1) = P i := by
    intro i hi
    have := (input_place hP h.valid hm i hi).1
    rw [← this]
    simp only [nodeAt, nx, ny, hg.xyz]
  refine C76_static hr good ha hK ⟨i + 1, by rw [hn, List.mem_range'_1]; omega, j + 1, by rw [hn, List.mem_range'_1]; omega, Or.inl ⟨?_, ?_⟩⟩ f
  · by_contra h0
    push Not at h0
    apply hij
    rw [← hpl i hi, ← hpl j hj]
    exact Prod.ext h0.1 h0.2
  · intro r hr5
    simp only [dofNo, hidx i hi, hidx j hj]
    exact hS r hr5
end

/-! ### concrete case: the unit square of two triangles -/

/-- places of the four points -/
noncomputable def exP (i : ℕ) : ℝ × ℝ := if i = 0 then (0, 0) else if i = 1 then (1, 0) else if i = 2 then (1, 1) else (0, 1)

theorem exInput : InputTriangulation exPts.length exP (fun _ => 0) exTris := by
  refine ⟨?_, fun _ _ _ _ => rfl, ?_, ?_⟩
  · intro t ht
    obtain ⟨h1, h2, h3, _⟩ := exTris_valid t ht
    exact ⟨h1, h2, h3⟩
  · intro t ht
    simp [exTris] at ht
    rcases ht with rfl | rfl <;> simp [OnLine, exP]
  · simp only [exTris, List.pairwise_cons, List.mem_cons, List.not_mem_nil, or_false, forall_eq, false_implies, implies_true, List.Pairwise.nil, and_true]
    rw [Set.disjoint_left]
    rintro p ⟨x, y, w, hx, hy, hw, hs, rfl⟩ ⟨x', y', w', hx', hy', hw', hs', he⟩
    simp [exP] at he
    linarith [he.1, he.2]

theorem exInput_given : ∀ i (hi : i < exPts.length), givenXYZ exPts[i] = ((exP i).1, (exP i).2, 0) := by
  intro i hi
  simp [exPts] at hi
  interval_cases i <;> simp [exPts, exP, givenXYZ]

theorem exInput_piece : InputOnePiece exPts.length exTris := by
  constructor
  · intro t ht t' ht'
    by_cases h : t = t'
    · rw [h]
    · refine .single ⟨ht, ht', 0, 2, by norm_num, ?_⟩
      simp [exTris] at ht ht'
      rcases ht with rfl | rfl <;> rcases ht' with rfl | rfl <;> simp [InTri]
  · intro i hi
    simp [exPts] at hi
    interval_cases i <;> simp [exTris, InTri]

example : ∃ m, readDelaunay exPts (toInts exTris) = .ok m ∧ Proper (run m [.setNodeProp 1 none]) ∧ Planar (run m [.setNodeProp 1 none]) := by
  obtain ⟨m, hm, h⟩ := C90_input exInput exInput_given (by simp [exPts])
  obtain ⟨h1, h2, _⟩ := h [.setNodeProp 1 none] (by simp [Op.isMove])
  exact ⟨m, hm, h1, h2⟩

/-- the square clamped at points 0 and 3 under any load, another thickness at every point -/
example (f : ℕ → ℝ) : ∃ m m' K0 K, readDelaunay exPts (toInts exTris) = .ok m ∧
    calcK0 (run m (assign true (fun i => { exIso with h := i + 1 }) 4 2)) true = (m', .ok K0) ∧ addK0s K0 m' true "cell-based" (1 / 10) false = (K, none) ∧
      ∃ d : ℕ → ℝ, (∀ a < K.dim, a ∈ {a : ℕ | a < 5 ∨ 15 ≤ a} → d a = 0) ∧ ∀ a < K.dim, a ∉ {a : ℕ | a < 5 ∨ 15 ≤ a} → ∑ b ∈ range K.dim, K.get a b * d b = f a := by
  obtain ⟨m, m', K0, K, h1, h2, h3, _, h5⟩ := C91_static exInput exInput_given exInput_piece (by simp [exPts]) true (fun i => { exIso with h := i + 1 })
    (fun i => ⟨exIso_stiff, by positivity, exIso_shear.2⟩) (Or.inl rfl) (al := 1 / 10) (by norm_num) false
  obtain ⟨d, hd, _⟩ := h5 0 (by simp [exPts]) 3 (by simp [exPts]) (by simp [exP]) {a : ℕ | a < 5 ∨ 15 ≤ a} (by intro r hr; simp; omega) f
  exact ⟨m, m', K0, K, h1, h2, h3, d, hd⟩

end Meshless
