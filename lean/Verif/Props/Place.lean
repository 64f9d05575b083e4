import Verif.Spec.Place
import Verif.Props.Turn
import Verif.Props.Stable

set_option autoImplicit false

namespace Meshless
open Spec Finset

section
variable {m m' : Mesh}

theorem Spec.SamePlaces.plate (h : SamePlaces m m') (hb : InBasic m) (hb' : InBasic m') : SamePlate id id 1 0 0 m m' := by
  have hx : ∀ i ∈ m.nids, (m'.node i).xyz = (m.node i).xyz := fun i hi => by
    rw [← hb' i (h.nids ▸ hi), ← hb i hi]; exact h.place i hi
  refine ⟨by rw [h.nids, List.map_id], by rw [h.eids, List.map_id], fun e he => ?_, h.tprop, fun i hi => ?_, fun i hi => ?_, h.nprop⟩
  · rw [List.map_id]; exact List.Perm.of_eq (h.corner e he)
  · simp [nx, hx i hi]
  · simp [ny, hx i hi]

/-- C145, what holds: when both decks are written in the basic system, the matrix of `calc_k0` depends on the places of the nodes only.
The property as stated, for all coordinate systems, is false: `C145_shifted`. -/
theorem C145_stiffness_partial (hr : Reachable m) (hr' : Reachable m') (hp : Proper m) (hg : Planar m) (h : SamePlaces m m') (hb' : InBasic m')
    {pn : Bool} {K : Mat} (hK : (calcK0 m pn).2 = .ok K) : (calcK0 m' pn).2 = .ok K := by
  have hx : ∀ i ∈ m.nids, (m'.node i).xyz = (m.node i).xyz := fun i hi => by
    rw [← hb' i (h.nids ▸ hi), ← hg.basic i hi]; exact h.place i hi
  refine same_matrix hr hr' hp hg (h.plate hg.basic hb') h.nids one_ne_zero hb' (fun i hi j hj => ?_) hK
  rw [h.nids] at hi hj
  rw [hx i hi, hx j hj]
  exact hg.flat i hi j hj

/-- C145, what holds, for `calc_kG` -/
theorem C145_geometric_partial (ha : AfterK0 m) (ha' : AfterK0 m') (hp : Proper m) (hg : Planar m) (h : SamePlaces m m') (hb' : InBasic m')
    {pn : Bool} (hh : HasProps m pn) {d : List ℝ} (hd : d.length = 5 * m.nids.length) :
    ∃ K K', calcKG m d pn = .ok K ∧ calcKG m' d pn = .ok K' ∧ K'.dim = K.dim ∧ ∀ i < K.dim, ∀ j < K.dim, K'.get i j = K.get i j := by
  have hx : ∀ i ∈ m.nids, (m'.node i).xyz = (m.node i).xyz := fun i hi => by
    rw [← hb' i (h.nids ▸ hi), ← hg.basic i hi]; exact h.place i hi
  obtain ⟨K, K', e1, e2, e3, e4⟩ := C88_renumber ha ha' hp hg (h.plate hg.basic hb') one_ne_zero hb' (fun i hi j hj => by
    rw [h.nids] at hi hj
    rw [hx i hi, hx j hj]
    exact hg.flat i hi j hj) hh (d := d) (d' := d) hd (by rw [h.nids]; exact hd) (fun r _ i _ => by simp only [disp, h.nids, id])
  refine ⟨K, K', e1, e2, e3, ?_⟩
  obtain ⟨K2, f1, f2⟩ := C49_kG ha hp hh hd
  have : K2 = K := by rw [e1] at f1; injection f1 with f1; exact f1.symm
  subst this
  intro i hi j hj
  rw [f2] at hi hj
  have hi' := List.getElem_mem (show i / 5 < m.nids.length by omega)
  have hj' := List.getElem_mem (show j / 5 < m.nids.length by omega)
  have := e4 _ hi' _ hj' (i % 5) (by omega) (j % 5) (by omega)
  simp only [id, h.nids, ha.wf.nids_nodup.idxOf_getElem, div_one] at this
  rw [show 5 * (i / 5) + i % 5 = i by omega, show 5 * (j / 5) + j % 5 = j by omega] at this
  exact this

end

/-! ### a plate written in a shifted system -/

/-- deck of one triangle with all nodes in the system `c` -/
def deckOne (p1 p2 p3 : Vec3) (c : Vec3 → Vec3) : Deck := ⟨[(1, p1, c), (2, p2, c), (3, p3, c)], [(1, some (1, 2, 3))]⟩

/-- the system whose origin lies at `t` on the x axis -/
def shiftX (t : ℝ) : Vec3 → Vec3 := fun p => ⟨p.x + t, p.y, p.z⟩

/-- the mesh read from the deck, with the laminate `l` -/
noncomputable def exDeck (p1 p2 p3 : Vec3) (c : Vec3 → Vec3) (l : Lam) : Mesh :=
  run (match readMesh (deckOne p1 p2 p3 c) with | .ok m => m | .error _ => emptyMesh) [.setTriaProp 1 (some l)]

section
variable (p1 p2 p3 : Vec3) (c : Vec3 → Vec3) (l : Lam)

theorem exDeck_reachable : Reachable (exDeck p1 p2 p3 c l) := .deck (deckOne p1 p2 p3 c) (by simp [deckOne]) (by simp [deckOne]) _ rfl _
theorem exDeck_nids : (exDeck p1 p2 p3 c l).nids = [1, 2, 3] := by rfl
theorem exDeck_eids : (exDeck p1 p2 p3 c l).eids = [1] := by rfl
theorem exDeck_tria : (exDeck p1 p2 p3 c l).tria 1 = ⟨1, 2, 3, some l, [(1, 2), (2, 3), (1, 3)]⟩ := by rfl
theorem exDeck_ekeys : (exDeck p1 p2 p3 c l).ekeys = [(1, 2), (2, 3), (1, 3)] := by rfl
theorem exDeck_x1 : ((exDeck p1 p2 p3 c l).node 1).xyz = p1 := by rfl
theorem exDeck_x2 : ((exDeck p1 p2 p3 c l).node 2).xyz = p2 := by rfl
theorem exDeck_x3 : ((exDeck p1 p2 p3 c l).node 3).xyz = p3 := by rfl
theorem exDeck_c1 : ((exDeck p1 p2 p3 c l).node 1).cp = c := by rfl
theorem exDeck_c2 : ((exDeck p1 p2 p3 c l).node 2).cp = c := by rfl
theorem exDeck_c3 : ((exDeck p1 p2 p3 c l).node 3).cp = c := by rfl
theorem exDeck_p1 : ((exDeck p1 p2 p3 c l).node 1).prop = none := by rfl
theorem exDeck_p2 : ((exDeck p1 p2 p3 c l).node 2).prop = none := by rfl
theorem exDeck_p3 : ((exDeck p1 p2 p3 c l).node 3).prop = none := by rfl
theorem exDeck_e1 : ((exDeck p1 p2 p3 c l).edge (1, 2)).trias = [1] := by rfl
theorem exDeck_e2 : ((exDeck p1 p2 p3 c l).edge (2, 3)).trias = [1] := by rfl
theorem exDeck_e3 : ((exDeck p1 p2 p3 c l).edge (1, 3)).trias = [1] := by rfl

end

/-- one triangle with legs along x and y, the corner of the right angle at `s` on the x axis of the system `c` -/
noncomputable def exPlace (s : ℝ) (c : Vec3 → Vec3) : Mesh := exDeck ⟨s, 0, 0⟩ ⟨1 + s, 0, 0⟩ ⟨s, 1, 0⟩ c exIso

section
variable (s t : ℝ) (c : Vec3 → Vec3)

theorem exPlace_reachable : Reachable (exPlace s c) := exDeck_reachable ..
theorem exPlace_nids : (exPlace s c).nids = [1, 2, 3] := exDeck_nids ..
theorem exPlace_eids : (exPlace s c).eids = [1] := exDeck_eids ..
theorem exPlace_tria : (exPlace s c).tria 1 = ⟨1, 2, 3, some exIso, [(1, 2), (2, 3), (1, 3)]⟩ := exDeck_tria ..
theorem exPlace_ekeys : (exPlace s c).ekeys = [(1, 2), (2, 3), (1, 3)] := exDeck_ekeys ..
theorem exPlace_x1 : ((exPlace s c).node 1).xyz = ⟨s, 0, 0⟩ := exDeck_x1 ..
theorem exPlace_x2 : ((exPlace s c).node 2).xyz = ⟨1 + s, 0, 0⟩ := exDeck_x2 ..
theorem exPlace_x3 : ((exPlace s c).node 3).xyz = ⟨s, 1, 0⟩ := exDeck_x3 ..
theorem exPlace_c1 : ((exPlace s c).node 1).cp = c := exDeck_c1 ..
theorem exPlace_c2 : ((exPlace s c).node 2).cp = c := exDeck_c2 ..
theorem exPlace_c3 : ((exPlace s c).node 3).cp = c := exDeck_c3 ..
theorem exPlace_p {i : ℕ} (hi : i ∈ [1, 2, 3]) : ((exPlace s c).node i).prop = none := by
  simp only [List.mem_cons, List.not_mem_nil, or_false] at hi
  rcases hi with rfl | rfl | rfl
  · rw [exPlace]; exact exDeck_p1 _ _ _ _ _
  · rw [exPlace]; exact exDeck_p2 _ _ _ _ _
  · rw [exPlace]; exact exDeck_p3 _ _ _ _ _
theorem exPlace_e1 : ((exPlace s c).edge (1, 2)).trias = [1] := exDeck_e1 ..
theorem exPlace_e2 : ((exPlace s c).edge (2, 3)).trias = [1] := exDeck_e2 ..
theorem exPlace_e3 : ((exPlace s c).edge (1, 3)).trias = [1] := exDeck_e3 ..

attribute [irreducible] exPlace

theorem exPlace_proper : Proper (exPlace s c) := by
  refine ⟨?_, ?_, ?_⟩
  · intro e he
    rw [exPlace_eids, List.mem_singleton] at he
    subst he
    rw [exPlace_tria]; simp
  · intro k hk
    rw [exPlace_ekeys] at hk
    simp only [List.mem_cons, List.not_mem_nil, or_false] at hk
    rcases hk with rfl | rfl | rfl
    · rw [exPlace_e1]; simp
    · rw [exPlace_e2]; simp
    · rw [exPlace_e3]; simp
  · intro e he e' he' _
    rw [exPlace_eids, List.mem_singleton] at he he'
    rw [he, he']

theorem exPlace_has : HasProps (exPlace s c) false := by
  intro e he
  rw [exPlace_eids, List.mem_singleton] at he
  rw [he, exPlace_tria]; rfl

theorem exPlace_same : SamePlaces (exPlace t id) (exPlace 0 (shiftX t)) := by
  refine ⟨by rw [exPlace_nids, exPlace_nids], by rw [exPlace_eids, exPlace_eids], fun e he => ?_, fun e he => ?_, fun i hi => ?_, fun i hi => ?_⟩
  · rw [exPlace_eids, List.mem_singleton] at he
    subst he
    simp only [corners, exPlace_tria]
  · rw [exPlace_eids, List.mem_singleton] at he
    subst he
    rw [exPlace_tria, exPlace_tria]
  · rw [exPlace_nids] at hi
    rw [exPlace_p _ _ hi, exPlace_p _ _ hi]
  · rw [exPlace_nids] at hi; simp only [List.mem_cons, List.not_mem_nil, or_false] at hi; rcases hi with rfl | rfl | rfl
    · rw [exPlace_c1, exPlace_c1, exPlace_x1, exPlace_x1]; simp [shiftX]
    · rw [exPlace_c2, exPlace_c2, exPlace_x2, exPlace_x2]; simp [shiftX]
    · rw [exPlace_c3, exPlace_c3, exPlace_x3, exPlace_x3]; simp [shiftX]

theorem exPlace_planar : Planar (exPlace s id) := by
  refine ⟨?_, ?_, ?_, ?_⟩
  · intro i hi
    rw [exPlace_nids] at hi; simp only [List.mem_cons, List.not_mem_nil, or_false] at hi
    rcases hi with rfl | rfl | rfl
    · rw [exPlace_c1]; rfl
    · rw [exPlace_c2]; rfl
    · rw [exPlace_c3]; rfl
  · intro i hi j hj
    rw [exPlace_nids] at hi hj; simp only [List.mem_cons, List.not_mem_nil, or_false] at hi hj
    have : ∀ i, i = 1 ∨ i = 2 ∨ i = 3 → ((exPlace s id).node i).xyz.z = 0 := by
      rintro i (rfl | rfl | rfl)
      · rw [exPlace_x1]
      · rw [exPlace_x2]
      · rw [exPlace_x3]
    rw [this i hi, this j hj]
  · intro e he
    rw [exPlace_eids, List.mem_singleton] at he
    subst he
    rw [exPlace_tria, sarea3]
    simp only [mean_single, nx, ny, exPlace_x1, exPlace_x2, exPlace_x3]
    norm_num
  · intro k hk t1 t2 ht
    rw [exPlace_ekeys] at hk
    simp only [List.mem_cons, List.not_mem_nil, or_false] at hk
    rcases hk with rfl | rfl | rfl
    · rw [exPlace_e1] at ht; simp at ht
    · rw [exPlace_e2] at ht; simp at ht
    · rw [exPlace_e3] at ht; simp at ht

end

/-- displacements of the turn of the plate about the origin of the basic system -/
noncomputable def exTurn (t : ℝ) : ℕ → ℝ := fun j => if j = 1 then t else if j = 6 then 1 + t else if j = 10 then -1 else if j = 11 then t else 0

/-- sums over the integration points of a boundary edge, wherever the centroid lies in the plane of the nodes -/
theorem wsum_side {m : Mesh} {t a b o : ℕ} (za : (m.node a).xyz.z = (m.mid t).z) (zb : (m.node b).xyz.z = (m.mid t).z) (h : ℕ → ℝ) :
    wsum IPt.ny h (iptsA m t a b o ++ iptsB m t a b o) =
        -((nx m a - (m.mid t).x) * (2/3 * h a + 1/6 * h b + 1/6 * h o) + ((m.mid t).x - nx m b) * (1/6 * h a + 2/3 * h b + 1/6 * h o)
        + (nx m b - nx m a) * (1/2 * h a + 1/2 * h b)) := by
  obtain ⟨p1, p2, _⟩ := seg_normal (t := (m.node a).xyz.sub (m.mid t)) (by simp [Vec3.sub, za])
  obtain ⟨q1, q2, _⟩ := seg_normal (t := (m.mid t).sub (m.node b).xyz) (by simp [Vec3.sub, zb])
  obtain ⟨r1, r2, _⟩ := seg_normal (t := (m.node b).xyz.sub (m.node a).xyz) (by simp [Vec3.sub, za, zb])
  simp only [wsum, iptsA, iptsB, mkIPt, List.cons_append, List.nil_append, List.map_cons, List.map_nil, List.sum_cons, List.sum_nil]
  rw [p2, q2, r2]
  simp only [Vec3.sub, nx]
  ring

theorem polyArea_nonneg (a b c : Vec3) : 0 ≤ polyArea [a, b, c, a] := by rw [polyArea4]; positivity

/-- C145 is false in general: one triangle, read once in the basic system and once in a system with the origin elsewhere. Both are read and
both matrices are returned, but a turn of the plate as a rigid body, which takes no energy of the first, takes energy of the second. -/
theorem C145_shifted {t : ℝ} (ht : t ≠ 0) : SamePlaces (exPlace t id) (exPlace 0 (shiftX t)) ∧
    ∃ K K', (calcK0 (exPlace t id) false).2 = .ok K ∧ (calcK0 (exPlace 0 (shiftX t)) false).2 = .ok K' ∧ K.dim = 15 ∧ K'.dim = 15 ∧
      form 15 K.get (exTurn t) (exTurn t) = 0 ∧ 0 < form 15 K'.get (exTurn t) (exTurn t) ∧ K ≠ K' := by
  refine ⟨exPlace_same t, ?_⟩
  obtain ⟨K, hK, hKd⟩ := C11_success (exPlace_reachable t id) (exPlace_proper t id) (by rw [exPlace_nids]; simp) (exPlace_has t id)
  have hc := exPlace_reachable 0 (shiftX t)
  obtain ⟨K', hK', hKd', hs, hq, h3⟩ := calcK0_proper hc.wf (exPlace_proper 0 (shiftX t)) (exPlace_has 0 (shiftX t)) (by rw [exPlace_nids]; simp)
  rw [exPlace_nids] at hKd hKd'
  have h0 : form 15 K.get (exTurn t) (exTurn t) = 0 := by
    have hrow := C20_rigid (exPlace_reachable t id) (exPlace_proper t id) (exPlace_planar t) hK (d := exTurn t) (a := 0) (b := 0) (c := 1) (p := 0) (q := 0)
      (by
        intro i hi
        rw [exPlace_nids] at hi; simp only [List.mem_cons, List.not_mem_nil, or_false] at hi
        rcases hi with rfl | rfl | rfl <;> simp only [disp, exPlace_nids, ny, exPlace_x1, exPlace_x2, exPlace_x3] <;>
          norm_num [exTurn, List.idxOf_cons])
      (by
        intro i hi
        rw [exPlace_nids] at hi; simp only [List.mem_cons, List.not_mem_nil, or_false] at hi
        rcases hi with rfl | rfl | rfl <;> simp only [disp, exPlace_nids, nx, exPlace_x1, exPlace_x2, exPlace_x3] <;>
          norm_num [exTurn, List.idxOf_cons])
      (by
        intro i hi
        rw [exPlace_nids] at hi; simp only [List.mem_cons, List.not_mem_nil, or_false] at hi
        rcases hi with rfl | rfl | rfl <;> simp only [disp, exPlace_nids] <;> norm_num [exTurn, List.idxOf_cons])
      (by
        intro i hi
        rw [exPlace_nids] at hi; simp only [List.mem_cons, List.not_mem_nil, or_false] at hi
        rcases hi with rfl | rfl | rfl <;> simp only [disp, exPlace_nids] <;> norm_num [exTurn, List.idxOf_cons])
    have hKd2 : K.dim = 15 := by rw [hKd]; rfl
    rw [hKd2] at hrow
    unfold form
    apply Finset.sum_eq_zero
    intro i hi
    have := hrow i (Finset.mem_range.1 hi)
    calc _ = exTurn t i * ∑ j ∈ range 15, K.get i j * exTurn t j := by rw [Finset.mul_sum]; exact Finset.sum_congr rfl fun j _ => by ring
      _ = 0 := by rw [this, mul_zero]
  have h1 : 0 < form 15 K'.get (exTurn t) (exTurn t) := by
    set m2 := (calcK0 (exPlace 0 (shiftX t)) false).1 with hm2
    have hget : K'.get = fun i j => ((exPlace 0 (shiftX t)).ekeys.map fun k => entrySum 15
        (okEntries ((k0Env m2 false (m2.edge k)).map k0Entries)) i j).sum := by funext i j; rw [h3 i j, exPlace_nids]; rfl
    have e1 : form 15 K'.get (exTurn t) (exTurn t) = ((exPlace 0 (shiftX t)).ekeys.map fun k => bil 15 (entrySum 15
        (okEntries ((k0Env m2 false (m2.edge k)).map k0Entries))) (exTurn t) (exTurn t)).sum := by
      rw [hget]
      exact bil_sum _ _ _ _ _
    have hw2 := hs.wf hc.wf
    have hp2 := hs.proper (exPlace_proper 0 (shiftX t))
    have hh2 := hs.hasProps (exPlace_has 0 (shiftX t))
    have hn : m2.nids = [1, 2, 3] := by rw [hs.nids, exPlace_nids]
    have key : ∀ k ∈ (exPlace 0 (shiftX t)).ekeys, ∃ o, m2.edge k = bEdge m2 k 1 o ∧ Side m2 1 k o ∧ ∃ Ac : ℝ, (m2.edge k).Ac = some Ac ∧ 0 ≤ Ac ∧
        bil 15 (entrySum 15 (okEntries ((k0Env m2 false (m2.edge k)).map k0Entries))) (exTurn t) (exTurn t) =
          Ac * (gStrain m2 k Ac (exTurn t) 0 ^ 2 + gStrain m2 k Ac (exTurn t) 1 ^ 2 + gStrain m2 k Ac (exTurn t) 2 ^ 2 +
            (gStrain m2 k Ac (exTurn t) 3 ^ 2 + gStrain m2 k Ac (exTurn t) 4 ^ 2 + gStrain m2 k Ac (exTurn t) 5 ^ 2)) := by
      intro k hk
      have he1 : ∀ e ∈ m2.eids, e = 1 := by
        intro e he
        rw [hs.eids, exPlace_eids] at he; exact List.mem_singleton.1 he
      rcases prepared_shape hw2 hp2 hq (hs.ekeys.symm ▸ hk) with ⟨e, o, he, hsd⟩ | ⟨e1, e2, o1, o2, _, hs1, hs2, _, hne⟩
      · have := he1 e hsd.mem
        subst this
        have hd := edgeData_boundary (pn := false) hq hh2 he hsd
        refine ⟨o, he, hsd, _, hd.hAc, polyArea_nonneg _ _ _, ?_⟩
        have hb := bil_edge hq hd (exTurn t) (exTurn t)
        rw [hn] at hb
        refine hb.trans ?_
        congr 1
        have hpm : ∀ f : Lam → ℝ, bAvg m2 false k 1 o f = f exIso := by
          intro f
          have hpr : (m2.tria 1).prop = some exIso := by rw [hs.tria, exPlace_tria]
          simp only [bAvg, Bool.false_eq_true, if_false, hpr, ofProp]
        simp only [hpm]
        rw [exIso, exLam_quad]; ring
      · exact absurd ((he1 _ hs1.mem).trans (he1 _ hs2.mem).symm) hne
    rw [e1]
    rw [exPlace_ekeys] at key ⊢
    simp only [List.map_cons, List.map_nil, List.sum_cons, List.sum_nil, add_zero]
    obtain ⟨o2, _, _, A2, _, n2, b2⟩ := key (2, 3) (by simp)
    obtain ⟨o3, _, _, A3, _, n3, b3⟩ := key (1, 3) (by simp)
    obtain ⟨o1, q1, sd, A1, a1, n1, b1⟩ := key (1, 2) (by simp)
    have p2 : 0 ≤ bil 15 (entrySum 15 (okEntries ((k0Env m2 false (m2.edge (2, 3))).map k0Entries))) (exTurn t) (exTurn t) := by rw [b2]; positivity
    have p3 : 0 ≤ bil 15 (entrySum 15 (okEntries ((k0Env m2 false (m2.edge (1, 3))).map k0Entries))) (exTurn t) (exTurn t) := by rw [b3]; positivity
    have x1 : (m2.node 1).xyz = ⟨0, 0, 0⟩ := by rw [hs.xyz, exPlace_x1]
    have x2 : (m2.node 2).xyz = ⟨1, 0, 0⟩ := by rw [hs.xyz, exPlace_x2]; simp
    have x3 : (m2.node 3).xyz = ⟨0, 1, 0⟩ := by rw [hs.xyz, exPlace_x3]
    have htr : m2.tria 1 = ⟨1, 2, 3, some exIso, [(1, 2), (2, 3), (1, 3)]⟩ := by rw [hs.tria, exPlace_tria]
    have hm : m2.mid 1 = ⟨1 / 3 + t, 1 / 3, 0⟩ := by
      simp only [Mesh.mid, htr, Mesh.pos, hs.cp, exPlace_c1, exPlace_c2, exPlace_c3, x1, x2, x3, shiftX]
      norm_num; ring
    have ho : o1 = 3 := by
      have hmem := sd.perm.mem_iff (a := o1)
      have ha := sd.hao; have hb := sd.hbo
      simp only [Mesh.triaNodes, htr, List.mem_cons, List.not_mem_nil, or_false, or_true, iff_true] at hmem
      simp only at ha hb
      omega
    subst ho
    have hor : orient m2 (m2.mid 1) 1 2 = (1, 2) := by
      rcases orient_spec m2 (m2.mid 1) 1 2 with ⟨e, _⟩ | ⟨_, e⟩
      · exact e
      · exfalso
        rw [hm] at e
        simp only [nx, ny, x1, x2] at e
        norm_num at e
    have hA : A1 = 1 / 6 := by
      rw [q1] at a1
      rw [← Option.some.inj a1]
      show polyArea [(m2.node (orient m2 (m2.mid 1) 1 2).1).xyz, m2.mid 1, (m2.node (orient m2 (m2.mid 1) 1 2).2).xyz, (m2.node (orient m2 (m2.mid 1) 1 2).1).xyz] = _
      rw [hor, polyArea4, hm, x1, x2]
      norm_num
    have hip : (m2.edge (1, 2)).ipts = iptsA m2 1 1 2 3 ++ iptsB m2 1 1 2 3 := by
      rw [q1]
      show iptsA m2 1 (orient m2 (m2.mid 1) 1 2).1 (orient m2 (m2.mid 1) 1 2).2 3 ++ iptsB m2 1 (orient m2 (m2.mid 1) 1 2).1 (orient m2 (m2.mid 1) 1 2).2 3 = _
      rw [hor]
    have hstr : gStrain m2 (1, 2) A1 (exTurn t) 1 = -3 * t := by
      show gY m2 (1, 2) A1 (disp m2 (exTurn t) 1) = _
      unfold gY
      rw [hip, wsum_side (by rw [x1, hm]) (by rw [x2, hm]), hA, hm]
      simp only [nx, x1, x2, disp, hn]
      norm_num [exTurn, List.idxOf_cons]
      ring
    have p1 : 0 < bil 15 (entrySum 15 (okEntries ((k0Env m2 false (m2.edge (1, 2))).map k0Entries))) (exTurn t) (exTurn t) := by
      rw [b1, hstr, hA]
      positivity
    linarith
  exact ⟨K, K', hK, hK', by rw [hKd]; rfl, by rw [hKd']; rfl, h0, h1, fun e => by rw [e] at h0; linarith⟩

/-- a case of the partial theorem: a system with its origin at the origin of the basic one -/
example (t : ℝ) : ∃ K, (calcK0 (exPlace t id) false).2 = .ok K ∧ (calcK0 (exPlace t (shiftX 0)) false).2 = .ok K := by
  obtain ⟨K, hK, _⟩ := C11_success (exPlace_reachable t id) (exPlace_proper t id) (by rw [exPlace_nids]; simp) (exPlace_has t id)
  have hid : shiftX 0 = id := by funext p; simp [shiftX]
  refine ⟨K, hK, C145_stiffness_partial (exPlace_reachable t id) (exPlace_reachable t _) (exPlace_proper t id) (exPlace_planar t) ?_ ?_ hK⟩
  · rw [hid]; exact ⟨rfl, rfl, fun _ _ => rfl, fun _ _ => rfl, fun _ _ => rfl, fun _ _ => rfl⟩
  · rw [hid]; exact (exPlace_planar t).basic

end Meshless
