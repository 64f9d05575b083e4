import Verif.Props.K0Outcome
import Verif.Props.K0Geom

/-! C18–C24 (and C34 for `calc_k0`): what the matrix returned by `calc_k0` is. -/

set_option autoImplicit false

namespace Meshless
open Spec Finset

/-- C18: `v^T k0 u` is the smoothed strain energy product, for all vectors -/
theorem C18_energy {m : Mesh} (hr : Reachable m) (hp : Proper m) (hg : Planar m) {pn : Bool} {K : Mat} (hK : (calcK0 m pn).2 = .ok K)
    (v u : ℕ → ℝ) : form K.dim K.get v u = energy m pn v u := by
  obtain ⟨_, _, hh, hne⟩ := calcK0_ok hr.wf hK
  rw [(calcK0_sum hr.wf hK).1]
  exact calcK0_energy hr.wf hp hg hh hne hK v u

/-- the example mesh with different laminates everywhere is a case for all theorems of this file -/
theorem exMesh_k0 (p1 p2 p3 p4 q1 q2 : Lam) (pn : Bool) : ∃ K, (calcK0 (exMesh p1 p2 p3 p4 q1 q2) pn).2 = .ok K ∧ K.dim = 20 :=
  C11_success (exMesh_reachable ..) (exMesh_proper ..) (exMesh_ne _ _ _ _ _ _) (exMesh_props ..)

example (p1 p2 p3 p4 q1 q2 : Lam) : ∃ K, (calcK0 (exMesh p1 p2 p3 p4 q1 q2) true).2 = .ok K ∧
    ∀ v u, form 20 K.get v u = energy (exMesh p1 p2 p3 p4 q1 q2) true v u := by
  obtain ⟨K, hK, hd⟩ := exMesh_k0 p1 p2 p3 p4 q1 q2 true
  exact ⟨K, hK, fun v u => hd ▸ C18_energy (exMesh_reachable ..) (exMesh_proper ..) (exMesh_planar ..) hK v u⟩

/-- C19: the returned matrix is symmetric, for every mesh on which `calc_k0` returns -/
theorem C19_symmetric {m : Mesh} (hr : Reachable m) {pn : Bool} {K : Mat} (hK : (calcK0 m pn).2 = .ok K) (i j : ℕ) : K.get i j = K.get j i := by
  obtain ⟨_, h⟩ := calcK0_sum hr.wf hK
  rw [h, h]
  congr 1
  refine List.map_congr_left fun k _ => ?_
  cases k0Env (calcK0 m pn).1 pn ((calcK0 m pn).1.edge k) with
  | error e => simp [Except.map, okEntries, entrySum]
  | ok e =>
    simp only [Except.map, okEntries, k0Entries_eq]
    exact entrySum_symm_outer (fun p q => by rw [k0abd_symm]) _ _ _

example (p1 p2 p3 p4 q1 q2 : Lam) : ∃ K, (calcK0 (exMesh p1 p2 p3 p4 q1 q2) true).2 = .ok K ∧ K.get 0 7 = K.get 7 0 := by
  obtain ⟨K, hK, _⟩ := exMesh_k0 p1 p2 p3 p4 q1 q2 true
  exact ⟨K, hK, C19_symmetric (exMesh_reachable ..) hK 0 7⟩

/-- strains of a field that is linear in the node coordinates -/
theorem eps_linear {m : Mesh} (w : WF m) (hp : Proper m) (hg : Planar m) {k : Key} (hk : k ∈ m.ekeys) {d : ℕ → ℝ} {c p q : ℕ → ℝ}
    (hd : ∀ r ∈ [0, 1, 3, 4], ∀ i ∈ m.nids, disp m d r i = c r + p r * nx m i + q r * ny m i) :
    eps m k d = ![p 0, q 1, q 0 + p 1, p 3, q 4, q 3 + p 4] := by
  obtain ⟨a0, b0⟩ := grad_linear w hp hg hk (hd 0 (by simp))
  obtain ⟨a1, b1⟩ := grad_linear w hp hg hk (hd 1 (by simp))
  obtain ⟨a3, b3⟩ := grad_linear w hp hg hk (hd 3 (by simp))
  obtain ⟨a4, b4⟩ := grad_linear w hp hg hk (hd 4 (by simp))
  unfold eps
  rw [a0, b0, a1, b1, a3, b3, a4, b4]

theorem energy_zero_right {m : Mesh} {pn : Bool} {v u : ℕ → ℝ} (h : ∀ k ∈ m.ekeys, eps m k u = fun _ => 0) : energy m pn v u = 0 := by
  unfold energy
  apply List.sum_eq_zero
  intro x hx
  obtain ⟨k, hk, rfl⟩ := List.mem_map.1 hx
  rw [h k hk]; simp

/-- C20: rigid in-plane motions `u = a - c*y, v = b + c*x` with uniform rotations `phix = p, phiy = q` and any transverse displacement
give no nodal forces -/
theorem C20_rigid {m : Mesh} (hr : Reachable m) (hp : Proper m) (hg : Planar m) {pn : Bool} {K : Mat} (hK : (calcK0 m pn).2 = .ok K)
    {d : ℕ → ℝ} {a b c p q : ℝ} (hu : ∀ i ∈ m.nids, disp m d 0 i = a - c * ny m i) (hv : ∀ i ∈ m.nids, disp m d 1 i = b + c * nx m i)
    (hphix : ∀ i ∈ m.nids, disp m d 3 i = p) (hphiy : ∀ i ∈ m.nids, disp m d 4 i = q) :
    ∀ i < K.dim, ∑ j ∈ range K.dim, K.get i j * d j = 0 := by
  intro i hi
  rw [← form_row K.get hi, C18_energy hr hp hg hK]
  apply energy_zero_right
  intro k hk
  have := eps_linear hr.wf hp hg hk (d := d) (c := fun r => if r = 0 then a else if r = 1 then b else if r = 3 then p else q)
    (p := fun r => if r = 1 then c else 0) (q := fun r => if r = 0 then -c else 0) (by
      intro r hr' i hi
      simp only [List.mem_cons, List.not_mem_nil, or_false] at hr'
      rcases hr' with rfl | rfl | rfl | rfl
      · rw [hu i hi]; simp; ring
      · rw [hv i hi]; simp
      · rw [hphix i hi]; simp
      · rw [hphiy i hi]; simp)
  rw [this]
  funext r
  fin_cases r <;> simp

/-- displacement vector of the example square: rotation about the origin plus translations and uniform rotations -/
noncomputable def exRigid : ℕ → ℝ := fun r => [1, 2, 5, 7, 8, 1, 5, 6, 7, 8, -2, 5, 0, 7, 8, -2, 2, 9, 7, 8].getD r 0

example (p1 p2 p3 p4 q1 q2 : Lam) : ∃ K, (calcK0 (exMesh p1 p2 p3 p4 q1 q2) false).2 = .ok K ∧
    ∀ i < 20, ∑ j ∈ range 20, K.get i j * exRigid j = 0 := by
  obtain ⟨K, hK, hd⟩ := exMesh_k0 p1 p2 p3 p4 q1 q2 false
  refine ⟨K, hK, ?_⟩
  rw [← hd]
  refine C20_rigid (exMesh_reachable ..) (exMesh_proper ..) (exMesh_planar ..) hK (a := 1) (b := 2) (c := 3) (p := 7) (q := 8) ?_ ?_ ?_ ?_ <;>
    intro i hi <;> rw [exMesh_nids] at hi <;> simp only [List.mem_cons, List.not_mem_nil, or_false] at hi <;> rcases hi with rfl | rfl | rfl | rfl <;>
    simp only [disp, exMesh_nids, nx, ny, exMesh_node1, exMesh_node2, exMesh_node3, exMesh_node4] <;>
    norm_num [exRigid, List.idxOf_cons]

/-- C21: positive semidefinite laminates give a positive semidefinite matrix -/
theorem C21_psd {m : Mesh} (hr : Reachable m) (hp : Proper m) (hg : Planar m) {pn : Bool} {K : Mat} (hK : (calcK0 m pn).2 = .ok K)
    (hl : ∀ l, (if pn then ∃ i ∈ m.nids, (m.node i).prop = some l else ∃ t ∈ m.eids, (m.tria t).prop = some l) →
      ∀ x : Fin 6 → ℝ, 0 ≤ ∑ p, ∑ q, x p * abd l p q * x q) (d : ℕ → ℝ) : 0 ≤ form K.dim K.get d d := by
  rw [C18_energy hr hp hg hK]
  unfold energy
  apply List.sum_nonneg
  intro x hx
  obtain ⟨k, hk, rfl⟩ := List.mem_map.1 hx
  refine mul_nonneg (abs_nonneg _) ?_
  obtain ⟨L, h1, _, h3⟩ := avg_weights hr.wf hp hg pn hk
  simp only [h3]
  rw [quad_avg L abd]
  apply List.sum_nonneg
  intro y hy
  obtain ⟨z, hz, rfl⟩ := List.mem_map.1 hy
  obtain ⟨z1, z2⟩ := h1 z hz
  refine mul_nonneg z1 ?_
  unfold ofProp
  rcases hz2 : z.2 with _ | l
  · exact le_refl 0
  · refine hl l ?_ _
    rw [hz2] at z2
    unfold Slot at z2
    cases pn with
    | true =>
      simp only [if_true] at z2 ⊢
      obtain ⟨t, ht, i, hi, e⟩ := z2
      exact ⟨i, corner_mem hr.wf hp.distinct ht hi, e.symm⟩
    | false =>
      simp only [Bool.false_eq_true, if_false] at z2 ⊢
      obtain ⟨t, ht, e⟩ := z2
      exact ⟨t, ht, e.symm⟩

/-- a laminate with identity `[A B; B D]` for the concrete cases -/
noncomputable def exIso : Lam := exLam 1 1 1 1

theorem exIso_abd (p q : Fin 6) : abd exIso p q = if p = q then 1 else 0 := by
  fin_cases p <;> fin_cases q <;> simp [abd, exIso, exLam, sym3]

theorem exIso_psd (x : Fin 6 → ℝ) : 0 ≤ ∑ p, ∑ q, x p * abd exIso p q * x q := by
  simp only [exIso_abd]
  refine Finset.sum_nonneg fun p _ => ?_
  rw [Finset.sum_eq_single p]
  · rw [if_pos rfl, mul_one]; exact mul_self_nonneg _
  · intro q _ hq; rw [if_neg (Ne.symm hq)]; ring
  · simp

theorem exMesh_homog (l : Lam) (pn : Bool) : ∀ p, (if pn then ∃ i ∈ (exMesh l l l l l l).nids, ((exMesh l l l l l l).node i).prop = some p
    else ∃ t ∈ (exMesh l l l l l l).eids, ((exMesh l l l l l l).tria t).prop = some p) → p = l := by
  intro p h
  cases pn with
  | true =>
    simp only [if_true, exMesh_nids] at h
    obtain ⟨i, hi, h⟩ := h
    simp only [List.mem_cons, List.not_mem_nil, or_false] at hi
    rcases hi with rfl | rfl | rfl | rfl <;> exact (Option.some.inj (show some l = some p from h)).symm
  | false =>
    simp only [Bool.false_eq_true, if_false, exMesh_eids] at h
    obtain ⟨i, hi, h⟩ := h
    simp only [List.mem_cons, List.not_mem_nil, or_false] at hi
    rcases hi with rfl | rfl <;> exact (Option.some.inj (show some l = some p from h)).symm

example (pn : Bool) : ∃ K, (calcK0 (exMesh exIso exIso exIso exIso exIso exIso) pn).2 = .ok K ∧ ∀ d, 0 ≤ form 20 K.get d d := by
  obtain ⟨K, hK, hd⟩ := exMesh_k0 exIso exIso exIso exIso exIso exIso pn
  refine ⟨K, hK, fun d => ?_⟩
  rw [← hd]
  refine C21_psd (exMesh_reachable ..) (exMesh_proper ..) (exMesh_planar ..) hK (fun l hl x => ?_) d
  rw [exMesh_homog exIso pn l hl]
  exact exIso_psd x

/-- C22: linear patch test. Nodal displacements sampled from a linear field have the exact constant strain in every domain -/
theorem C22_patch {m : Mesh} (hr : Reachable m) (hp : Proper m) (hg : Planar m) {pn : Bool} {K : Mat} (hK : (calcK0 m pn).2 = .ok K)
    {d : ℕ → ℝ} {c p q : ℕ → ℝ} (hd : ∀ r ∈ [0, 1, 3, 4], ∀ i ∈ m.nids, disp m d r i = c r + p r * nx m i + q r * ny m i) :
    let e : Fin 6 → ℝ := ![p 0, q 1, q 0 + p 1, p 3, q 4, q 3 + p 4]
    (∀ k ∈ m.ekeys, eps m k d = e) ∧
    form K.dim K.get d d = (m.ekeys.map fun k => |sarea m (dom m k)| * ∑ a, ∑ b, e a * avg m pn k (fun l => abd l a b) * e b).sum := by
  intro e
  have h : ∀ k ∈ m.ekeys, eps m k d = e := fun k hk => eps_linear hr.wf hp hg hk hd
  refine ⟨h, ?_⟩
  rw [C18_energy hr hp hg hK]
  unfold energy
  congr 1
  exact List.map_congr_left fun k hk => by rw [h k hk]

/-- total area of the domains -/
theorem sum_domains {m : Mesh} (w : WF m) (hp : Proper m) (hg : Planar m) :
    (m.ekeys.map fun k => |sarea m (dom m k)|).sum = (m.eids.map (triArea m)).sum := by
  have h := sum_sideTrias m.tria (triArea m) w.ekeys_nodup (es := m.eids) (fun e he k hk => (w.mem_ekeys k).2 ⟨e, he, hk⟩)
  have h' : (m.ekeys.map fun k => |sarea m (dom m k)|) =
      (m.ekeys.map fun k => ((sideTrias m.tria m.eids k).map (triArea m)).sum * (1 / 3)) := by
    refine List.map_congr_left fun k hk => ?_
    rw [← w.etrias k hk]
    rcases edge_shape w hp hk with ⟨t, o, htr, hs, _⟩ | ⟨t1, t2, o1, o2, htr, hs1, hs2, _, _, _, _⟩
    · have hdom : dom m k = [[k.1], corners m t, [k.2]] := by simp [dom, htr]
      have hS : sarea m [[k.1], corners m t, [k.2]] = -sarea m [[k.1], [k.2], corners m t] := by
        rw [sarea3, sarea3]; ring
      rw [hdom, hS, abs_neg, triArea_side hs, htr]; simp; ring
    · have hdom : dom m k = [[k.1], corners m t1, [k.2], corners m t2] := by simp [dom, htr]
      have hop := hg.opposite k hk t1 t2 htr
      have hS : sarea m [[k.1], corners m t1, [k.2], corners m t2] = -sarea m [[k.1], [k.2], corners m t1] + sarea m [[k.1], [k.2], corners m t2] := by
        simp only [sarea4, sarea3]; ring
      have e1 := triArea_side hs1
      have e2 := triArea_side hs2
      rw [hdom, hS, htr]
      simp only [List.map_cons, List.map_nil, List.sum_cons, List.sum_nil, add_zero]
      rcases mul_neg_iff.1 hop with ⟨s1, s2⟩ | ⟨s1, s2⟩
      · rw [abs_of_pos s1] at e1; rw [abs_of_neg s2] at e2
        rw [abs_of_neg (by linarith)]; linarith
      · rw [abs_of_neg s1] at e1; rw [abs_of_pos s2] at e2
        rw [abs_of_pos (by linarith)]; linarith
  rw [h', List.sum_map_mul_right, h]; ring

/-- all laminates read with the flag are `l` -/
def Homog (m : Mesh) (pn : Bool) (l : Lam) : Prop :=
  if pn then ∀ i ∈ m.nids, (m.node i).prop = some l else ∀ t ∈ m.eids, (m.tria t).prop = some l

theorem Homog_slot {m : Mesh} (w : WF m) (hp : Proper m) {pn : Bool} {l : Lam} (h : Homog m pn l) : ∀ p, Slot m pn p → p = some l := by
  intro p hs
  unfold Homog at h
  unfold Slot at hs
  cases pn with
  | true =>
    simp only [if_true] at h hs
    obtain ⟨t, ht, i, hi, rfl⟩ := hs
    exact h i (corner_mem w hp.distinct ht hi)
  | false =>
    simp only [Bool.false_eq_true, if_false] at h hs
    obtain ⟨t, ht, rfl⟩ := hs
    exact h t ht

/-- C22: for homogeneous properties the energy is the plate area times the energy density -/
theorem C22_homogeneous {m : Mesh} (hr : Reachable m) (hp : Proper m) (hg : Planar m) {pn : Bool} {K : Mat} (hK : (calcK0 m pn).2 = .ok K)
    {l : Lam} (hl : Homog m pn l) {d : ℕ → ℝ} {c p q : ℕ → ℝ}
    (hd : ∀ r ∈ [0, 1, 3, 4], ∀ i ∈ m.nids, disp m d r i = c r + p r * nx m i + q r * ny m i) :
    let e : Fin 6 → ℝ := ![p 0, q 1, q 0 + p 1, p 3, q 4, q 3 + p 4]
    form K.dim K.get d d = (m.eids.map (triArea m)).sum * ∑ a, ∑ b, e a * abd l a b * e b := by
  intro e
  rw [(C22_patch hr hp hg hK hd).2, ← sum_domains hr.wf hp hg, ← List.sum_map_mul_right]
  congr 1
  refine List.map_congr_left fun k hk => ?_
  simp only [avg_const hr.wf hp hg hk (Homog_slot hr.wf hp hl)]
  rfl

theorem exMesh_Homog (l : Lam) (pn : Bool) : Homog (exMesh l l l l l l) pn l := by
  unfold Homog
  cases pn with
  | true =>
    simp only [if_true, exMesh_nids]
    intro i hi
    simp only [List.mem_cons, List.not_mem_nil, or_false] at hi
    rcases hi with rfl | rfl | rfl | rfl <;> rfl
  | false =>
    simp only [Bool.false_eq_true, if_false, exMesh_eids]
    intro i hi
    simp only [List.mem_cons, List.not_mem_nil, or_false] at hi
    rcases hi with rfl | rfl <;> rfl

theorem exMesh_area (p1 p2 p3 p4 q1 q2 : Lam) : ((exMesh p1 p2 p3 p4 q1 q2).eids.map (triArea (exMesh p1 p2 p3 p4 q1 q2))).sum = 1 := by
  rw [exMesh_eids]
  simp only [List.map_cons, List.map_nil, List.sum_cons, List.sum_nil, triArea, sarea3, exMesh_tria1, exMesh_tria2, mean_single, nx, ny,
    exMesh_node1, exMesh_node2, exMesh_node3, exMesh_node4]
  norm_num

/-- uniaxial stretch `u = 2 x` of the square -/
noncomputable def exStretch : ℕ → ℝ := fun r => if r = 5 ∨ r = 10 then 2 else 0

/-- concrete case: stretching the square with unit stiffness by 2 costs energy 4 -/
example (pn : Bool) : ∃ K, (calcK0 (exMesh exIso exIso exIso exIso exIso exIso) pn).2 = .ok K ∧ form 20 K.get exStretch exStretch = 4 := by
  obtain ⟨K, hK, hd⟩ := exMesh_k0 exIso exIso exIso exIso exIso exIso pn
  refine ⟨K, hK, ?_⟩
  have h := C22_homogeneous (exMesh_reachable ..) (exMesh_proper ..) (exMesh_planar ..) hK (exMesh_Homog exIso pn) (d := exStretch)
    (c := fun _ => 0) (p := fun r => if r = 0 then 2 else 0) (q := fun _ => 0) (by
      intro r hr i hi
      rw [exMesh_nids] at hi
      simp only [List.mem_cons, List.not_mem_nil, or_false] at hr hi
      rcases hr with rfl | rfl | rfl | rfl <;> rcases hi with rfl | rfl | rfl | rfl <;>
        simp only [disp, exMesh_nids, nx, ny, exMesh_node1, exMesh_node2, exMesh_node3, exMesh_node4] <;>
        norm_num [exStretch, List.idxOf_cons])
  rw [hd, exMesh_area] at h
  have he : (![if 0 = 0 then 2 else 0, 0, 0 + if 1 = 0 then 2 else 0, if 3 = 0 then 2 else 0, 0, 0 + if 4 = 0 then 2 else 0] : Fin 6 → ℝ) =
      v6 2 0 0 0 0 0 := by simp [v6]
  dsimp only at h
  rw [he] at h
  rw [h]
  simp only [exIso_abd, mul_ite, mul_one, mul_zero, ite_mul, zero_mul, Finset.sum_ite_eq, Finset.mem_univ, if_true, sum6, v6_0, v6_1, v6_2,
    v6_3, v6_4, v6_5]
  norm_num

/-- C23: rows and columns of transverse displacements are zero, for every mesh on which `calc_k0` returns -/
theorem C23_transverse {m : Mesh} (hr : Reachable m) {pn : Bool} {K : Mat} (hK : (calcK0 m pn).2 = .ok K) (i j : ℕ) :
    K.get (5 * i + 2) j = 0 ∧ K.get j (5 * i + 2) = 0 := by
  obtain ⟨_, h⟩ := calcK0_sum hr.wf hK
  rw [h, h]
  constructor <;>
  · apply List.sum_eq_zero
    intro x hx
    obtain ⟨k, _, rfl⟩ := List.mem_map.1 hx
    apply entrySum_zero
    intro e he ⟨h1, h2⟩
    cases hk : k0Env (calcK0 m pn).1 pn ((calcK0 m pn).1.edge k) with
    | error _ => rw [hk] at he; simp [Except.map, okEntries] at he
    | ok env =>
      rw [hk] at he
      have := k0Entries_pos he h1 h2
      omega

/-- C23: the block of two nodes is zero unless both are corners of triangles at a common edge -/
theorem C23_local {m : Mesh} (hr : Reachable m) (hp : Proper m) {pn : Bool} {K : Mat} (hK : (calcK0 m pn).2 = .ok K) {i j : ℕ}
    (hi : i ∈ m.nids) (hj : j ∈ m.nids) {r s : ℕ} (hr5 : r < 5) (hs5 : s < 5)
    (h : K.get (5 * m.nids.idxOf i + r) (5 * m.nids.idxOf j + s) ≠ 0) :
    ∃ k ∈ m.ekeys, (∃ t ∈ (m.edge k).trias, IsCorner m t i) ∧ (∃ t ∈ (m.edge k).trias, IsCorner m t j) := by
  obtain ⟨hs, hq, hh, hne⟩ := calcK0_ok hr.wf hK
  by_contra hcon
  apply h
  rw [(calcK0_sum hr.wf hK).2]
  apply List.sum_eq_zero
  intro x hx
  obtain ⟨k, hk, rfl⟩ := List.mem_map.1 hx
  obtain ⟨ns, Ac, pm, hd, hns⟩ := edgeData (hs.wf hr.wf) (hs.proper hp) hq (hs.hasProps hh) (hs.ekeys.symm ▸ hk)
  have := edge_local hq hd (i := i) (j := j) (hs.nids.symm ▸ hi) (hs.nids.symm ▸ hj) hr5 hs5 (by
    rw [hns, hns]
    unfold edgeNodes IsCorner
    rw [hs.trias, hs.tria]
    by_contra hcon2
    push Not at hcon2
    exact hcon ⟨k, hk, hcon2.1, hcon2.2⟩)
  rwa [hs.nids] at this

/-- concrete case: nodes 2 and 4 of the square are corners of the two triangles at the diagonal, so they may couple; nothing couples to
a transverse displacement -/
example (p1 p2 p3 p4 q1 q2 : Lam) : ∃ K, (calcK0 (exMesh p1 p2 p3 p4 q1 q2) true).2 = .ok K ∧ K.get 7 0 = 0 ∧
    (K.get 5 15 ≠ 0 → ∃ k ∈ (exMesh p1 p2 p3 p4 q1 q2).ekeys, ((exMesh p1 p2 p3 p4 q1 q2).edge k).trias ≠ []) := by
  obtain ⟨K, hK, _⟩ := exMesh_k0 p1 p2 p3 p4 q1 q2 true
  refine ⟨K, hK, (C23_transverse (exMesh_reachable ..) hK 1 0).1, fun h => ?_⟩
  obtain ⟨k, hk, ⟨t, ht, _⟩, _⟩ := C23_local (exMesh_reachable ..) (exMesh_proper ..) hK (i := 2) (j := 4) (r := 0) (s := 0)
    (by rw [exMesh_nids]; simp) (by rw [exMesh_nids]; simp) (by norm_num) (by norm_num) (by rw [exMesh_nids]; exact h)
  exact ⟨k, hk, List.ne_nil_of_mem ht⟩

/-- C24 for `calc_k0`: with one laminate everywhere the two flags give the same matrix -/
theorem C24_k0 {m : Mesh} (hr : Reachable m) (hp : Proper m) (hg : Planar m) {l : Lam} (h1 : Homog m true l) (h2 : Homog m false l)
    {K K' : Mat} (hK : (calcK0 m true).2 = .ok K) (hK' : (calcK0 m false).2 = .ok K') : K = K' := by
  have d1 := (calcK0_sum hr.wf hK).1
  have d2 := (calcK0_sum hr.wf hK').1
  have he : ∀ v u, energy m true v u = energy m false v u := by
    intro v u
    unfold energy
    congr 1
    refine List.map_congr_left fun k hk => ?_
    simp only [avg_const hr.wf hp hg hk (Homog_slot hr.wf hp h1), avg_const hr.wf hp hg hk (Homog_slot hr.wf hp h2)]
  have hget : K.get = K'.get := by
    funext i j
    by_cases hij : i < m.nids.length * 5 ∧ j < m.nids.length * 5
    · rw [← form_single K.get hij.1 hij.2, ← form_single K'.get hij.1 hij.2]
      have e1 := C18_energy hr hp hg hK (single i) (single j)
      have e2 := C18_energy hr hp hg hK' (single i) (single j)
      rw [d1] at e1; rw [d2] at e2
      rw [e1, e2, he]
    · rw [calcK0_out hr.wf hK (by omega), calcK0_out hr.wf hK' (by omega)]
  obtain ⟨a, b⟩ := K
  obtain ⟨a', b'⟩ := K'
  simp only at d1 d2 hget
  rw [d1, d2, hget]

example (l : Lam) : ∃ K, (calcK0 (exMesh l l l l l l) true).2 = .ok K ∧ (calcK0 (exMesh l l l l l l) false).2 = .ok K := by
  obtain ⟨K, hK, _⟩ := exMesh_k0 l l l l l l true
  obtain ⟨K', hK', _⟩ := exMesh_k0 l l l l l l false
  have := C24_k0 (exMesh_reachable ..) (exMesh_proper ..) (exMesh_planar ..) (exMesh_Homog l true) (exMesh_Homog l false) hK hK'
  exact ⟨K, hK, this ▸ hK'⟩

/-- C34 for `calc_k0`: one iteration of the assembly loop (plate2d_calc_k0.py:137-508) changes no entry in the row or column of a node
that is not a corner of the edge's triangles, although boundary edges also write at the dummy index -1 -/
theorem C34_k0 {m : Mesh} (hr : Reachable m) (hp : Proper m) {pn : Bool} {K : Mat} (hK : (calcK0 m pn).2 = .ok K) {k : Key} (hk : k ∈ m.ekeys)
    {M : Mat} (hM : M.dim = 5 * m.nids.length) :
    ∃ M', k0Edge (calcK0 m pn).1 pn M k = (M', none) ∧ ∀ i ∈ m.nids, ∀ j ∈ m.nids, ∀ r < 5, ∀ s < 5,
      (¬ (∃ t ∈ (m.edge k).trias, IsCorner m t i) ∨ ¬ (∃ t ∈ (m.edge k).trias, IsCorner m t j)) →
      M'.get (5 * m.nids.idxOf i + r) (5 * m.nids.idxOf j + s) = M.get (5 * m.nids.idxOf i + r) (5 * m.nids.idxOf j + s) := by
  obtain ⟨hs, hq, hh, hne⟩ := calcK0_ok hr.wf hK
  obtain ⟨ns, Ac, pm, hd, hns⟩ := edgeData (hs.wf hr.wf) (hs.proper hp) hq (hs.hasProps hh) (hs.ekeys.symm ▸ hk)
  obtain ⟨es, hes, hok⟩ := goodE_edge hq (hs.nids.symm ▸ hne) hd
  have hM' : M.dim = (calcK0 m pn).1.nids.length * 5 := by rw [hM, hs.nids]; ring
  obtain ⟨M', e1, e2, e3⟩ := Mat.addAll_ok (M := M) (es := es) (hM' ▸ hok)
  refine ⟨M', ?_, ?_⟩
  · rw [k0Edge_eq]
    simp only [applyE, hes, e1]
  · intro i hi j hj r hr5 s hs5 hij
    have := edge_local hq hd (i := i) (j := j) (hs.nids.symm ▸ hi) (hs.nids.symm ▸ hj) hr5 hs5 (by
      rw [hns, hns]
      unfold edgeNodes IsCorner
      rw [hs.trias, hs.tria]
      exact hij)
    rw [hes, hs.nids] at this
    rw [e3, hM', hs.nids, show entrySum (m.nids.length * 5) es _ _ = 0 from this, add_zero]

/-- concrete case: the boundary edge (1, 2) of the square writes at the dummy index of node 4, which is not a corner of its triangle -/
example (l : Lam) : ∃ M', k0Edge (calcK0 (exMesh l l l l l l) true).1 true (Mat.zeros 20) (1, 2) = (M', none) ∧ M'.get 15 15 = 0 := by
  obtain ⟨K, hK, _⟩ := exMesh_k0 l l l l l l true
  obtain ⟨M', h1, h2⟩ := C34_k0 (exMesh_reachable ..) (exMesh_proper ..) hK (k := (1, 2)) (by rw [exMesh_ekeys]; simp) (M := Mat.zeros 20)
    (by rw [exMesh_nids]; rfl)
  refine ⟨M', h1, ?_⟩
  have := h2 4 (by rw [exMesh_nids]; simp) 4 (by rw [exMesh_nids]; simp) 0 (by norm_num) 0 (by norm_num) (Or.inl (by
    rintro ⟨t, ht, hc⟩
    rw [exMesh_e12] at ht
    simp only [List.mem_cons, List.not_mem_nil, or_false] at ht
    subst ht
    unfold IsCorner at hc
    rw [exMesh_tria1] at hc
    simp at hc))
  rw [exMesh_nids] at this
  exact this

end Meshless
