import Verif.Props.Modes

/-! Statics of the supported plate: which supports are enough, reciprocity, equilibrium of the reactions, the effect of the stabilisation
parameter. -/

set_option autoImplicit false

namespace Meshless
open Spec Finset

/-! ### general facts on quadratic forms -/

theorem form_eq_sum (n : ℕ) (K : ℕ → ℕ → ℝ) (v u : ℕ → ℝ) : form n K v u = ∑ i ∈ range n, v i * ∑ j ∈ range n, K i j * u j := by
  unfold form
  refine Finset.sum_congr rfl fun i _ => ?_
  rw [Finset.mul_sum]
  exact Finset.sum_congr rfl fun j _ => by ring

theorem form_symm {n : ℕ} {K : ℕ → ℕ → ℝ} (hs : ∀ i < n, ∀ j < n, K i j = K j i) (v u : ℕ → ℝ) : form n K v u = form n K u v := by
  unfold form
  rw [Finset.sum_comm]
  refine Finset.sum_congr rfl fun i hi => Finset.sum_congr rfl fun j hj => ?_
  rw [hs i (Finset.mem_range.1 hi) j (Finset.mem_range.1 hj)]; ring

theorem form_comb (n : ℕ) (K : ℕ → ℕ → ℝ) (a b : ℝ) (v u u' : ℕ → ℝ) :
    form n K v (fun i => a * u i + b * u' i) = a * form n K v u + b * form n K v u' := by
  unfold form
  rw [Finset.mul_sum, Finset.mul_sum, ← Finset.sum_add_distrib]
  refine Finset.sum_congr rfl fun i _ => ?_
  rw [Finset.mul_sum, Finset.mul_sum, ← Finset.sum_add_distrib]
  exact Finset.sum_congr rfl fun j _ => by ring

theorem form_comb_left (n : ℕ) (K : ℕ → ℕ → ℝ) (a b : ℝ) (v v' u : ℕ → ℝ) :
    form n K (fun i => a * v i + b * v' i) u = a * form n K v u + b * form n K v' u := by
  unfold form
  rw [Finset.mul_sum, Finset.mul_sum, ← Finset.sum_add_distrib]
  refine Finset.sum_congr rfl fun i _ => ?_
  rw [Finset.mul_sum, Finset.mul_sum, ← Finset.sum_add_distrib]
  exact Finset.sum_congr rfl fun j _ => by ring

/-- work of the loads `f` on a displacement that vanishes at the supports -/
theorem form_work {n : ℕ} {K : ℕ → ℕ → ℝ} {S : Set ℕ} {f d v : ℕ → ℝ} (hv : ∀ i < n, i ∈ S → v i = 0)
    (hd : ∀ i < n, i ∉ S → ∑ j ∈ range n, K i j * d j = f i) : form n K v d = ∑ i ∈ range n, v i * f i := by
  rw [form_eq_sum]
  refine Finset.sum_congr rfl fun i hi => ?_
  rw [Finset.mem_range] at hi
  by_cases hS : i ∈ S
  · rw [hv i hi hS, zero_mul, zero_mul]
  · rw [hd i hi hS]

/-! ### rigid motions -/

/-- the displacement vector of a rigid motion; `t` scales the deflection that goes with the tilts (`1` for a true rigid motion) -/
noncomputable def Spec.rigidVec (m : Mesh) (a b c p q s t : ℝ) : ℕ → ℝ := fun x =>
  let i := m.nids.getD (x / 5) 0
  if x % 5 = 0 then a - c * ny m i else if x % 5 = 1 then b + c * nx m i else if x % 5 = 2 then s - t * (p * nx m i + q * ny m i)
  else if x % 5 = 3 then p else q

theorem rigidVec_disp {m : Mesh} {i : ℕ} (hi : i ∈ m.nids) (a b c p q s t : ℝ) :
    disp m (rigidVec m a b c p q s t) 0 i = a - c * ny m i ∧ disp m (rigidVec m a b c p q s t) 1 i = b + c * nx m i ∧
    disp m (rigidVec m a b c p q s t) 2 i = s - t * (p * nx m i + q * ny m i) ∧ disp m (rigidVec m a b c p q s t) 3 i = p ∧
    disp m (rigidVec m a b c p q s t) 4 i = q := by
  have h : ∀ r < 5, (5 * m.nids.idxOf i + r) / 5 = m.nids.idxOf i ∧ (5 * m.nids.idxOf i + r) % 5 = r := by intro r hr; omega
  have hl := List.idxOf_lt_length_of_mem hi
  have hg : m.nids.getD (m.nids.idxOf i) 0 = i := by
    rw [List.getD_eq_getElem?_getD, List.getElem?_eq_getElem hl, Option.getD_some, List.getElem_idxOf]
  unfold disp rigidVec
  dsimp only
  rw [(h 0 (by omega)).1, (h 0 (by omega)).2, (h 1 (by omega)).1, (h 1 (by omega)).2, (h 2 (by omega)).1, (h 2 (by omega)).2,
    (h 3 (by omega)).1, (h 3 (by omega)).2, (h 4 (by omega)).1, (h 4 (by omega)).2, hg]
  refine ⟨?_, ?_, ?_, ?_, ?_⟩ <;> simp

/-- rigid motions produce no forces at all: the complete stiffness matrix times a rigid motion is zero -/
theorem stiffness_rigid {m : Mesh} (hr : Reachable m) {pn : Bool} (hg : GoodPlate m pn) {method : String} {al : ℝ} {fa : Bool} {K : Mat}
    (hK : Stiffness m pn method al fa K) {d : ℕ → ℝ} {a b c p q s : ℝ} (hu : ∀ i ∈ m.nids, disp m d 0 i = a - c * ny m i)
    (hv : ∀ i ∈ m.nids, disp m d 1 i = b + c * nx m i) (hw : ∀ i ∈ m.nids, disp m d 2 i = s - rotFactor method * (p * nx m i + q * ny m i))
    (hx : ∀ i ∈ m.nids, disp m d 3 i = p) (hy : ∀ i ∈ m.nids, disp m d 4 i = q) (v : ℕ → ℝ) : form K.dim K.get v d = 0 := by
  obtain ⟨hdim, K0, hK0, hd0, hform⟩ := stiffness_energy hr hg hK
  obtain ⟨hs, _, hh, _⟩ := calcK0_ok hr.wf hK0
  have hm : Numbered (calcK0 m pn).1 := .intro m hr pn K0 hK0 []
  have hin := hs.nids
  rw [hform, form_eq_sum]
  have h0 : ∑ i ∈ range K0.dim, v i * ∑ j ∈ range K0.dim, K0.get i j * d j = 0 := by
    refine Finset.sum_eq_zero fun i hi => ?_
    rw [C20_rigid hr hg.proper hg.planar hK0 hu hv hx hy i (Finset.mem_range.1 hi), mul_zero]
  rw [h0, zero_add]
  have hsh : ∀ e ∈ (calcK0 m pn).1.eids, (if method = "cell-based" then cellStrain (calcK0 m pn).1 else wholeGamma (calcK0 m pn).1) e d 0 = 0 ∧
      (if method = "cell-based" then cellStrain (calcK0 m pn).1 else wholeGamma (calcK0 m pn).1) e d 1 = 0 := by
    intro e he
    rcases hK.cell with rfl | rfl
    · rw [if_pos rfl]
      obtain ⟨g0, g1⟩ := patch_cell hm (hs.flatMesh hg.planar) (z := d) (c := s) (p := -((1 + 1 / 10 ^ 15) * p)) (q := -((1 + 1 / 10 ^ 15) * q)) (r := p) (s := q)
        (fun i hi => by rw [hs.sdisp, hs.snx, hs.sny, hw i (hin ▸ hi)]; unfold rotFactor; rw [if_pos rfl]; ring)
        (fun i hi => by rw [hs.sdisp]; exact hx i (hin ▸ hi)) (fun i hi => by rw [hs.sdisp]; exact hy i (hin ▸ hi)) he
      rw [g0, g1]
      constructor <;> ring
    · rw [if_neg (by decide)]
      obtain ⟨g0, g1⟩ := patch_whole hm (hs.flatMesh hg.planar) (z := d) (c := s) (p := -p) (q := -q) (r := p) (s := q)
        (fun i hi => by rw [hs.sdisp, hs.snx, hs.sny, hw i (hin ▸ hi)]; unfold rotFactor; rw [if_neg (by decide)]; ring)
        (fun i hi => by rw [hs.sdisp]; exact hx i (hin ▸ hi)) (fun i hi => by rw [hs.sdisp]; exact hy i (hin ▸ hi)) he
      rw [g0, g1]
      constructor <;> ring
  unfold shearEnergy
  apply List.sum_eq_zero
  intro x hx'
  obtain ⟨e, he, rfl⟩ := List.mem_map.1 hx'
  rw [(hsh e he).1, (hsh e he).2]; ring

/-- C78: the complete stiffness matrix is symmetric -/
theorem C78_symmetric {m : Mesh} (hr : Reachable m) {pn : Bool} (hg : GoodPlate m pn) {method : String} {al : ℝ} {fa : Bool} {K : Mat}
    (hK : Stiffness m pn method al fa K) : ∀ i < K.dim, ∀ j < K.dim, K.get i j = K.get j i := by
  obtain ⟨hdim, K0, hK0, hd0, hform⟩ := stiffness_energy hr hg hK
  have h1 : ∀ v u, form K.dim K.get v u = form K.dim K.get u v := by
    intro v u
    rw [hform, hform, form_symm (fun i _ j _ => C19_symmetric hr hK0 i j) v u]
    congr 1
    unfold shearEnergy
    congr 1
    refine List.map_congr_left fun e _ => ?_
    ring
  intro i hi j hj
  rw [← form_single K.get hi hj, h1, form_single K.get hj hi]

/-- C78: reciprocity (Maxwell-Betti). If `d1` and `d2` solve the static problem of the same supported plate for the loads `f1` and `f2`, the work of
`f1` on `d2` equals the work of `f2` on `d1`. -/
theorem C78_reciprocity {m : Mesh} (hr : Reachable m) {pn : Bool} (hg : GoodPlate m pn) {method : String} {al : ℝ} {fa : Bool} {K : Mat}
    (hK : Stiffness m pn method al fa K) {S : Set ℕ} {f1 f2 d1 d2 : ℕ → ℝ}
    (s1 : ∀ i < K.dim, i ∈ S → d1 i = 0) (e1 : ∀ i < K.dim, i ∉ S → ∑ j ∈ range K.dim, K.get i j * d1 j = f1 i)
    (s2 : ∀ i < K.dim, i ∈ S → d2 i = 0) (e2 : ∀ i < K.dim, i ∉ S → ∑ j ∈ range K.dim, K.get i j * d2 j = f2 i) :
    ∑ i ∈ range K.dim, f1 i * d2 i = ∑ i ∈ range K.dim, f2 i * d1 i := by
  have h1 := form_work s2 e1
  have h2 := form_work s1 e2
  rw [form_symm (C78_symmetric hr hg hK), h2] at h1
  simp only [mul_comm (f1 _), mul_comm (f2 _)]
  exact h1.symm

theorem sum_by_node (n : ℕ) (f : ℕ → ℝ) : ∑ x ∈ range (5 * n), f x = ∑ a ∈ range n, (f (5 * a) + f (5 * a + 1) + f (5 * a + 2) + f (5 * a + 3) + f (5 * a + 4)) := by
  induction n with
  | zero => simp
  | succ n ih =>
    rw [Finset.sum_range_succ _ n, ← ih, show 5 * (n + 1) = 5 * n + 1 + 1 + 1 + 1 + 1 by ring]
    rw [Finset.sum_range_succ, Finset.sum_range_succ, Finset.sum_range_succ, Finset.sum_range_succ, Finset.sum_range_succ]
    ring

/-- the force `K d` at degree of freedom `r` of node `i` -/
noncomputable def Spec.forceAt (m : Mesh) (K : Mat) (d : ℕ → ℝ) (r i : ℕ) : ℝ := ∑ j ∈ range K.dim, K.get (dofNo m i r) j * d j

theorem sum_nodes {m : Mesh} (hn : m.nids.Nodup) (f : ℕ → ℝ) : (m.nids.map fun i => f (m.nids.idxOf i)).sum = ∑ a ∈ range m.nids.length, f a := by
  have : m.nids.map (fun i => f (m.nids.idxOf i)) = (List.range m.nids.length).map f := by
    refine List.ext_getElem (by simp) fun k h1 h2 => ?_
    simp only [List.getElem_map, List.getElem_range]
    rw [List.Nodup.idxOf_getElem hn]
  rw [this]
  simp [Finset.sum, Finset.range, Multiset.range]

theorem forces_rigid {m : Mesh} (hn : m.nids.Nodup) {K : Mat} (hdim : K.dim = 5 * m.nids.length) (a b c p q s t : ℝ) (d : ℕ → ℝ) :
    form K.dim K.get (rigidVec m a b c p q s t) d = (m.nids.map fun i => (a - c * ny m i) * forceAt m K d 0 i + (b + c * nx m i) * forceAt m K d 1 i +
      (s - t * (p * nx m i + q * ny m i)) * forceAt m K d 2 i + p * forceAt m K d 3 i + q * forceAt m K d 4 i).sum := by
  rw [form_eq_sum]
  have h : m.nids.map (fun i => (a - c * ny m i) * forceAt m K d 0 i + (b + c * nx m i) * forceAt m K d 1 i +
      (s - t * (p * nx m i + q * ny m i)) * forceAt m K d 2 i + p * forceAt m K d 3 i + q * forceAt m K d 4 i) =
      m.nids.map fun i => (fun k => rigidVec m a b c p q s t (5 * k) * (∑ j ∈ range K.dim, K.get (5 * k) j * d j) +
        rigidVec m a b c p q s t (5 * k + 1) * (∑ j ∈ range K.dim, K.get (5 * k + 1) j * d j) +
        rigidVec m a b c p q s t (5 * k + 2) * (∑ j ∈ range K.dim, K.get (5 * k + 2) j * d j) +
        rigidVec m a b c p q s t (5 * k + 3) * (∑ j ∈ range K.dim, K.get (5 * k + 3) j * d j) +
        rigidVec m a b c p q s t (5 * k + 4) * (∑ j ∈ range K.dim, K.get (5 * k + 4) j * d j)) (m.nids.idxOf i) := by
    refine List.map_congr_left fun i hi => ?_
    obtain ⟨h0, h1, h2, h3, h4⟩ := rigidVec_disp hi a b c p q s t
    unfold disp at h0 h1 h2 h3 h4
    rw [Nat.add_zero] at h0
    unfold forceAt dofNo
    simp only [Nat.add_zero]
    rw [h0, h1, h2, h3, h4]
  rw [h, sum_nodes hn (fun k => rigidVec m a b c p q s t (5 * k) * (∑ j ∈ range K.dim, K.get (5 * k) j * d j) +
        rigidVec m a b c p q s t (5 * k + 1) * (∑ j ∈ range K.dim, K.get (5 * k + 1) j * d j) +
        rigidVec m a b c p q s t (5 * k + 2) * (∑ j ∈ range K.dim, K.get (5 * k + 2) j * d j) +
        rigidVec m a b c p q s t (5 * k + 3) * (∑ j ∈ range K.dim, K.get (5 * k + 3) j * d j) +
        rigidVec m a b c p q s t (5 * k + 4) * (∑ j ∈ range K.dim, K.get (5 * k + 4) j * d j)), ← sum_by_node m.nids.length
          (fun x => rigidVec m a b c p q s t x * ∑ j ∈ range K.dim, K.get x j * d j), hdim]

/-- C79: the nodal forces `K d` of every displacement are in equilibrium: no resultant force along `x`, `y`, `z`, no resultant moment about the `z`
axis and none about the in-plane axes (the latter with the factor `rotFactor` of the rotations: 1 without smoothing, `1 + 10^-15` with). For a
solution of the static problem this says that the reactions at the supports balance the loads. -/
theorem C79_equilibrium {m : Mesh} (hr : Reachable m) {pn : Bool} (hg : GoodPlate m pn) {method : String} {al : ℝ} {fa : Bool} {K : Mat}
    (hK : Stiffness m pn method al fa K) (d : ℕ → ℝ) :
    (m.nids.map (forceAt m K d 0)).sum = 0 ∧ (m.nids.map (forceAt m K d 1)).sum = 0 ∧ (m.nids.map (forceAt m K d 2)).sum = 0 ∧
    (m.nids.map fun i => nx m i * forceAt m K d 1 i - ny m i * forceAt m K d 0 i).sum = 0 ∧
    (m.nids.map fun i => forceAt m K d 3 i - rotFactor method * nx m i * forceAt m K d 2 i).sum = 0 ∧
    (m.nids.map fun i => forceAt m K d 4 i - rotFactor method * ny m i * forceAt m K d 2 i).sum = 0 := by
  obtain ⟨hdim, _⟩ := stiffness_energy hr hg hK
  have hn := hr.wf.nids_nodup
  have key : ∀ a b c p q s : ℝ, (m.nids.map fun i => (a - c * ny m i) * forceAt m K d 0 i + (b + c * nx m i) * forceAt m K d 1 i +
      (s - rotFactor method * (p * nx m i + q * ny m i)) * forceAt m K d 2 i + p * forceAt m K d 3 i + q * forceAt m K d 4 i).sum = 0 := by
    intro a b c p q s
    rw [← forces_rigid hn hdim, form_symm (C78_symmetric hr hg hK)]
    exact stiffness_rigid hr hg hK (fun i hi => (rigidVec_disp hi ..).1) (fun i hi => (rigidVec_disp hi ..).2.1) (fun i hi => (rigidVec_disp hi ..).2.2.1)
      (fun i hi => (rigidVec_disp hi ..).2.2.2.1) (fun i hi => (rigidVec_disp hi ..).2.2.2.2) d
  refine ⟨?_, ?_, ?_, ?_, ?_, ?_⟩
  · rw [← key 1 0 0 0 0 0]; congr 1; exact List.map_congr_left fun i _ => by ring
  · rw [← key 0 1 0 0 0 0]; congr 1; exact List.map_congr_left fun i _ => by ring
  · rw [← key 0 0 0 0 0 1]; congr 1; exact List.map_congr_left fun i _ => by ring
  · rw [← key 0 0 1 0 0 0]; congr 1; exact List.map_congr_left fun i _ => by ring
  · rw [← key 0 0 0 1 0 0]; congr 1; exact List.map_congr_left fun i _ => by ring
  · rw [← key 0 0 0 0 1 0]; congr 1; exact List.map_congr_left fun i _ => by ring

/-! ### which supports are enough -/

/-- a plate of triangles has three nodes not on a line -/
theorem three_nodes {m : Mesh} (hr : Reachable m) (hp : Proper m) (hg : Planar m) (hne : m.eids ≠ []) : ∃ i ∈ m.nids, ∃ j ∈ m.nids, ∃ l ∈ m.nids, cr m i j l ≠ 0 := by
  obtain ⟨t, ht⟩ := List.exists_mem_of_ne_nil _ hne
  obtain ⟨k, hk, o, htk, hs⟩ := exists_side hr.wf hp ht
  exact ⟨k.1, hs.ina, k.2, hs.inb, o, hs.ino, cr_ne hg hs⟩

theorem rigidVec_nonzero {m : Mesh} (hr : Reachable m) (hp : Proper m) (hg : Planar m) (hne : m.eids ≠ []) {a b c p q s t : ℝ}
    (h : ∀ x < 5 * m.nids.length, rigidVec m a b c p q s t x = 0) : a = 0 ∧ b = 0 ∧ c = 0 ∧ p = 0 ∧ q = 0 ∧ s = 0 := by
  obtain ⟨i, hi, j, hj, l, hl, hcr⟩ := three_nodes hr hp hg hne
  have h0 : ∀ i ∈ m.nids, ∀ r < 5, disp m (rigidVec m a b c p q s t) r i = 0 := by
    intro i hi r hr5
    have := List.idxOf_lt_length_of_mem hi
    exact h _ (by omega)
  have hv : ∀ i ∈ m.nids, a - c * ny m i = 0 ∧ b + c * nx m i = 0 ∧ s - t * (p * nx m i + q * ny m i) = 0 ∧ p = 0 ∧ q = 0 := by
    intro i hi
    obtain ⟨g0, g1, g2, g3, g4⟩ := rigidVec_disp hi a b c p q s t
    rw [h0 i hi _ (by omega)] at g0 g1 g2 g3 g4
    exact ⟨g0.symm, g1.symm, g2.symm, g3.symm, g4.symm⟩
  obtain ⟨i0, i1, i2, rfl, rfl⟩ := hv i hi
  obtain ⟨j0, j1, j2, _, _⟩ := hv j hj
  have hc : c = 0 := by
    by_contra hc
    apply hcr
    have e1 : nx m j = nx m i := mul_left_cancel₀ hc (by linarith)
    have e2 : ny m j = ny m i := mul_left_cancel₀ hc (by linarith)
    unfold cr; rw [e1, e2]; ring
  subst hc
  exact ⟨by linarith, by linarith, rfl, rfl, rfl, by linarith⟩

/-- every degree of freedom belongs to a node -/
theorem dof_exists {m : Mesh} (hr : Reachable m) {x : ℕ} (hx : x < 5 * m.nids.length) : ∃ i ∈ m.nids, ∃ r < 5, x = dofNo m i r := by
  have hl : x / 5 < m.nids.length := by omega
  refine ⟨m.nids[x / 5], List.getElem_mem hl, x % 5, Nat.mod_lt _ (by norm_num), ?_⟩
  unfold dofNo
  rw [List.Nodup.idxOf_getElem hr.wf.nids_nodup]; omega

theorem rigidVec_supported {m : Mesh} (hr : Reachable m) {K : Mat} (hdim : K.dim = 5 * m.nids.length) {S : Set ℕ} {a b c p q s t : ℝ} 
    (h : ∀ i ∈ m.nids, (dofNo m i 0 ∈ S → a - c * ny m i = 0) ∧ (dofNo m i 1 ∈ S → b + c * nx m i = 0) ∧
    (dofNo m i 2 ∈ S → s - t * (p * nx m i + q * ny m i) = 0) ∧ (dofNo m i 3 ∈ S → p = 0) ∧ (dofNo m i 4 ∈ S → q = 0)) :
    ∀ x < K.dim, x ∈ S → rigidVec m a b c p q s t x = 0 := by
  intro x hx hS
  obtain ⟨i, hi, r, hr5, rfl⟩ := dof_exists hr (x := x) (by omega)
  obtain ⟨h0, h1, h2, h3, h4⟩ := h i hi
  obtain ⟨g0, g1, g2, g3, g4⟩ := rigidVec_disp hi a b c p q s t
  change disp m (rigidVec m a b c p q s t) r i = 0
  interval_cases r
  · rw [g0]; exact h0 hS
  · rw [g1]; exact h1 hS
  · rw [g2]; exact h2 hS
  · rw [g3]; exact h3 hS
  · rw [g4]; exact h4 hS

/-- C75, exact form for the smoothed method: the supported plate is stable precisely when the supports exclude every rigid motion -/
theorem C75_iff {m : Mesh} (hr : Reachable m) {pn : Bool} (hg : GoodPlate m pn) (h2 : 2 ≤ m.eids.length) {al : ℝ} (ha : 0 ≤ al) {fa : Bool} {K : Mat}
    (hK : Stiffness m pn "cell-based" al fa K) (S : Set ℕ) :
    (∀ d : ℕ → ℝ, (∀ i < K.dim, i ∈ S → d i = 0) → (∃ i < K.dim, d i ≠ 0) → 0 < form K.dim K.get d d) ↔ Fixed m S := by
  obtain ⟨hdim, _⟩ := stiffness_energy hr hg hK
  have hθ : rotFactor "cell-based" = 1 + 1 / 10 ^ 15 := if_pos rfl
  have hθ0 := rotFactor_ne "cell-based"
  have hne : m.eids ≠ [] := by intro h; rw [h] at h2; simp at h2
  constructor
  · intro h a b c p q s hS
    by_contra hcon
    -- the rigid motion with tilts divided by the factor
    have hsup := rigidVec_supported hr hdim (S := S) (a := a) (b := b) (c := c) (p := p / rotFactor "cell-based") (q := q / rotFactor "cell-based") (s := s)
      (t := rotFactor "cell-based") (fun i hi => by
        obtain ⟨h0, h1, h2, h3, h4⟩ := hS i hi
        refine ⟨h0, h1, fun hh => ?_, fun hh => by rw [h3 hh]; simp, fun hh => by rw [h4 hh]; simp⟩
        rw [← h2 hh]; field_simp)
    have hnz : ∃ x < K.dim, rigidVec m a b c (p / rotFactor "cell-based") (q / rotFactor "cell-based") s (rotFactor "cell-based") x ≠ 0 := by
      by_contra hz
      push Not at hz
      obtain ⟨z1, z2, z3, z4, z5, z6⟩ := rigidVec_nonzero hr hg.proper hg.planar hne (fun x hx => hz x (hdim ▸ hx))
      exact hcon ⟨z1, z2, z3, (div_eq_zero_iff.1 z4).resolve_right hθ0, (div_eq_zero_iff.1 z5).resolve_right hθ0, z6⟩
    have := h _ hsup hnz
    rw [stiffness_rigid hr hg hK (fun i hi => (rigidVec_disp hi ..).1) (fun i hi => (rigidVec_disp hi ..).2.1) (fun i hi => (rigidVec_disp hi ..).2.2.1)
      (fun i hi => (rigidVec_disp hi ..).2.2.2.1) (fun i hi => (rigidVec_disp hi ..).2.2.2.2)] at this
    exact lt_irrefl _ this
  · intro hF d hd hnz
    obtain ⟨hnn, _⟩ := modes_total hr hg ha hK (d := d)
    rcases lt_or_eq_of_le hnn with h | h
    · exact h
    exfalso
    obtain ⟨⟨a, b, c, h1⟩, p, q, s, h3⟩ := (C74_modes hr hg h2 ha hK d).1 h.symm
    have hz0 : ∀ i ∈ m.nids, ∀ r < 5, dofNo m i r ∈ S → disp m d r i = 0 := by
      intro i hi r hr5 hm
      refine hd _ ?_ hm
      have := List.idxOf_lt_length_of_mem hi
      rw [hdim]; omega
    obtain ⟨rfl, rfl, rfl, hp, hq, rfl⟩ := hF a b c ((1 + 1 / 10 ^ 15) * p) ((1 + 1 / 10 ^ 15) * q) s (fun i hi => by
      refine ⟨fun hh => ?_, fun hh => ?_, fun hh => ?_, fun hh => ?_, fun hh => ?_⟩
      · rw [← (h1 i hi).1]; exact hz0 i hi 0 (by omega) hh
      · rw [← (h1 i hi).2]; exact hz0 i hi 1 (by omega) hh
      · have := hz0 i hi 2 (by omega) hh
        rw [(h3 i hi).2.2] at this
        rw [← this]; ring
      · rw [← (h3 i hi).1, hz0 i hi 3 (by omega) hh, mul_zero]
      · rw [← (h3 i hi).2.1, hz0 i hi 4 (by omega) hh, mul_zero])
    have hp : p = 0 := (mul_eq_zero.1 hp).resolve_left (by norm_num)
    have hq : q = 0 := (mul_eq_zero.1 hq).resolve_left (by norm_num)
    subst hp hq
    obtain ⟨x, hx, hne0⟩ := hnz
    apply hne0
    obtain ⟨i, hi, r, hr5, rfl⟩ := dof_exists hr (x := x) (by omega)
    obtain ⟨u0, u1⟩ := h1 _ hi
    obtain ⟨u3, u4, u2⟩ := h3 _ hi
    change disp m d r i = 0
    interval_cases r
    · rw [u0]; ring
    · rw [u1]; ring
    · rw [u2]; ring
    · exact u3
    · exact u4

/-- C76, exact form for the smoothed method: the static problem has exactly one solution for every load precisely when the supports exclude every
rigid motion -/
theorem C76_iff {m : Mesh} (hr : Reachable m) {pn : Bool} (hg : GoodPlate m pn) (h2 : 2 ≤ m.eids.length) {al : ℝ} (ha : 0 ≤ al) {fa : Bool} {K : Mat}
    (hK : Stiffness m pn "cell-based" al fa K) (S : Set ℕ) :
    (∀ f : ℕ → ℝ, ∃ d : ℕ → ℝ, ((∀ i < K.dim, i ∈ S → d i = 0) ∧ ∀ i < K.dim, i ∉ S → ∑ j ∈ range K.dim, K.get i j * d j = f i) ∧
      ∀ d' : ℕ → ℝ, ((∀ i < K.dim, i ∈ S → d' i = 0) ∧ ∀ i < K.dim, i ∉ S → ∑ j ∈ range K.dim, K.get i j * d' j = f i) → ∀ i < K.dim, d' i = d i) ↔
    Fixed m S := by
  rw [← C75_iff hr hg h2 ha hK S]
  constructor
  · intro h d hd hnz
    obtain ⟨hnn, _⟩ := modes_total hr hg ha hK (d := d)
    rcases lt_or_eq_of_le hnn with h' | h'
    · exact h'
    exfalso
    -- a displacement without energy needs no load
    obtain ⟨⟨a, b, c, h1⟩, p, q, s, h3⟩ := (C74_modes hr hg h2 ha hK d).1 h'.symm
    have hrow : ∀ i < K.dim, ∑ j ∈ range K.dim, K.get i j * d j = 0 := fun i hi => by
      rw [← form_row K.get hi]
      exact stiffness_rigid hr hg hK (fun i hi => (h1 i hi).1) (fun i hi => (h1 i hi).2)
        (fun i hi => by rw [(h3 i hi).2.2]; unfold rotFactor; rw [if_pos rfl]) (fun i hi => (h3 i hi).1) (fun i hi => (h3 i hi).2.1) _
    obtain ⟨d0, _, hu⟩ := h fun _ => 0
    obtain ⟨x, hx, hx0⟩ := hnz
    have e1 := hu d ⟨hd, fun i hi _ => hrow i hi⟩ x hx
    have e2 := hu (fun _ => 0) ⟨fun _ _ _ => rfl, fun i _ _ => by simp⟩ x hx
    exact hx0 (e1.trans e2.symm)
  · intro h f
    refine solve_unique K.get S (fun d hd h0 => ?_) f
    by_contra hcon
    push Not at hcon
    exact absurd h0 (h d hd hcon).ne'

/-! ### the stabilisation parameter -/

/-- minimum principle: the work of the loads on the solution bounds `2 f x - x K x` for every admissible `x` -/
theorem work_max {n : ℕ} {K : ℕ → ℕ → ℝ} (hs : ∀ i < n, ∀ j < n, K i j = K j i) (hK : ∀ d, 0 ≤ form n K d d) {S : Set ℕ} {f d x : ℕ → ℝ}
    (hd : ∀ i < n, i ∈ S → d i = 0) (he : ∀ i < n, i ∉ S → ∑ j ∈ range n, K i j * d j = f i) (hx : ∀ i < n, i ∈ S → x i = 0) :
    2 * (∑ i ∈ range n, x i * f i) - form n K x x ≤ ∑ i ∈ range n, d i * f i := by
  have h := hK fun i => 1 * d i + -1 * x i
  rw [form_comb, form_comb_left, form_comb_left, form_symm hs d x, form_work hd he, form_work hx he] at h
  linarith

theorem work_mono {n : ℕ} {K K' : ℕ → ℕ → ℝ} (hs : ∀ i < n, ∀ j < n, K i j = K j i) (hK : ∀ d, 0 ≤ form n K d d) (hle : ∀ d, form n K d d ≤ form n K' d d)
    {S : Set ℕ} {f d d' : ℕ → ℝ} (hd : ∀ i < n, i ∈ S → d i = 0) (he : ∀ i < n, i ∉ S → ∑ j ∈ range n, K i j * d j = f i)
    (hd' : ∀ i < n, i ∈ S → d' i = 0) (he' : ∀ i < n, i ∉ S → ∑ j ∈ range n, K' i j * d' j = f i) :
    ∑ i ∈ range n, d' i * f i ≤ ∑ i ∈ range n, d i * f i := by
  have h1 := work_max hs hK hd he hd'
  have h2 := form_work hd' he'
  have h3 := hle d'
  linarith

theorem shearMod_anti {m : Mesh} (w : WF m) {pn : Bool} (hh : HasProps m pn) (hl : ∀ l, InUse m pn l → StiffShear l) {al al' : ℝ} (ha : 0 ≤ al) (hle : al ≤ al')
    (fa : Bool) {e : ℕ} (he : e ∈ m.eids) (r : Fin 2) : shearMod m pn al' fa e r ≤ shearMod m pn al fa e r := by
  have hh0 : 0 < cavg m pn e (fun l => l.h) := cavg_pos w hh he fun l h => (hl l h).1
  have h13 : 0 < cavg m pn e (fun l => l.k13) := cavg_pos w hh he fun l h => (hl l h).2.1
  have h23 : 0 < cavg m pn e (fun l => l.k23) := cavg_pos w hh he fun l h => (hl l h).2.2.1
  have h0 : 0 < cavg m pn e (fun l => l.E 0 0) := cavg_pos w hh he fun l h => (hl l h).2.2.2.1
  have h1 : 0 < cavg m pn e (fun l => l.E 1 1) := cavg_pos w hh he fun l h => (hl l h).2.2.2.2
  unfold shearMod
  dsimp only
  refine mul_le_mul_of_nonneg_right ?_ (by split <;> positivity)
  apply div_le_div_of_nonneg_left (by positivity) (by positivity)
  have := mul_le_mul_of_nonneg_right hle (sq_nonneg (charLen m fa e))
  linarith

/-- C80: a larger stabilisation parameter `alpha` never makes the plate stiffer: for the same displacement the energy does not grow -/
theorem C80_energy {m : Mesh} (hr : Reachable m) {pn : Bool} (hg : GoodPlate m pn) {method : String} {al al' : ℝ} (ha : 0 ≤ al) (hle : al ≤ al') {fa : Bool} {K K' : Mat}
    (hK : Stiffness m pn method al fa K) (hK' : Stiffness m pn method al' fa K') (d : ℕ → ℝ) : form K'.dim K'.get d d ≤ form K.dim K.get d d := by
  obtain ⟨hdim, K0, hK0, hd0, hform⟩ := stiffness_energy hr hg hK
  obtain ⟨hdim', K0', hK0', hd0', hform'⟩ := stiffness_energy hr hg hK'
  obtain rfl : K0 = K0' := by rw [hK0] at hK0'; exact Except.ok.inj hK0'
  obtain ⟨hs, hq, hh, hne⟩ := calcK0_ok hr.wf hK0
  rw [hform, hform']
  refine add_le_add le_rfl ?_
  unfold shearEnergy
  refine List.sum_le_sum fun e he => ?_
  have hA : 0 ≤ triArea (calcK0 m pn).1 e := by unfold triArea; positivity
  have hl2 : ∀ l, InUse (calcK0 m pn).1 pn l → StiffShear l := fun l h => hg.shear l (hs.inUse.1 h)
  have m0 := shearMod_anti (hs.wf hr.wf) (hs.hasProps hh) hl2 ha hle fa he 0
  have m1 := shearMod_anti (hs.wf hr.wf) (hs.hasProps hh) hl2 ha hle fa he 1
  refine mul_le_mul_of_nonneg_left ?_ hA
  have e0 := mul_le_mul_of_nonneg_left m0 (mul_self_nonneg ((if method = "cell-based" then cellStrain (calcK0 m pn).1 else wholeGamma (calcK0 m pn).1) e d 0))
  have e1 := mul_le_mul_of_nonneg_left m1 (mul_self_nonneg ((if method = "cell-based" then cellStrain (calcK0 m pn).1 else wholeGamma (calcK0 m pn).1) e d 1))
  linarith

/-- C80: for the same supports and loads, the work of the loads on the static solution (twice the stored energy) does not fall when `alpha` grows: the
computed deflection under a single load only grows -/
theorem C80_deflection {m : Mesh} (hr : Reachable m) {pn : Bool} (hg : GoodPlate m pn) {method : String} {al al' : ℝ} (ha : 0 ≤ al) (hle : al ≤ al') {fa : Bool} {K K' : Mat}
    (hK : Stiffness m pn method al fa K) (hK' : Stiffness m pn method al' fa K') {S : Set ℕ} {f d d' : ℕ → ℝ}
    (hd : ∀ i < K.dim, i ∈ S → d i = 0) (he : ∀ i < K.dim, i ∉ S → ∑ j ∈ range K.dim, K.get i j * d j = f i)
    (hd' : ∀ i < K'.dim, i ∈ S → d' i = 0) (he' : ∀ i < K'.dim, i ∉ S → ∑ j ∈ range K'.dim, K'.get i j * d' j = f i) :
    ∑ i ∈ range K.dim, d i * f i ≤ ∑ i ∈ range K.dim, d' i * f i := by
  obtain ⟨hdim, _⟩ := stiffness_energy hr hg hK
  obtain ⟨hdim', _⟩ := stiffness_energy hr hg hK'
  have hdd : K'.dim = K.dim := by rw [hdim, hdim']
  have hsym := C78_symmetric hr hg hK'
  have hen := C80_energy hr hg ha hle hK hK'
  have hnn := fun x => (modes_total hr hg (ha.trans hle) hK' (d := x)).1
  rw [hdd] at hd' he' hsym
  simp only [hdd] at hen hnn
  exact work_mono hsym hnn hen hd' he' hd he

/-- C80 for a single unit load: its deflection does not decrease -/
theorem C80_point {m : Mesh} (hr : Reachable m) {pn : Bool} (hg : GoodPlate m pn) {method : String} {al al' : ℝ} (ha : 0 ≤ al) (hle : al ≤ al') {fa : Bool} {K K' : Mat}
    (hK : Stiffness m pn method al fa K) (hK' : Stiffness m pn method al' fa K') {S : Set ℕ} {d d' : ℕ → ℝ} {x : ℕ} (hx : x < K.dim)
    (hd : ∀ i < K.dim, i ∈ S → d i = 0) (he : ∀ i < K.dim, i ∉ S → ∑ j ∈ range K.dim, K.get i j * d j = if i = x then 1 else 0)
    (hd' : ∀ i < K'.dim, i ∈ S → d' i = 0) (he' : ∀ i < K'.dim, i ∉ S → ∑ j ∈ range K'.dim, K'.get i j * d' j = if i = x then 1 else 0) : d x ≤ d' x := by
  have := C80_deflection hr hg ha hle hK hK' (f := fun i => if i = x then 1 else 0) hd he hd' he'
  simpa [Finset.sum_ite_eq', hx] using this

/-! ### concrete cases -/

/-- the supports of the project's buckling test on the unit square (`u` and `w` on the left side, `v` and `w` on the lower and upper sides, `w` on the
right side) exclude all rigid motions ... -/
theorem exSq_fixed : Fixed exSq {x | x = 0 ∨ x = 15 ∨ x % 5 = 1 ∨ x % 5 = 2} := by
  intro a b c p q s h
  have h1 := h 1 (by rw [exMesh_nids]; simp)
  have h2 := h 2 (by rw [exMesh_nids]; simp)
  have h4 := h 4 (by rw [exMesh_nids]; simp)
  simp only [dofNo, exMesh_nids, Set.mem_ofPred_eq, nx, ny, exMesh_node1, exMesh_node2, exMesh_node4] at h1 h2 h4
  norm_num [List.idxOf_cons] at h1 h2 h4
  refine ⟨?_, ?_, ?_, ?_, ?_, ?_⟩ <;> linarith

/-- ... so that the square is stable with them -/
example : ∃ K, Stiffness exSq true "cell-based" (1 / 5) false K ∧
    ∀ d : ℕ → ℝ, (∀ i < K.dim, i = 0 ∨ i = 15 ∨ i % 5 = 1 ∨ i % 5 = 2 → d i = 0) → (∃ i < K.dim, d i ≠ 0) → 0 < form K.dim K.get d d := by
  obtain ⟨K, hK⟩ := exSq_stiffness (Or.inl rfl) true (1 / 5) false
  exact ⟨K, hK, (C75_iff (exMesh_reachable ..) (exSq_good true) (by rw [exMesh_eids]; simp) (by norm_num) hK _).2 exSq_fixed⟩

/-- fixing only the three displacements of one node is not enough: some load has no solution or several -/
example : ∃ K, Stiffness exSq true "cell-based" (1 / 5) false K ∧ ¬ ∀ f : ℕ → ℝ, ∃ d : ℕ → ℝ,
    ((∀ i < K.dim, i ∈ {x : ℕ | x < 3} → d i = 0) ∧ ∀ i < K.dim, i ∉ {x : ℕ | x < 3} → ∑ j ∈ range K.dim, K.get i j * d j = f i) ∧
      ∀ d' : ℕ → ℝ, ((∀ i < K.dim, i ∈ {x : ℕ | x < 3} → d' i = 0) ∧ ∀ i < K.dim, i ∉ {x : ℕ | x < 3} → ∑ j ∈ range K.dim, K.get i j * d' j = f i) →
        ∀ i < K.dim, d' i = d i := by
  obtain ⟨K, hK⟩ := exSq_stiffness (Or.inl rfl) true (1 / 5) false
  refine ⟨K, hK, ?_⟩
  rw [C76_iff (exMesh_reachable ..) (exSq_good true) (by rw [exMesh_eids]; simp) (by norm_num) hK]
  intro h
  have := h 0 0 1 0 0 0 (by
    intro i hi
    rw [exMesh_nids] at hi
    simp only [List.mem_cons, List.not_mem_nil, or_false] at hi
    rcases hi with rfl | rfl | rfl | rfl <;>
    simp only [dofNo, exMesh_nids, Set.mem_ofPred_eq, nx, ny, exMesh_node1, exMesh_node2, exMesh_node3, exMesh_node4] <;>
    norm_num [List.idxOf_cons])
  exact one_ne_zero this.2.2.1

/-- C78 and C79 on the clamped square: solutions for any two loads exist, are reciprocal, and their nodal forces have no resultant along `z` -/
example (f1 f2 : ℕ → ℝ) : ∃ K, Stiffness exSq false "cell-based-no-smoothing" 0 true K ∧ ∃ d1 d2 : ℕ → ℝ,
    (∀ i < K.dim, i ∉ {x : ℕ | x < 5 ∨ 15 ≤ x} → ∑ j ∈ range K.dim, K.get i j * d1 j = f1 i) ∧
    (∀ i < K.dim, i ∉ {x : ℕ | x < 5 ∨ 15 ≤ x} → ∑ j ∈ range K.dim, K.get i j * d2 j = f2 i) ∧
    ∑ i ∈ range K.dim, f1 i * d2 i = ∑ i ∈ range K.dim, f2 i * d1 i ∧ (exSq.nids.map (forceAt exSq K d1 2)).sum = 0 := by
  obtain ⟨K, hK⟩ := exSq_stiffness (Or.inr rfl) false 0 true
  obtain ⟨d1, ⟨a1, b1⟩, _⟩ := C76_static (exMesh_reachable ..) (exSq_good false) le_rfl hK exSq_held f1
  obtain ⟨d2, ⟨a2, b2⟩, _⟩ := C76_static (exMesh_reachable ..) (exSq_good false) le_rfl hK exSq_held f2
  exact ⟨K, hK, d1, d2, b1, b2, C78_reciprocity (exMesh_reachable ..) (exSq_good false) hK a1 b1 a2 b2,
    (C79_equilibrium (exMesh_reachable ..) (exSq_good false) hK d1).2.2.1⟩

/-- C80 on the clamped square, the tests' `alpha = 0.2` against no stabilisation -/
example (f : ℕ → ℝ) : ∃ K K', Stiffness exSq false "cell-based" 0 true K ∧ Stiffness exSq false "cell-based" (1 / 5) true K' ∧ ∃ d d' : ℕ → ℝ,
    (∀ i < K.dim, i ∉ {x : ℕ | x < 5 ∨ 15 ≤ x} → ∑ j ∈ range K.dim, K.get i j * d j = f i) ∧
    (∀ i < K'.dim, i ∉ {x : ℕ | x < 5 ∨ 15 ≤ x} → ∑ j ∈ range K'.dim, K'.get i j * d' j = f i) ∧
    ∑ i ∈ range K.dim, d i * f i ≤ ∑ i ∈ range K.dim, d' i * f i := by
  obtain ⟨K, hK⟩ := exSq_stiffness (Or.inl rfl) false 0 true
  obtain ⟨K', hK'⟩ := exSq_stiffness (Or.inl rfl) false (1 / 5) true
  obtain ⟨d1, ⟨a1, b1⟩, _⟩ := C76_static (exMesh_reachable ..) (exSq_good false) le_rfl hK exSq_held f
  obtain ⟨d2, ⟨a2, b2⟩, _⟩ := C76_static (exMesh_reachable ..) (exSq_good false) (by norm_num) hK' exSq_held f
  exact ⟨K, K', hK, hK', d1, d2, b1, b2, C80_deflection (exMesh_reachable ..) (exSq_good false) le_rfl (by norm_num) hK hK' a1 b1 a2 b2⟩

end Meshless
