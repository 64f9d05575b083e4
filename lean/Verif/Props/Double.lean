import Verif.Props.Bound
import Verif.Props.K0Energy
import Mathlib.Algebra.Order.BigOperators.Group.Finset

/-! C154: what is left of symmetry, rigid motions and non-negative energy in the matrix computed in double precision. -/

set_option autoImplicit false

namespace Meshless
open Spec Finset

variable {f : Fmt} {m : Mesh} {pn : Bool} {a b d E M : ℝ}

theorem nids_at {m : Mesh} (w : WF m) {p : ℕ} (h : p < 5 * m.nids.length) : ∃ i ∈ m.nids, m.nids.getD (p / 5) 0 = i ∧ p = 5 * m.nids.idxOf i + p % 5 := by
  have h5 : p / 5 < m.nids.length := by omega
  refine ⟨m.nids[p / 5], List.getElem_mem h5, by simp [List.getD_eq_getElem?_getD, List.getElem?_eq_getElem h5], ?_⟩
  rw [w.nids_nodup.idxOf_getElem]
  omega

/-- C154: every entry of the computed matrix is a number within `k0Err` of the exact one -/
theorem C154_entries (hr : Reachable m) (h : K0Within f m pn a b d E M) : ∃ K F X, (calcK0 m pn).2 = .ok K ∧ (f.calcK0 m pn).2.2 = .ok F ∧ HasEntries F X ∧
    F.dim = 5 * m.nids.length ∧ K.dim = F.dim ∧ ∀ p < F.dim, ∀ q < F.dim, |X p q - K.get p q| ≤ k0Err m a b d E M p q := by
  obtain ⟨K, F, h1, h2, h3, h4⟩ := h
  have hd : K.dim = 5 * m.nids.length := (calcK0_sum hr.wf h1).1.trans (Nat.mul_comm _ _)
  have key : ∀ p q, ∃ x, p < 5 * m.nids.length → q < 5 * m.nids.length → F.get p q = .fin x ∧ |x - K.get p q| ≤ k0Err m a b d E M p q := by
    intro p q
    by_cases hp : p < 5 * m.nids.length
    · by_cases hq : q < 5 * m.nids.length
      · obtain ⟨i, hi, ei, ep⟩ := nids_at hr.wf hp
        obtain ⟨j, hj, ej, eq⟩ := nids_at hr.wf hq
        obtain ⟨x, e1, e2⟩ := h4 i hi j hj (p % 5) (Nat.mod_lt _ (by norm_num)) (q % 5) (Nat.mod_lt _ (by norm_num))
        rw [← ep, ← eq] at e1 e2
        exact ⟨x, fun _ _ => ⟨e1, by unfold k0Err; rw [ei, ej]; exact e2⟩⟩
      · exact ⟨0, fun _ h => absurd h hq⟩
    · exact ⟨0, fun h => absurd h hp⟩
  choose X hX using key
  exact ⟨K, F, X, h1, h2, fun p hp q hq => (hX p q (by omega) (by omega)).1, h3.trans hd, h3.symm, fun p hp q hq => (hX p q (by omega) (by omega)).2⟩

/-- C154: the same for the numbers of the computed matrix, however they are read -/
theorem C154_unique (hr : Reachable m) (h : K0Within f m pn a b d E M) {F : FMat} (hF : (f.calcK0 m pn).2.2 = .ok F) {X : ℕ → ℕ → ℝ} (hX : HasEntries F X) :
    ∃ K, (calcK0 m pn).2 = .ok K ∧ F.dim = 5 * m.nids.length ∧ K.dim = F.dim ∧ ∀ p < F.dim, ∀ q < F.dim, |X p q - K.get p q| ≤ k0Err m a b d E M p q := by
  obtain ⟨K, F', X', h1, h2, h3, h4, h5, h6⟩ := C154_entries hr h
  obtain rfl := Except.ok.inj (h2.symm.trans hF)
  refine ⟨K, h1, h4, h5, fun p hp q hq => ?_⟩
  have : X p q = X' p q := Flo.fin.inj ((hX p hp q hq).symm.trans (h3 p hp q hq))
  rw [this]
  exact h6 p hp q hq

theorem contributions_comm (m : Mesh) (i j : ℕ) : contributions m i j = contributions m j i := by
  unfold contributions
  refine List.countP_congr fun k _ => ?_
  simp only [decide_eq_true_eq]
  exact and_comm

theorem k0Err_comm (m : Mesh) (a b d E M : ℝ) (p q : ℕ) : k0Err m a b d E M p q = k0Err m a b d E M q p := by
  have : behind a b d (p % 5) (q % 5) = behind a b d (q % 5) (p % 5) := by unfold behind; split_ifs <;> rfl
  unfold k0Err
  rw [this, contributions_comm]

/-- C154: the computed matrix is symmetric up to twice the error -/
theorem C154_symmetric (hr : Reachable m) (h : K0Within f m pn a b d E M) {F : FMat} (hF : (f.calcK0 m pn).2.2 = .ok F) {X : ℕ → ℕ → ℝ} (hX : HasEntries F X)
    {p q : ℕ} (hp : p < F.dim) (hq : q < F.dim) : |X p q - X q p| ≤ 2 * k0Err m a b d E M p q := by
  obtain ⟨K, hK, _, _, hE⟩ := C154_unique hr h hF hX
  have h1 := hE p hp q hq
  have h2 := hE q hq p hp
  rw [C19_symmetric hr hK q p, k0Err_comm] at h2
  have := abs_sub_le (X p q) (K.get p q) (X q p)
  rw [abs_sub_comm (K.get p q)] at this
  linarith

/-- C154: a rigid motion in the plane and uniform rotations cause forces no larger than the errors times the displacements -/
theorem C154_rigid (hr : Reachable m) (hpr : Proper m) (hg : Planar m) (h : K0Within f m pn a b d E M) {F : FMat} (hF : (f.calcK0 m pn).2.2 = .ok F)
    {X : ℕ → ℕ → ℝ} (hX : HasEntries F X) {z : ℕ → ℝ} {x0 y0 w p q : ℝ} (hu : ∀ i ∈ m.nids, disp m z 0 i = x0 - w * ny m i) (hv : ∀ i ∈ m.nids, disp m z 1 i = y0 + w * nx m i)
    (hphix : ∀ i ∈ m.nids, disp m z 3 i = p) (hphiy : ∀ i ∈ m.nids, disp m z 4 i = q) {i : ℕ} (hi : i < F.dim) :
    |∑ j ∈ range F.dim, X i j * z j| ≤ ∑ j ∈ range F.dim, k0Err m a b d E M i j * |z j| := by
  obtain ⟨K, hK, _, hd, hE⟩ := C154_unique hr h hF hX
  have h0 := C20_rigid hr hpr hg hK hu hv hphix hphiy i (hd ▸ hi)
  rw [hd] at h0
  have : ∑ j ∈ range F.dim, X i j * z j = ∑ j ∈ range F.dim, (X i j - K.get i j) * z j := by
    simp only [sub_mul, sum_sub_distrib]
    rw [h0, sub_zero]
  rw [this]
  refine (abs_sum_le_sum_abs _ _).trans (sum_le_sum fun j hj => ?_)
  rw [abs_mul]
  exact mul_le_mul_of_nonneg_right (hE i hi j (mem_range.1 hj)) (abs_nonneg _)

/-- C154: the energy computed with the matrix differs from the exact energy by the errors times the displacements -/
theorem C154_energy (hr : Reachable m) (hpr : Proper m) (hg : Planar m) (h : K0Within f m pn a b d E M) {F : FMat} (hF : (f.calcK0 m pn).2.2 = .ok F)
    {X : ℕ → ℕ → ℝ} (hX : HasEntries F X) (v u : ℕ → ℝ) :
    |form F.dim X v u - energy m pn v u| ≤ ∑ i ∈ range F.dim, ∑ j ∈ range F.dim, k0Err m a b d E M i j * (|v i| * |u j|) := by
  obtain ⟨K, hK, _, hd, hE⟩ := C154_unique hr h hF hX
  rw [← C18_energy hr hpr hg hK, hd]
  unfold form
  simp only [← sum_sub_distrib]
  refine (abs_sum_le_sum_abs _ _).trans (sum_le_sum fun i hi => (abs_sum_le_sum_abs _ _).trans (sum_le_sum fun j hj => ?_))
  have : v i * X i j * u j - v i * K.get i j * u j = (X i j - K.get i j) * (v i * u j) := by ring
  rw [this, abs_mul, abs_mul (v i)]
  exact mul_le_mul_of_nonneg_right (hE i (mem_range.1 hi) j (mem_range.1 hj)) (by positivity)

/-- C154: with laminates of non-negative energy the computed matrix is at worst negative by the row sums of the errors -/
theorem C154_psd (hr : Reachable m) (hpr : Proper m) (hg : Planar m) (h : K0Within f m pn a b d E M) {F : FMat} (hF : (f.calcK0 m pn).2.2 = .ok F)
    {X : ℕ → ℕ → ℝ} (hX : HasEntries F X) (hl : ∀ l, InUse m pn l → ∀ x : Fin 6 → ℝ, 0 ≤ ∑ p, ∑ q, x p * abd l p q * x q) (z : ℕ → ℝ) :
    -∑ i ∈ range F.dim, (∑ j ∈ range F.dim, k0Err m a b d E M i j) * z i ^ 2 ≤ form F.dim X z z := by
  obtain ⟨K, hK, _, hd, hE⟩ := C154_unique hr h hF hX
  have h1 := C154_energy hr hpr hg h hF hX z z
  have h2 : 0 ≤ energy m pn z z := by
    rw [← C18_energy hr hpr hg hK]
    exact C21_psd hr hpr hg hK hl z
  have e0 : ∀ i ∈ range F.dim, ∀ j ∈ range F.dim, 0 ≤ k0Err m a b d E M i j := fun i hi j hj =>
    (abs_nonneg _).trans (hE i (mem_range.1 hi) j (mem_range.1 hj))
  have h3 : ∑ i ∈ range F.dim, ∑ j ∈ range F.dim, k0Err m a b d E M i j * (|z i| * |z j|) ≤
      ∑ i ∈ range F.dim, ∑ j ∈ range F.dim, (k0Err m a b d E M i j * z i ^ 2 / 2 + k0Err m a b d E M i j * z j ^ 2 / 2) := by
    refine sum_le_sum fun i hi => sum_le_sum fun j hj => ?_
    have := mul_le_mul_of_nonneg_left (two_mul_le_add_sq |z i| |z j|) (e0 i hi j hj)
    rw [sq_abs, sq_abs] at this
    linarith
  have h4 : ∑ i ∈ range F.dim, ∑ j ∈ range F.dim, k0Err m a b d E M i j * z j ^ 2 / 2 = ∑ i ∈ range F.dim, ∑ j ∈ range F.dim, k0Err m a b d E M i j * z i ^ 2 / 2 := by
    rw [sum_comm]
    refine sum_congr rfl fun i _ => sum_congr rfl fun j _ => ?_
    rw [k0Err_comm]
  have h5 : ∑ i ∈ range F.dim, ∑ j ∈ range F.dim, (k0Err m a b d E M i j * z i ^ 2 / 2 + k0Err m a b d E M i j * z j ^ 2 / 2) =
      ∑ i ∈ range F.dim, (∑ j ∈ range F.dim, k0Err m a b d E M i j) * z i ^ 2 := by
    simp only [sum_add_distrib]
    rw [h4, ← sum_add_distrib]
    refine sum_congr rfl fun i _ => ?_
    rw [← sum_add_distrib, sum_mul]
    exact sum_congr rfl fun j _ => by ring
  have := (abs_le.1 h1).1
  linarith

/-- the square of two triangles in double precision -/
theorem exSq_within (pn : Bool) : K0Within Fmt.binary64 exSq pn 1 1 1 470000000 6144 :=
  C153_k0_error_8 C153_binary64 (exMesh_reachable exIso exIso exIso exIso exIso exIso) (exMesh_proper ..) (exMesh_planar ..)
    (exMesh_props _ _ _ _ _ _ pn) (by rw [exMesh_nids]; simp) medium_one medium_one medium_one (exSq_upTo pn) (by rw [exMesh_ekeys]; norm_num)
    (exSq_fits (by norm_num) (by norm_num))

theorem exSq_err (p q : ℕ) : k0Err exSq 1 1 1 470000000 6144 p q ≤ 3 / 1000000 := by
  unfold k0Err
  generalize exSq.nids.getD (p / 5) 0 = i
  generalize exSq.nids.getD (q / 5) 0 = j
  have hn : ((contributions exSq i j : ℕ) : ℝ) ≤ 5 := by
    have : contributions exSq i j ≤ exSq.ekeys.length := List.countP_le_length
    rw [exMesh_ekeys] at this
    exact_mod_cast this
  have h0 : (0:ℝ) ≤ (contributions exSq i j : ℕ) := Nat.cast_nonneg _
  have hb : behind 1 1 1 (p % 5) (q % 5) = 1 := by unfold behind; split_ifs <;> rfl
  rw [hb, one_mul, div_le_iff₀ (by positivity)]
  generalize ((contributions exSq i j : ℕ) : ℝ) = n at hn h0
  nlinarith [mul_le_mul hn hn h0 (by norm_num)]

/-- on the square, computed in double precision: symmetric up to 6e-6, and a unit translation in x causes forces of at most 3e-5 -/
example (pn : Bool) : ∃ F X, (Fmt.binary64.calcK0 exSq pn).2.2 = .ok F ∧ F.dim = 20 ∧ HasEntries F X ∧ (∀ p < 20, ∀ q < 20, |X p q - X q p| ≤ 6 / 1000000) ∧
    (∀ i < 20, |∑ j ∈ range 20, X i j * (if j % 5 = 0 then 1 else 0)| ≤ 3 / 100000) ∧ ∀ z, -(6 / 100000) * ∑ i ∈ range 20, z i ^ 2 ≤ form 20 X z z := by
  have hr := exMesh_reachable exIso exIso exIso exIso exIso exIso
  have hw := exSq_within pn
  obtain ⟨_, F, X, _, hF, hX, hd, _, _⟩ := C154_entries hr hw
  have hd : F.dim = 20 := by rw [hd, exMesh_nids]; rfl
  refine ⟨F, X, hF, hd, hX, fun p hp q hq => ?_, fun i hi => ?_, fun z => ?_⟩
  · have := C154_symmetric hr hw hF hX (p := p) (q := q) (by omega) (by omega)
    linarith [exSq_err p q]
  · have hm : ∀ n r : ℕ, (5 * n + r) % 5 = r % 5 := fun n r => by omega
    have := C154_rigid hr (exMesh_proper ..) (exMesh_planar ..) hw hF hX (z := fun j => if j % 5 = 0 then 1 else 0) (x0 := 1) (y0 := 0) (w := 0) (p := 0) (q := 0)
      (fun i _ => by simp [disp]) (fun i _ => by simp [disp, hm]) (fun i _ => by simp [disp, hm]) (fun i _ => by simp [disp, hm]) (i := i) (by omega)
    rw [hd] at this
    refine this.trans ((sum_le_sum fun j _ => mul_le_mul_of_nonneg_right (exSq_err i j) (abs_nonneg _)).trans ?_)
    norm_num [sum_range_succ]
  · have := C154_psd hr (exMesh_proper ..) (exMesh_planar ..) hw hF hX (fun l hl => by rw [exSq_inUse hl]; exact exIso_psd) z
    rw [hd] at this
    refine le_trans ?_ this
    rw [neg_mul, neg_le_neg_iff, mul_sum]
    refine sum_le_sum fun i _ => mul_le_mul_of_nonneg_right ?_ (sq_nonneg _)
    refine (sum_le_sum fun j _ => exSq_err i j).trans ?_
    norm_num

end Meshless
