import Verif.Lemmas.StiffCount
import Verif.Props.ShearBoundCell
import Verif.Props.FmtModal
import Verif.Props.Condition

/-! C158: what is left of symmetry, rigid motions and non-negative energy in the complete stiffness matrix computed in double precision. -/

set_option autoImplicit false

namespace Meshless
open Spec Finset

variable {f : Fmt} {m : Mesh} {pn : Bool} {method : String} {al : ℝ} {fa : Bool} {P : ℕ → ℕ → ℝ} {E0 M0 E M : ℝ}

/-- C158: every entry of the computed matrix is a number within `stiffErr` of the exact one -/
theorem C158_entries (hr : Reachable m) (h : StiffWithin f m pn method al fa P E0 M0 E M) {F : FMat} (hF : FmtAssembled f m pn method al fa F) :
    ∃ K, Assembled m pn method al fa K ∧ F.dim = 5 * m.nids.length ∧ K.dim = F.dim ∧ AllFinite F ∧
      ∀ p < F.dim, ∀ q < F.dim, |(numbers F).get p q - K.get p q| ≤ stiffErr m P E0 M0 E M p q := by
  obtain ⟨K, F', h1, h2, d1, d2, h3⟩ := h
  obtain ⟨A, a1, a2⟩ := hF
  obtain ⟨B, b1, b2⟩ := h2
  obtain rfl := Except.ok.inj (a1.symm.trans b1)
  obtain rfl : F = F' := congrArg Prod.fst (a2.symm.trans b2)
  have key : ∀ p < F.dim, ∀ q < F.dim, ∃ x, F.get p q = .fin x ∧ |x - K.get p q| ≤ stiffErr m P E0 M0 E M p q := by
    intro p hp q hq
    obtain ⟨i, hi, ei, ep⟩ := nids_at hr.wf (show p < 5 * m.nids.length by omega)
    obtain ⟨j, hj, ej, eq⟩ := nids_at hr.wf (show q < 5 * m.nids.length by omega)
    obtain ⟨x, e1, _, e2⟩ := h3 i hi j hj (p % 5) (Nat.mod_lt _ (by norm_num)) (q % 5) (Nat.mod_lt _ (by norm_num))
    rw [← ep, ← eq] at e1 e2
    exact ⟨x, e1, by unfold stiffErr; rw [ei, ej]; exact e2⟩
  refine ⟨K, h1, by omega, by omega, fun p hp q hq => (key p hp q hq).imp fun _ h => h.1, fun p hp q hq => ?_⟩
  obtain ⟨x, e1, e2⟩ := key p hp q hq
  have : (numbers F).get p q = x := by simp only [numbers, e1]
  rw [this]
  exact e2

theorem shearCount_comm (m : Mesh) (i j r s : ℕ) : shearCount m i j r s = shearCount m j i s r := by
  unfold shearCount
  refine if_congr or_comm rfl (List.countP_congr fun k _ => ?_)
  simp only [decide_eq_true_eq]
  exact and_comm

theorem stiffErr_comm (m : Mesh) (hP : ∀ r s, P r s = P s r) (E0 M0 E M : ℝ) (p q : ℕ) : stiffErr m P E0 M0 E M p q = stiffErr m P E0 M0 E M q p := by
  unfold stiffErr
  dsimp only
  rw [hP, contributions_comm, shearCount_comm]

/-- C158: the computed matrix is symmetric up to twice the error -/
theorem C158_symmetric (hr : Reachable m) (hg : GoodPlate m pn) (hme : method = "cell-based" ∨ method = "cell-based-no-smoothing")
    (h : StiffWithin f m pn method al fa P E0 M0 E M) (hP : ∀ r s, P r s = P s r) {F : FMat} (hF : FmtAssembled f m pn method al fa F) {p q : ℕ} (hp : p < F.dim) (hq : q < F.dim) :
    |(numbers F).get p q - (numbers F).get q p| ≤ 2 * stiffErr m P E0 M0 E M p q := by
  obtain ⟨K, hK, _, hd, _, hE⟩ := C158_entries hr h hF
  have h1 := hE p hp q hq
  have h2 := hE q hq p hp
  rw [C78_symmetric hr hg ⟨hme, hK⟩ q (hd ▸ hq) p (hd ▸ hp), stiffErr_comm m hP] at h2
  have := abs_sub_le ((numbers F).get p q) (K.get p q) ((numbers F).get q p)
  rw [abs_sub_comm (K.get p q)] at this
  linarith

/-- C158: a rigid motion of the plate, with the deflection that belongs to its rotations, causes forces no larger than the errors times the displacements -/
theorem C158_rigid (hr : Reachable m) (hg : GoodPlate m pn) (hme : method = "cell-based" ∨ method = "cell-based-no-smoothing")
    (h : StiffWithin f m pn method al fa P E0 M0 E M) {F : FMat} (hF : FmtAssembled f m pn method al fa F) {z : ℕ → ℝ} {x0 y0 w p q s : ℝ}
    (hu : ∀ i ∈ m.nids, disp m z 0 i = x0 - w * ny m i) (hv : ∀ i ∈ m.nids, disp m z 1 i = y0 + w * nx m i)
    (hw : ∀ i ∈ m.nids, disp m z 2 i = s - rotFactor method * (p * nx m i + q * ny m i)) (hx : ∀ i ∈ m.nids, disp m z 3 i = p) (hy : ∀ i ∈ m.nids, disp m z 4 i = q)
    {i : ℕ} (hi : i < F.dim) : |∑ j ∈ range F.dim, (numbers F).get i j * z j| ≤ ∑ j ∈ range F.dim, stiffErr m P E0 M0 E M i j * |z j| := by
  obtain ⟨K, hK, _, hd, _, hE⟩ := C158_entries hr h hF
  have h0 := stiffness_rigid hr hg ⟨hme, hK⟩ hu hv hw hx hy (single i)
  rw [hd, form_row _ hi] at h0
  exact err_row hE hi h0

/-- C158: the energy computed with the matrix differs from the exact energy of membrane, bending and transverse shear by the errors times the displacements -/
theorem C158_energy (hr : Reachable m) (hg : GoodPlate m pn) (hme : method = "cell-based" ∨ method = "cell-based-no-smoothing")
    (h : StiffWithin f m pn method al fa P E0 M0 E M) {F : FMat} (hF : FmtAssembled f m pn method al fa F) (v u : ℕ → ℝ) :
    |form F.dim (numbers F).get v u - (energy m pn v u + shearEnergy m pn al fa (methodGamma m method) v u)| ≤
      ∑ i ∈ range F.dim, ∑ j ∈ range F.dim, stiffErr m P E0 M0 E M i j * (|v i| * |u j|) := by
  obtain ⟨K, hK, _, hd, _, hE⟩ := C158_entries hr h hF
  rw [← (stiffness_split hr hg ⟨hme, hK⟩).2.2 v u, hd]
  exact err_form hE v u

/-- C158: the computed matrix is at worst negative by the row sums of the errors -/
theorem C158_psd (hr : Reachable m) (hg : GoodPlate m pn) (hme : method = "cell-based" ∨ method = "cell-based-no-smoothing") (ha : 0 ≤ al)
    (h : StiffWithin f m pn method al fa P E0 M0 E M) (hP : ∀ r s, P r s = P s r) {F : FMat} (hF : FmtAssembled f m pn method al fa F) (z : ℕ → ℝ) :
    -∑ i ∈ range F.dim, (∑ j ∈ range F.dim, stiffErr m P E0 M0 E M i j) * z i ^ 2 ≤ form F.dim (numbers F).get z z := by
  obtain ⟨K, hK, _, hd, _, hE⟩ := C158_entries hr h hF
  have h0 := (modes_total hr hg ha ⟨hme, hK⟩ (d := z)).1
  rw [hd] at h0
  have h1 := (abs_le.1 (err_form hE z z)).1
  have h2 := err_sq hE (stiffErr_comm m hP E0 M0 E M) z
  linarith

/-- the square of two triangles in double precision, with either method -/
theorem exSq_stiffWithin (pn fa : Bool) : StiffWithin Fmt.binary64 exSq pn "cell-based-no-smoothing" (1 / 10) fa (fun _ _ => 1) 470000000 6144 40000 8 :=
  C156_stiffness_error_8 C153_binary64 (exMesh_reachable exIso exIso exIso exIso exIso exIso) (exMesh_proper ..)
    (exMesh_planar ..) (exMesh_props _ _ _ _ _ _ pn) (by rw [exMesh_nids]; simp) medium_one medium_one medium_one medium_one (exSq_upTo pn) (exSq_shearsUpTo pn)
    (Or.inr medium_tenth) fa (by rw [exMesh_ekeys]; norm_num) (by rw [exMesh_eids]; norm_num) (fun r _ q _ => exSq_units (r := r) (q := q))
    (exSq_fits (by norm_num) (by norm_num)) (exSq_sized (by norm_num))

/-- C158: the computed matrix of the square: the translation along x causes forces below the errors of the five entries in each row -/
example (pn fa : Bool) : ∃ F, FmtAssembled Fmt.binary64 exSq pn "cell-based-no-smoothing" (1 / 10) fa F ∧ ∀ i < F.dim,
    |∑ j ∈ range F.dim, (numbers F).get i j * (if j % 5 = 0 then 1 else 0)| ≤
      ∑ j ∈ range F.dim, stiffErr exSq (fun _ _ => 1) 470000000 6144 40000 8 i j * |(if j % 5 = 0 then 1 else 0)| := by
  have h := exSq_stiffWithin pn fa
  obtain ⟨_, F, _, hF, _⟩ := id h
  refine ⟨F, hF, fun i hi => ?_⟩
  have hd : ∀ r < 5, ∀ i, disp exSq (fun j => if j % 5 = 0 then 1 else 0) r i = if r = 0 then 1 else 0 := by
    intro r hr i
    have : (5 * exSq.nids.idxOf i + r) % 5 = r := by omega
    simp [disp, this]
  refine C158_rigid (exMesh_reachable exIso exIso exIso exIso exIso exIso) (exSq_good pn) (Or.inr rfl) h hF (z := fun j => if j % 5 = 0 then 1 else 0)
    (x0 := 1) (y0 := 0) (w := 0) (p := 0) (q := 0) (s := 0) ?_ ?_ ?_ ?_ ?_ hi <;> intro i _ <;> rw [hd _ (by norm_num)] <;> simp

end Meshless
