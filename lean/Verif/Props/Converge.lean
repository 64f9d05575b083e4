import Verif.Lemmas.ConvergeShear
import Verif.Lemmas.Korn
import Verif.Props.Limit
import Mathlib.Algebra.Order.Chebyshev

/-! C132: static solutions converge to the first-order shear deformation theory, at the rate of the size of the triangles. -/

set_option autoImplicit false

namespace Meshless
open Spec Finset MeasureTheory Filter

section
variable {m : Mesh}

theorem abs_sum_sq {n : ℕ} (x : Fin n → ℝ) : (∑ p, |x p|) ^ 2 ≤ n * ∑ p, x p ^ 2 := by
  have := sq_sum_le_card_mul_sum_sq (s := (univ : Finset (Fin n))) (f := fun p => |x p|)
  simpa using this

theorem testAbs_sq (method : String) (e : ℕ) (v : ℕ → ℝ) : testAbs m method e v ^ 2 ≤
    24 * (∑ p, triEps m e v p ^ 2 + ∑ r, methodGamma m method e v r ^ 2 + (∑ j, rotGrad m e v j ^ 2 + ∑ r, rotSum m e v r ^ 2)) := by
  have h1 := abs_sum_sq (triEps m e v)
  have h2 := abs_sum_sq (methodGamma m method e v)
  have h3 := abs_sum_sq (rotGrad m e v)
  have h4 := abs_sum_sq (rotSum m e v)
  have n2 : 0 ≤ ∑ r, methodGamma m method e v r ^ 2 := Finset.sum_nonneg fun _ _ => sq_nonneg _
  have n3 : 0 ≤ ∑ j, rotGrad m e v j ^ 2 := Finset.sum_nonneg fun _ _ => sq_nonneg _
  have n4 : 0 ≤ ∑ r, rotSum m e v r ^ 2 := Finset.sum_nonneg fun _ _ => sq_nonneg _
  have q : ∀ a b c d : ℝ, (a + b + c + d) ^ 2 ≤ 4 * (a ^ 2 + b ^ 2 + c ^ 2 + d ^ 2) := fun a b c d => by
    nlinarith [sq_nonneg (a - b), sq_nonneg (a - c), sq_nonneg (a - d), sq_nonneg (b - c), sq_nonneg (b - d), sq_nonneg (c - d)]
  have := q (triAbs m e v) (gammaAbs m method e v) (rotAbs m e v) (rotSumAbs m e v)
  unfold testAbs
  push_cast at h1 h2 h3 h4
  change triAbs m e v ^ 2 ≤ _ at h1
  change gammaAbs m method e v ^ 2 ≤ _ at h2
  change rotAbs m e v ^ 2 ≤ _ at h3
  change rotSumAbs m e v ^ 2 ≤ _ at h4
  linarith

/-- squared size of the shear strains -/
noncomputable def gammaSize (m : Mesh) (method : String) (v : ℕ → ℝ) : ℝ := (m.eids.map fun e => triArea m e * ∑ r, methodGamma m method e v r ^ 2).sum

theorem test_young (method : String) (v : ℕ → ℝ) {Q ρ : ℝ} (hQ : 0 < Q) :
    ρ * (m.eids.map fun e => triArea m e * testAbs m method e v).sum ≤ (strainSize m v + gammaSize m method v + rotSize m v) / (2 * Q) + 12 * Q * ρ ^ 2 * totalArea m := by
  have e1 : (strainSize m v + gammaSize m method v + rotSize m v) / (2 * Q) + 12 * Q * ρ ^ 2 * totalArea m = (m.eids.map fun e => triArea m e *
      ((∑ p, triEps m e v p ^ 2 + ∑ r, methodGamma m method e v r ^ 2 + (∑ j, rotGrad m e v j ^ 2 + ∑ r, rotSum m e v r ^ 2)) / (2 * Q) + 12 * Q * ρ ^ 2)).sum := by
    unfold strainSize gammaSize rotSize totalArea
    generalize m.eids = es
    induction es with
    | nil => simp
    | cons a es ih =>
      simp only [List.map_cons, List.sum_cons] at ih ⊢
      rw [← ih]
      field_simp
      ring
  rw [e1, ← List.sum_map_mul_left]
  refine List.sum_le_sum fun e _ => ?_
  have h1 := testAbs_sq (m := m) method e v
  set T := testAbs m method e v
  set X := ∑ p, triEps m e v p ^ 2 + ∑ r, methodGamma m method e v r ^ 2 + (∑ j, rotGrad m e v j ^ 2 + ∑ r, rotSum m e v r ^ 2)
  have h2 : ρ * T ≤ X / (2 * Q) + 12 * Q * ρ ^ 2 := by
    rw [div_add' _ _ _ (by positivity), le_div_iff₀ (by positivity)]
    nlinarith [sq_nonneg (T - 24 * Q * ρ)]
  have := mul_le_mul_of_nonneg_left h2 (show 0 ≤ triArea m e from abs_nonneg _)
  linarith

theorem cavg_least (w : WF m) {pn : Bool} (hh : HasProps m pn) {e : ℕ} (he : e ∈ m.eids) {sel : Lam → ℝ} {g : ℝ} (hs : ∀ l, InUse m pn l → g ≤ sel l) : g ≤ cavg m pn e sel := by
  unfold HasProps at hh
  unfold cavg
  cases pn with
  | false =>
    simp only [Bool.false_eq_true, if_false] at hh ⊢
    obtain ⟨l, hl⟩ := Option.isSome_iff_exists.1 (hh e he)
    rw [hl]
    exact hs l (by unfold InUse; simp only [Bool.false_eq_true, if_false]; exact ⟨e, he, hl⟩)
  | true =>
    simp only [if_true] at hh ⊢
    have op : ∀ i, IsCorner m e i → g ≤ ofProp sel (m.node i).prop := by
      intro i hi
      obtain ⟨l, hl⟩ := Option.isSome_iff_exists.1 (hh e he i hi)
      rw [hl]
      exact hs l (by unfold InUse; simp only [if_true]; exact ⟨i, w.corner_mem he ((isCorner_mem m e i).1 hi), hl⟩)
    have h1 := op _ (Or.inl rfl)
    have h2 := op _ (Or.inr (Or.inl rfl))
    have h3 := op _ (Or.inr (Or.inr rfl))
    rw [mean_corners']
    linarith

theorem shearMod_least (w : WF m) {pn : Bool} (hh : HasProps m pn) {g tau al H : ℝ} (hg : 0 ≤ g) (htau : 0 < tau) (hal : 0 ≤ al) (hl : ∀ l, InUse m pn l → ShearAtLeast g l)
    {l : ℝ × ℝ → Lam} (ha : Assigned m pn fun _ => l) (ht : ThickAtLeast m (fun _ => l) tau) (hH : Size m H) (fa : Bool) {e : ℕ} (he : e ∈ m.eids) (r : Fin 2) :
    tau ^ 2 / (tau ^ 2 + al * H ^ 2) * g ^ 2 ≤ shearMod m pn al fa e r := by
  have hk := cavg_thick ha he ht
  have hc0 : 0 ≤ charLen m fa e := by
    cases fa with
    | false => exact charLen_nonneg m e
    | true => unfold charLen; rw [if_pos rfl]; exact Real.sqrt_nonneg _
  have hch : charLen m fa e ≤ H := (charLen_le fa).trans (hH e he)
  unfold shearMod
  dsimp only
  set k := cavg m pn e fun l => l.h
  set c := charLen m fa e
  have f : tau ^ 2 / (tau ^ 2 + al * H ^ 2) ≤ k ^ 2 / (k ^ 2 + al * c ^ 2) := by
    have hk0 : 0 < k := htau.trans_le hk
    have h1 : c ^ 2 ≤ H ^ 2 := pow_le_pow_left₀ hc0 hch 2
    have h2 : tau ^ 2 ≤ k ^ 2 := pow_le_pow_left₀ htau.le hk 2
    rw [div_le_div_iff₀ (by positivity) (by positivity)]
    have h3 := mul_le_mul h2 h1 (sq_nonneg c) (sq_nonneg k)
    have h4 := mul_le_mul_of_nonneg_left h3 hal
    nlinarith
  have p : ∀ a b : ℝ, g ≤ a → g ≤ b → g ^ 2 ≤ a * b := fun a b h1 h2 => by rw [pow_two]; exact mul_le_mul h1 h2 hg (hg.trans h1)
  have n := fun (sel : Lam → ℝ) (hs : ∀ l, InUse m pn l → g ≤ sel l) => cavg_least w hh he hs
  refine mul_le_mul f ?_ (sq_nonneg g) (by positivity)
  split_ifs
  · exact p _ _ (n _ fun l h => (hl l h).2.1) (n _ fun l h => (hl l h).2.2.1)
  · exact p _ _ (n _ fun l h => (hl l h).1) (n _ fun l h => (hl l h).2.2.2)

theorem gammaSize_le {pn : Bool} {al b : ℝ} {fa : Bool} (hb : ∀ e ∈ m.eids, ∀ r, b ≤ shearMod m pn al fa e r) (method : String) (v : ℕ → ℝ) :
    b * gammaSize m method v ≤ shearEnergy m pn al fa (methodGamma m method) v v := by
  unfold gammaSize shearEnergy
  rw [← List.sum_map_mul_left]
  refine List.sum_le_sum fun e he => ?_
  have h0 := mul_le_mul_of_nonneg_right (hb e he 0) (sq_nonneg (methodGamma m method e v 0))
  have h1 := mul_le_mul_of_nonneg_right (hb e he 1) (sq_nonneg (methodGamma m method e v 1))
  rw [Fin.sum_univ_two]
  have := mul_le_mul_of_nonneg_left (add_le_add h0 h1) (show 0 ≤ triArea m e from abs_nonneg _)
  linarith

theorem size_of_pos {v : ℕ → ℝ} : 0 ≤ strainSize m v ∧ (∀ method, 0 ≤ gammaSize m method v) ∧ 0 ≤ rotSize m v := by
  refine ⟨?_, fun method => ?_, ?_⟩
  · refine List.sum_nonneg fun y hy => ?_
    obtain ⟨e, _, rfl⟩ := List.mem_map.1 hy
    exact mul_nonneg (abs_nonneg _) (Finset.sum_nonneg fun _ _ => sq_nonneg _)
  · refine List.sum_nonneg fun y hy => ?_
    obtain ⟨e, _, rfl⟩ := List.mem_map.1 hy
    exact mul_nonneg (abs_nonneg _) (Finset.sum_nonneg fun _ _ => sq_nonneg _)
  · refine List.sum_nonneg fun y hy => ?_
    obtain ⟨e, _, rfl⟩ := List.mem_map.1 hy
    exact mul_nonneg (abs_nonneg _) (add_nonneg (Finset.sum_nonneg fun _ _ => sq_nonneg _) (Finset.sum_nonneg fun _ _ => sq_nonneg _))

theorem stiffness_split (hr : Reachable m) {pn : Bool} (hg : GoodPlate m pn) {method : String} {al : ℝ} {fa : Bool} {K : Mat} (hK : Stiffness m pn method al fa K) :
    K.dim = 5 * m.nids.length ∧ HasProps m pn ∧ ∀ v u, form K.dim K.get v u = energy m pn v u + shearEnergy m pn al fa (methodGamma m method) v u := by
  obtain ⟨hd, K0, hK0, hd0, h⟩ := stiffness_energy hr hg hK
  obtain ⟨ss, _, hh, _⟩ := calcK0_ok hr.wf hK0
  refine ⟨hd, hh, fun v u => ?_⟩
  rw [h, C18_energy hr hg.proper hg.planar hK0, ss.sshear, ss.scell, ss.swhole]
  rfl

theorem form_sub_left (n : ℕ) (K : ℕ → ℕ → ℝ) (v v' u : ℕ → ℝ) : form n K (fun i => v i - v' i) u = form n K v u - form n K v' u := by
  unfold form
  rw [← sum_sub_distrib]
  refine sum_congr rfl fun i _ => ?_
  rw [← sum_sub_distrib]
  exact sum_congr rfl fun j _ => by ring

theorem form_sub_right (n : ℕ) (K : ℕ → ℕ → ℝ) (v u u' : ℕ → ℝ) : form n K v (fun i => u i - u' i) = form n K v u - form n K v u' := by
  unfold form
  rw [← sum_sub_distrib]
  refine sum_congr rfl fun i _ => ?_
  rw [← sum_sub_distrib]
  exact sum_congr rfl fun j _ => by ring

theorem form_comm {n : ℕ} {K : ℕ → ℕ → ℝ} (h : ∀ i < n, ∀ j < n, K i j = K j i) (v u : ℕ → ℝ) : form n K v u = form n K u v := by
  unfold form
  rw [sum_comm]
  refine sum_congr rfl fun i hi => sum_congr rfl fun j hj => ?_
  rw [h j (mem_range.1 hj) i (mem_range.1 hi)]; ring

/-- the energy of the difference of the solution and the nodal values of the field -/
theorem error_bound (hr : Reachable m) {pn : Bool} {l : ℝ × ℝ → Lam} {s L0 L1 c g tau : ℝ} (hL1 : 0 ≤ L1) (hc : 0 < c) (hg0 : 0 < g) (htau : 0 < tau) (hs : SmoothPlate m pn l s L0 L1 c g tau)
    {h H : ℝ} (hh : Size m h) (hH : Size m H) {al : ℝ} (hal : 0 ≤ al) {fa : Bool} {method : String} {K : Mat} (hK : Stiffness m pn method al fa K) {Sp : Set ℕ} {κ : ℝ} (hκ : 0 ≤ κ) (hrot : RotHeld m Sp κ)
    {F Fx Fy : ℕ → ℝ × ℝ → ℝ} {S M : ℝ} (hM : 0 ≤ M) (hF : SmoothField m F Fx Fy S M) {z f d : ℕ → ℝ} (hz : Nodal m F z) (hzS : Supported K.dim Sp z) (hf : Balanced m l F Fx Fy Sp f) (hd : StaticSol K Sp f d)
    {a : ℝ} (hab : a = if method = "cell-based" then sixthErr else 0)
    {ρ : ℝ} (h1 : 6 * (L0 * (2 * ((2 * s + 1) * M * h)) + 2 * S * (2 * L1 * h)) + 6 * (L0 * (2 * (M * h)) + 2 * S * (L1 * h)) ≤ ρ)
    (h2 : L0 ^ 2 * (12 * (M + S) * s * h + 3 * a * S) + 2 * S * (al * h ^ 2 / tau ^ 2 * L0 ^ 2 + 2 * L0 * (L1 * h)) ≤ ρ) (h3 : 4 * S * L0 ^ 2 * (3 * s * h + a) ≤ ρ)
    {Q : ℝ} (hQ : Q = (1 + κ) * (81 * s ^ 4 / c) + (tau ^ 2 + al * H ^ 2) / (tau ^ 2 * g ^ 2)) :
    form K.dim K.get (fun i => d i - z i) (fun i => d i - z i) ≤ 24 * Q * ρ ^ 2 * totalArea m ∧
      strainSize m (fun i => d i - z i) + gammaSize m method (fun i => d i - z i) + rotSize m (fun i => d i - z i) ≤ Q * form K.dim K.get (fun i => d i - z i) (fun i => d i - z i) := by
  have w := hr.wf
  have hg := hs.good
  obtain ⟨hdim, hhp, hform⟩ := stiffness_split hr hg hK
  set e : ℕ → ℝ := fun i => d i - z i with he
  have heS : Supported K.dim Sp e := fun i hi hS => by rw [he]; dsimp only; rw [hd.1 i hi hS, hzS i hi hS, sub_zero]
  have heS' : ∀ i < 5 * m.nids.length, i ∈ Sp → e i = 0 := fun i hi hS => heS i (hdim ▸ hi) hS
  have hQ0 : 0 < Q := by
    have : 0 ≤ s ^ 4 := by positivity
    rw [hQ]; positivity
  have f1 : form K.dim K.get e e = ∑ i ∈ range K.dim, f i * e i - form K.dim K.get z e := by
    conv_lhs => rw [he, form_sub_right]
    rw [form_load hd heS, form_comm (C78_symmetric hr hg hK) e z]
  have f2 := hf e heS'
  rw [← hdim] at f2
  have f3 := energy_shear_test w hg.proper hg.planar hs.shape hh hL1 hs.lam hs.assigned hM hF hz htau hs.thick hal fa method e hab h1 h2 h3
  rw [← hform, ← f2] at f3
  have f4 := test_young (m := m) method e (ρ := ρ) hQ0
  have hpos := fun e he r => (shearMod_pos w hhp hg.shear hal fa (e := e) he r).le
  have s1 := strainSize_energy w hg.proper hg.planar hhp hc.le hs.stiff hs.shape e
  have s2 := gammaSize_le (fun t ht r => shearMod_least w hhp hg0.le htau hal hs.shear hs.assigned hs.thick hH fa ht r) method e
  have s3 := hrot e heS'
  obtain ⟨p1, p2, p3⟩ := size_of_pos (m := m) (v := e)
  have p2 := p2 method
  have s4 : strainSize m e ≤ 81 * s ^ 4 / c * energy m pn e e := by
    rw [div_mul_eq_mul_div, le_div_iff₀ hc]; linarith
  have s5 : gammaSize m method e ≤ (tau ^ 2 + al * H ^ 2) / (tau ^ 2 * g ^ 2) * shearEnergy m pn al fa (methodGamma m method) e e := by
    have hb : 0 < tau ^ 2 / (tau ^ 2 + al * H ^ 2) * g ^ 2 := by positivity
    have : gammaSize m method e ≤ shearEnergy m pn al fa (methodGamma m method) e e / (tau ^ 2 / (tau ^ 2 + al * H ^ 2) * g ^ 2) := by
      rw [le_div_iff₀ hb]; linarith
    refine this.trans (le_of_eq ?_)
    field_simp
  have en : 0 ≤ energy m pn e e := (energy_zero_eps w hg.proper hg.planar hhp hg.abd).1
  have sn : 0 ≤ shearEnergy m pn al fa (methodGamma m method) e e := by
    have hb : 0 ≤ tau ^ 2 / (tau ^ 2 + al * H ^ 2) * g ^ 2 := by positivity
    exact (mul_nonneg hb p2).trans s2
  have hsq : 0 ≤ 81 * s ^ 4 / c := by
    have : 0 ≤ s ^ 4 := by positivity
    positivity
  have hsg : 0 ≤ (tau ^ 2 + al * H ^ 2) / (tau ^ 2 * g ^ 2) := by positivity
  have tot : strainSize m e + gammaSize m method e + rotSize m e ≤ Q * form K.dim K.get e e := by
    rw [hform, hQ]
    have t1 := mul_le_mul_of_nonneg_left s4 (by linarith : 0 ≤ 1 + κ)
    have t2 : 0 ≤ (1 + κ) * (81 * s ^ 4 / c) * shearEnergy m pn al fa (methodGamma m method) e e := by positivity
    have t3 : 0 ≤ (tau ^ 2 + al * H ^ 2) / (tau ^ 2 * g ^ 2) * energy m pn e e := by positivity
    linarith
  refine ⟨?_, tot⟩
  have t1 : (strainSize m e + gammaSize m method e + rotSize m e) / (2 * Q) ≤ form K.dim K.get e e / 2 := by
    rw [div_le_div_iff₀ (by positivity) (by positivity)]
    linarith
  rw [abs_le] at f3
  linarith [f3.1, f3.2]

end

/-- A static problem and its solution: `K` is the stiffness matrix of the mesh, `z` has the values of the field `F` at the nodes and is compatible with the
supports `Sp`, the loads `f` are in balance with `F`, `d` are the displacements computed. -/
structure Spec.StaticProblem (m : Mesh) (pn : Bool) (l : ℝ × ℝ → Lam) (method : String) (al : ℝ) (fa : Bool) (Sp : Set ℕ) (F Fx Fy : ℕ → ℝ × ℝ → ℝ) (K : Mat) (z f d : ℕ → ℝ) : Prop where
  stiff : Stiffness m pn method al fa K
  nodal : Nodal m F z
  supp : Supported K.dim Sp z
  load : Balanced m l F Fx Fy Sp f
  sol : StaticSol K Sp f d

/-- error of the literal `0.166666666666667`, which the default method uses -/
noncomputable def Spec.litErr (method : String) : ℝ := if method = "cell-based" then sixthErr else 0

theorem litErr_nonneg (method : String) : 0 ≤ litErr method ∧ litErr method ≤ 1 := by
  unfold litErr
  have := sixthErr_eq
  split_ifs
  · exact ⟨this.1.le, by rw [this.2]; norm_num⟩
  · norm_num

/-- C132: The energy of the difference between the displacements computed and the nodal values of the solution `F` of the plate theory is at most a
constant times the square of the size of the triangles (for the default method of the size plus `1/(3·10^15)`, the error of a literal). So are the squared
strains, shear strains, rotations and derivatives of rotations of the difference. The constant depends on bounds for the plate and the field, not on the mesh. -/
theorem C132_rate {s L0 L1 c g tau H al κ A S M : ℝ} (hs0 : 0 ≤ s) (hL0 : 0 ≤ L0) (hL1 : 0 ≤ L1) (hc : 0 < c) (hg0 : 0 < g) (htau : 0 < tau) (hal : 0 ≤ al) (hκ : 0 ≤ κ) (hS : 0 ≤ S) (hM : 0 ≤ M) :
    ∃ C : ℝ, 0 ≤ C ∧ ∀ (m : Mesh) (pn : Bool) (l : ℝ × ℝ → Lam), Reachable m → SmoothPlate m pn l s L0 L1 c g tau → totalArea m ≤ A → ∀ h, 0 ≤ h → h ≤ H → Size m h →
      ∀ (method : String) (fa : Bool) (Sp : Set ℕ) (F Fx Fy : ℕ → ℝ × ℝ → ℝ) (K : Mat) (z f d : ℕ → ℝ), RotHeld m Sp κ → SmoothField m F Fx Fy S M →
      StaticProblem m pn l method al fa Sp F Fx Fy K z f d →
      form K.dim K.get (fun i => d i - z i) (fun i => d i - z i) ≤ C * (h + litErr method) ^ 2 ∧
      strainSize m (fun i => d i - z i) + gammaSize m method (fun i => d i - z i) + rotSize m (fun i => d i - z i) ≤ C * (h + litErr method) ^ 2 := by
  obtain ⟨Q, hQ⟩ : ∃ Q, Q = (1 + κ) * (81 * s ^ 4 / c) + (tau ^ 2 + al * H ^ 2) / (tau ^ 2 * g ^ 2) := ⟨_, rfl⟩
  obtain ⟨B1, hB1⟩ : ∃ B, B = 12 * L0 * (2 * s + 1) * M + 24 * S * L1 + 12 * L0 * M + 12 * S * L1 := ⟨_, rfl⟩
  obtain ⟨B2, hB2⟩ : ∃ B, B = 12 * L0 ^ 2 * (M + S) * s + 2 * S * al * H / tau ^ 2 * L0 ^ 2 + 4 * S * L0 * L1 := ⟨_, rfl⟩
  obtain ⟨B3, hB3⟩ : ∃ B, B = 12 * S * L0 ^ 2 * s + 4 * S * L0 ^ 2 := ⟨_, rfl⟩
  obtain ⟨B, hB⟩ : ∃ B, B = B1 + B2 + B3 := ⟨_, rfl⟩
  have hQ0 : 0 ≤ Q := by rw [hQ]; positivity
  refine ⟨(1 + Q) * (24 * Q * B ^ 2 * |A|), by positivity, fun m pn l hr hsp hA h h0 hhH hh method fa Sp F Fx Fy K z f d hrot hF ⟨hK, hz, hzS, hf, hd⟩ => ?_⟩
  have hA := hA.trans (le_abs_self A)
  generalize |A| = A at *
  obtain ⟨a, ha⟩ : ∃ a : ℝ, a = litErr method := ⟨_, rfl⟩
  rw [← ha]
  have ha0 : 0 ≤ a := by rw [ha]; exact (litErr_nonneg method).1
  have hH0 : 0 ≤ H := h0.trans hhH
  have hh2 : h ^ 2 ≤ H * h := by rw [pow_two]; exact mul_le_mul_of_nonneg_right hhH h0
  have b1 : 0 ≤ B1 := by rw [hB1]; positivity
  have b2 : 0 ≤ B2 := by rw [hB2]; positivity
  have b3 : 0 ≤ B3 := by rw [hB3]; positivity
  have e1 := mul_nonneg b1 h0
  have e2 := mul_nonneg b1 ha0
  have e3 := mul_nonneg b2 h0
  have e4 := mul_nonneg b2 ha0
  have e5 := mul_nonneg b3 h0
  have e6 := mul_nonneg b3 ha0
  have hBe : B * (h + a) = B1 * h + B1 * a + B2 * h + B2 * a + B3 * h + B3 * a := by rw [hB]; ring
  have t1 : 0 ≤ S * L0 ^ 2 * a := by positivity
  have t2 : 0 ≤ S * L0 ^ 2 * s * a := by positivity
  have t3 : 0 ≤ S * L0 ^ 2 * h := by positivity
  have hB3a : B3 * a = 12 * (S * L0 ^ 2 * s * a) + 4 * (S * L0 ^ 2 * a) := by rw [hB3]; ring
  have q1 : 6 * (L0 * (2 * ((2 * s + 1) * M * h)) + 2 * S * (2 * L1 * h)) + 6 * (L0 * (2 * (M * h)) + 2 * S * (L1 * h)) ≤ B * (h + a) := by
    have : B1 * h = 6 * (L0 * (2 * ((2 * s + 1) * M * h)) + 2 * S * (2 * L1 * h)) + 6 * (L0 * (2 * (M * h)) + 2 * S * (L1 * h)) := by rw [hB1]; ring
    linarith
  have q2 : L0 ^ 2 * (12 * (M + S) * s * h + 3 * a * S) + 2 * S * (al * h ^ 2 / tau ^ 2 * L0 ^ 2 + 2 * L0 * (L1 * h)) ≤ B * (h + a) := by
    have h5 : 2 * S * al / tau ^ 2 * L0 ^ 2 * h ^ 2 ≤ 2 * S * al / tau ^ 2 * L0 ^ 2 * (H * h) := mul_le_mul_of_nonneg_left hh2 (by positivity)
    have h6 : B2 * h = 12 * L0 ^ 2 * (M + S) * s * h + 2 * S * al / tau ^ 2 * L0 ^ 2 * (H * h) + 4 * S * L0 * L1 * h := by rw [hB2]; ring
    have h7 : L0 ^ 2 * (12 * (M + S) * s * h + 3 * a * S) + 2 * S * (al * h ^ 2 / tau ^ 2 * L0 ^ 2 + 2 * L0 * (L1 * h)) =
      12 * L0 ^ 2 * (M + S) * s * h + 3 * (S * L0 ^ 2 * a) + 2 * S * al / tau ^ 2 * L0 ^ 2 * h ^ 2 + 4 * S * L0 * L1 * h := by ring
    rw [h7]
    linarith
  have q3 : 4 * S * L0 ^ 2 * (3 * s * h + a) ≤ B * (h + a) := by
    have h6 : B3 * h = 12 * S * L0 ^ 2 * s * h + 4 * (S * L0 ^ 2 * h) := by rw [hB3]; ring
    have h7 : 4 * S * L0 ^ 2 * (3 * s * h + a) = 12 * S * L0 ^ 2 * s * h + 4 * (S * L0 ^ 2 * a) := by ring
    rw [h7]
    linarith
  obtain ⟨r1, r2⟩ := error_bound hr hL1 hc hg0 htau hsp hh (fun e he => (hh e he).trans hhH) hal hK hκ hrot hM hF hz hzS hf hd ha q1 q2 q3 hQ
  have ht : 0 ≤ totalArea m := List.sum_nonneg fun y hy => by obtain ⟨e, _, rfl⟩ := List.mem_map.1 hy; exact abs_nonneg _
  have r3 : 24 * Q * (B * (h + a)) ^ 2 * totalArea m ≤ 24 * Q * B ^ 2 * A * (h + a) ^ 2 := by
    have := mul_le_mul_of_nonneg_left hA (by positivity : 0 ≤ 24 * Q * (B * (h + a)) ^ 2)
    linarith
  have hA0 := ht.trans hA
  have r4 : 0 ≤ 24 * Q * B ^ 2 * A * (h + a) ^ 2 := by positivity
  have r5 : 0 ≤ Q * (24 * Q * B ^ 2 * A * (h + a) ^ 2) := by positivity
  have r6 := mul_le_mul_of_nonneg_left (r1.trans r3) hQ0
  constructor <;> linarith

section
variable {m : Mesh}

theorem triEps_sub (e : ℕ) (v u : ℕ → ℝ) (p : Fin 6) : triEps m e (fun i => v i - u i) p = triEps m e v p - triEps m e u p := by
  have hX : ∀ r, gradX m (tpoly m e) (disp m (fun i => v i - u i) r) = gradX m (tpoly m e) (disp m v r) - gradX m (tpoly m e) (disp m u r) := fun r => by
    simp only [gradX, circDy, tpoly, sides, List.rotate, List.zip, mean]
    simp [disp]
    ring
  have hY : ∀ r, gradY m (tpoly m e) (disp m (fun i => v i - u i) r) = gradY m (tpoly m e) (disp m v r) - gradY m (tpoly m e) (disp m u r) := fun r => by
    simp only [gradY, circDx, tpoly, sides, List.rotate, List.zip, mean]
    simp [disp]
    ring
  fin_cases p <;> simp [triEps, hX, hY] <;> ring

theorem triEps_near (w : WF m) (hp : Proper m) (hg : Planar m) {s h : ℝ} (hs : Shape m s) (hh : Size m h) {F Fx Fy : ℕ → ℝ × ℝ → ℝ} {S M : ℝ} (hM : 0 ≤ M)
    (hF : SmoothField m F Fx Fy S M) {v : ℕ → ℝ} (hv : Nodal m F v) {t : ℕ} (ht : t ∈ m.eids) {x : ℝ × ℝ} (hx : x ∈ hull m t) (p : Fin 6) :
    |triEps m t v p - strain Fx Fy x p| ≤ 2 * ((2 * s + 1) * M * h) := by
  have e : ∀ r < 5, |gradX m (tpoly m t) (disp m v r) - Fx r x| ≤ (2 * s + 1) * M * h ∧ |gradY m (tpoly m t) (disp m v r) - Fy r x| ≤ (2 * s + 1) * M * h := by
    intro r hr
    have c1 : IsCorner m t (m.tria t).n1 := Or.inl rfl
    obtain ⟨a, b⟩ := tri_error w hp hg ht (hs t ht) hM (hF.one hr t ht) (g := disp m v r) (fun i hi => hv i (corner_mem w hp.distinct ht hi) r hr) c1
    obtain ⟨c, d⟩ := (hF.one hr t ht).lip _ (pt_mem_hull c1) x hx
    have hd := mul_le_mul_of_nonneg_left ((hull_dist (pt_mem_hull c1) hx).trans (hh t ht)) hM
    have hl := mul_le_mul_of_nonneg_left (hh t ht) (mul_nonneg (mul_nonneg (by norm_num : (0:ℝ) ≤ 2) hM) (shape_nonneg hg hs ht))
    constructor
    · calc _ ≤ _ := abs_sub_le _ (Fx r (pt m (m.tria t).n1)) _
        _ ≤ _ := by linarith
    · calc _ ≤ _ := abs_sub_le _ (Fy r (pt m (m.tria t).n1)) _
        _ ≤ _ := by linarith
  have h0 := (abs_nonneg _).trans (e 0 (by norm_num)).1
  have two : ∀ a b c d η : ℝ, |a - c| ≤ η → |b - d| ≤ η → |a + b - (c + d)| ≤ 2 * η := by
    intro a b c d η h1 h2
    rw [show a + b - (c + d) = (a - c) + (b - d) by ring]
    exact (abs_add_le _ _).trans (by linarith)
  unfold strain
  fin_cases p
  · exact (e 0 (by norm_num)).1.trans (by linarith)
  · exact (e 1 (by norm_num)).2.trans (by linarith)
  · exact two _ _ _ _ _ (e 0 (by norm_num)).2 (e 1 (by norm_num)).1
  · exact (e 3 (by norm_num)).1.trans (by linarith)
  · exact (e 4 (by norm_num)).2.trans (by linarith)
  · exact two _ _ _ _ _ (e 3 (by norm_num)).2 (e 4 (by norm_num)).1

theorem strainErr_le (w : WF m) (hp : Proper m) (hg : Planar m) {s h : ℝ} (hs : Shape m s) (hh : Size m h) {F Fx Fy : ℕ → ℝ × ℝ → ℝ} {S M : ℝ} (hM : 0 ≤ M)
    (hF : SmoothField m F Fx Fy S M) {z : ℕ → ℝ} (hz : Nodal m F z) (d : ℕ → ℝ) : strainErr m Fx Fy d ≤ 2 * strainSize m (fun i => d i - z i) + 48 * ((2 * s + 1) * M * h) ^ 2 * totalArea m := by
  have e1 : 2 * strainSize m (fun i => d i - z i) + 48 * ((2 * s + 1) * M * h) ^ 2 * totalArea m =
      (m.eids.map fun e => triArea m e * (2 * ∑ p, triEps m e (fun i => d i - z i) p ^ 2 + 48 * ((2 * s + 1) * M * h) ^ 2)).sum := by
    unfold strainSize totalArea
    rw [← List.sum_map_mul_left, ← List.sum_map_mul_left, ← List.sum_map_add]
    congr 1
    exact List.map_congr_left fun e _ => by ring
  rw [e1]
  unfold strainErr
  refine List.sum_le_sum fun e he => ?_
  have hcont : ContinuousOn (fun x => ∑ p, (triEps m e d p - strain Fx Fy x p) ^ 2) (hull m e) :=
    continuousOn_finsetSum _ fun p _ => (continuousOn_const.sub (strain_cont hF he p)).pow 2
  have := integral_near hcont (c := 0) (β := 2 * ∑ p, triEps m e (fun i => d i - z i) p ^ 2 + 48 * ((2 * s + 1) * M * h) ^ 2) fun x hx => by
    rw [zero_sub, abs_neg, abs_of_nonneg (Finset.sum_nonneg fun _ _ => sq_nonneg _)]
    have : ∀ p, (triEps m e d p - strain Fx Fy x p) ^ 2 ≤ 2 * triEps m e (fun i => d i - z i) p ^ 2 + 8 * ((2 * s + 1) * M * h) ^ 2 := fun p => by
      have h1 := triEps_near w hp hg hs hh hM hF hz he hx p
      have h2 := pow_le_pow_left₀ (abs_nonneg _) h1 2
      rw [sq_abs] at h2
      rw [triEps_sub]
      nlinarith [sq_nonneg ((triEps m e d p - triEps m e z p) - (triEps m e z p - strain Fx Fy x p))]
    refine (sum_le_sum fun p _ => this p).trans (le_of_eq ?_)
    rw [sum_add_distrib, ← mul_sum]
    simp
    ring
  rw [mul_zero, zero_sub, abs_neg] at this
  exact (le_abs_self _).trans this

end

/-- C132: the strains and curvatures of the displacements computed, interpolated linearly, differ from those of the solution by at most a constant times the
size of the triangles in the mean square over the plate -/
theorem C132_strains {s L0 L1 c g tau H al κ A S M : ℝ} (hs0 : 0 ≤ s) (hL0 : 0 ≤ L0) (hL1 : 0 ≤ L1) (hc : 0 < c) (hg0 : 0 < g) (htau : 0 < tau) (hal : 0 ≤ al) (hκ : 0 ≤ κ) (hS : 0 ≤ S) (hM : 0 ≤ M) :
    ∃ C : ℝ, 0 ≤ C ∧ ∀ (m : Mesh) (pn : Bool) (l : ℝ × ℝ → Lam), Reachable m → SmoothPlate m pn l s L0 L1 c g tau → totalArea m ≤ A → ∀ h, 0 ≤ h → h ≤ H → Size m h →
      ∀ (method : String) (fa : Bool) (Sp : Set ℕ) (F Fx Fy : ℕ → ℝ × ℝ → ℝ) (K : Mat) (z f d : ℕ → ℝ), RotHeld m Sp κ → SmoothField m F Fx Fy S M →
      StaticProblem m pn l method al fa Sp F Fx Fy K z f d → strainErr m Fx Fy d ≤ C * (h + litErr method) ^ 2 := by
  obtain ⟨C, hC0, hC⟩ := C132_rate (H := H) (A := A) hs0 hL0 hL1 hc hg0 htau hal hκ hS hM
  refine ⟨2 * C + 48 * ((2 * s + 1) * M) ^ 2 * |A|, by positivity, fun m pn l hr hsp hA h h0 hhH hh method fa Sp F Fx Fy K z f d hrot hF hpr => ?_⟩
  obtain ⟨_, h1⟩ := hC m pn l hr hsp hA h h0 hhH hh method fa Sp F Fx Fy K z f d hrot hF hpr
  have h2 := strainErr_le hr.wf hsp.good.proper hsp.good.planar hsp.shape hh hM hF hpr.nodal d
  obtain ⟨_, p2, p3⟩ := size_of_pos (m := m) (v := fun i => d i - z i)
  have p2 := p2 method
  have hl := (litErr_nonneg method).1
  have h3 : h ^ 2 ≤ (h + litErr method) ^ 2 := pow_le_pow_left₀ h0 (by linarith) 2
  have hA := hA.trans (le_abs_self A)
  have ht : 0 ≤ totalArea m := List.sum_nonneg fun y hy => by obtain ⟨e, _, rfl⟩ := List.mem_map.1 hy; exact abs_nonneg _
  have h4 : 48 * ((2 * s + 1) * M * h) ^ 2 * totalArea m ≤ 48 * ((2 * s + 1) * M) ^ 2 * |A| * (h + litErr method) ^ 2 := by
    have := mul_le_mul (mul_le_mul_of_nonneg_left h3 (by positivity : 0 ≤ 48 * ((2 * s + 1) * M) ^ 2)) hA ht (by positivity)
    linarith
  linarith

section
variable {m : Mesh}

theorem Spec.Clamped.rot {Sp : Set ℕ} (h : Clamped m Sp) : RotClamped m Sp := fun k hk h1 i hi => ⟨h k hk h1 i hi 3 (by norm_num), h k hk h1 i hi 4 (by norm_num)⟩

theorem Spec.Clamped.zero (w : WF m) (hp : Proper m) {Sp : Set ℕ} (hc : Clamped m Sp) {v : ℕ → ℝ} (hv : ∀ i < 5 * m.nids.length, i ∈ Sp → v i = 0) {r : ℕ} (hr : r < 5) :
    ∀ k ∈ m.ekeys, (m.edge k).trias.length = 1 → disp m v r k.1 = 0 ∧ disp m v r k.2 = 0 := by
  intro k hk h1
  obtain ⟨t, ht⟩ : ∃ t, t ∈ (m.edge k).trias := List.exists_mem_of_ne_nil _ (by rintro h; rw [h] at h1; simp at h1)
  obtain ⟨ht, c1, c2⟩ := edge_tria w hp hk ht
  have one : ∀ i, i = k.1 ∨ i = k.2 → IsCorner m t i → disp m v r i = 0 := by
    intro i hi hci
    have hlt := List.idxOf_lt_length_iff.2 (corner_mem w hp.distinct ht hci)
    exact hv _ (by omega) (hc k hk h1 i hi r hr)
  exact ⟨one _ (Or.inl rfl) c1, one _ (Or.inr rfl) c2⟩

/-- displacements that vanish on the boundary against strains and rotations -/
theorem dispSize_le (w : WF m) (hp : Proper m) (hg : Planar m) {s h : ℝ} (hs : Shape m s) (hh : Size m h) {R : ℝ} (hR : Within m R) {Sp : Set ℕ} (hc : Clamped m Sp) (method : String) {v : ℕ → ℝ}
    (hv : ∀ i < 5 * m.nids.length, i ∈ Sp → v i = 0) : dispSize m v ≤
      48 * R ^ 2 * (6 + 24 * (3 * s * h + litErr method) ^ 2 + 144 * R ^ 2) * (strainSize m v + gammaSize m method v + rotSize m v) := by
  obtain ⟨q1, q2, q3⟩ := size_of_pos (m := m) (v := v)
  have q2 := q2 method
  set X := strainSize m v + gammaSize m method v + rotSize m v with hX
  have z := fun r (hr : r < 5) => hc.zero w hp hv hr
  set D : ℕ → ℝ := fun r => (m.eids.map fun e => triArea m e * (disp m v r (m.tria e).n1 ^ 2 + disp m v r (m.tria e).n2 ^ 2 + disp m v r (m.tria e).n3 ^ 2)).sum with hD
  set G : ℕ → ℝ := fun r => (m.eids.map fun e => triArea m e * gradX m (tpoly m e) (disp m v r) ^ 2).sum with hG
  have hsum : ∀ {a b : ℕ → ℝ}, (∀ e ∈ m.eids, a e ≤ b e) → (m.eids.map fun e => triArea m e * a e).sum ≤ (m.eids.map fun e => triArea m e * b e).sum := fun h =>
    List.sum_le_sum fun e he => mul_le_mul_of_nonneg_left (h e he) (abs_nonneg _)
  have hadd : ∀ (a b : ℕ → ℝ), (m.eids.map fun e => triArea m e * (a e + b e)).sum = (m.eids.map fun e => triArea m e * a e).sum + (m.eids.map fun e => triArea m e * b e).sum := fun a b => by
    rw [← List.sum_map_add]; congr 1; exact List.map_congr_left fun e _ => by ring
  have hmul : ∀ (t : ℝ) (a : ℕ → ℝ), (m.eids.map fun e => triArea m e * (t * a e)).sum = t * (m.eids.map fun e => triArea m e * a e).sum := fun t a => by
    rw [← List.sum_map_mul_left]; congr 1; exact List.map_congr_left fun e _ => by ring
  have hP : ∀ r < 5, D r ≤ 48 * R ^ 2 * G r := fun r hr => (hsum fun e _ => by linarith [sq_nonneg (disp m v r (m.tria e).n1 + disp m v r (m.tria e).n2 + disp m v r (m.tria e).n3)]).trans (poincare w hp hg hR (z r hr))
  have e1 : dispSize m v = D 0 + D 1 + D 2 + D 3 + D 4 := by
    unfold dispSize
    rw [hD]
    simp only
    rw [← hadd, ← hadd, ← hadd, ← hadd]
    congr 1
    exact List.map_congr_left fun e _ => by simp only [sum_range_succ, range_zero, sum_empty]; ring
  have g01 : G 0 + G 1 ≤ 2 * X := by
    have k1 := korn w hp hg (f := disp m v 0) (g := disp m v 1) (z 0 (by norm_num))
    have k2 : (m.eids.map fun e => triArea m e * (gradX m (tpoly m e) (disp m v 0) ^ 2 + gradY m (tpoly m e) (disp m v 1) ^ 2 + (gradY m (tpoly m e) (disp m v 0) + gradX m (tpoly m e) (disp m v 1)) ^ 2)).sum ≤
        strainSize m v := by
      refine hsum fun e _ => ?_
      rw [sumsq6]
      simp only [triEps, Matrix.cons_val_zero, Matrix.cons_val_one, Matrix.cons_val]
      linarith [sq_nonneg (gradX m (tpoly m e) (disp m v 3)), sq_nonneg (gradY m (tpoly m e) (disp m v 4)), sq_nonneg (gradY m (tpoly m e) (disp m v 3) + gradX m (tpoly m e) (disp m v 4))]
    have k3 : G 0 + G 1 ≤ (m.eids.map fun e => triArea m e * (gradX m (tpoly m e) (disp m v 0) ^ 2 + gradY m (tpoly m e) (disp m v 0) ^ 2 + gradX m (tpoly m e) (disp m v 1) ^ 2 + gradY m (tpoly m e) (disp m v 1) ^ 2)).sum := by
      rw [hG]
      simp only
      rw [← hadd]
      exact hsum fun e _ => by linarith [sq_nonneg (gradY m (tpoly m e) (disp m v 0)), sq_nonneg (gradY m (tpoly m e) (disp m v 1))]
    linarith
  have g34 : G 3 + G 4 ≤ X := by
    have : G 3 + G 4 ≤ rotSize m v := by
      rw [hG]
      simp only
      rw [← hadd]
      unfold rotSize
      refine hsum fun e _ => ?_
      rw [Fin.sum_univ_four, Fin.sum_univ_two]
      simp only [rotGrad, Matrix.cons_val_zero, Matrix.cons_val_one, Matrix.cons_val]
      linarith [sq_nonneg (gradY m (tpoly m e) (disp m v 3)), sq_nonneg (gradY m (tpoly m e) (disp m v 4)), sq_nonneg (rotSum m e v 0), sq_nonneg (rotSum m e v 1)]
    linarith
  have hG0 : ∀ r, 0 ≤ G r := fun r => List.sum_nonneg fun y hy => by
    obtain ⟨e, _, rfl⟩ := List.mem_map.1 hy
    exact mul_nonneg (abs_nonneg _) (sq_nonneg _)
  set η := 3 * s * h + litErr method with hη
  have g2 : G 2 ≤ 3 * gammaSize m method v + 24 * η ^ 2 * rotSize m v + 3 * D 3 := by
    have : ∀ e ∈ m.eids, gradX m (tpoly m e) (disp m v 2) ^ 2 ≤ 3 * ∑ r, methodGamma m method e v r ^ 2 + 24 * η ^ 2 * (∑ j, rotGrad m e v j ^ 2 + ∑ r, rotSum m e v r ^ 2) +
        3 * (disp m v 3 (m.tria e).n1 ^ 2 + disp m v 3 (m.tria e).n2 ^ 2 + disp m v 3 (m.tria e).n3 ^ 2) := by
      intro e he
      have c1 : IsCorner m e (m.tria e).n1 := Or.inl rfl
      have t := method_test w hp hg he hs hh method v (pt_mem_hull c1) 0
      change _ ≤ η * _ at t
      have t2 := pow_le_pow_left₀ (abs_nonneg _) t 2
      rw [sq_abs, mul_pow] at t2
      have l1 : linShear m e v (pt m (m.tria e).n1) 0 = gradX m (tpoly m e) (disp m v 2) + disp m v 3 (m.tria e).n1 := by
        unfold linShear
        rw [Matrix.cons_val_zero, lin_corner w hp hg he _ c1]
      rw [l1] at t2
      have r1 := abs_sum_sq (rotGrad m e v)
      have r2 := abs_sum_sq (rotSum m e v)
      change rotAbs m e v ^ 2 ≤ _ at r1
      change rotSumAbs m e v ^ 2 ≤ _ at r2
      push_cast at r1 r2
      have n4 : 0 ≤ ∑ r, rotSum m e v r ^ 2 := Finset.sum_nonneg fun _ _ => sq_nonneg _
      have r3 : (rotAbs m e v + rotSumAbs m e v) ^ 2 ≤ 8 * (∑ j, rotGrad m e v j ^ 2 + ∑ r, rotSum m e v r ^ 2) := by
        nlinarith [sq_nonneg (rotAbs m e v - rotSumAbs m e v)]
      have r4 := mul_le_mul_of_nonneg_left r3 (sq_nonneg η)
      rw [Fin.sum_univ_two (f := fun r => methodGamma m method e v r ^ 2)]
      have three : ∀ a b c : ℝ, (a + b + c) ^ 2 ≤ 3 * (a ^ 2 + b ^ 2 + c ^ 2) := fun a b c => by nlinarith [sq_nonneg (a - b), sq_nonneg (a - c), sq_nonneg (b - c)]
      have t3 := three (methodGamma m method e v 0) (-(methodGamma m method e v 0 - (gradX m (tpoly m e) (disp m v 2) + disp m v 3 (m.tria e).n1))) (-disp m v 3 (m.tria e).n1)
      rw [show methodGamma m method e v 0 + -(methodGamma m method e v 0 - (gradX m (tpoly m e) (disp m v 2) + disp m v 3 (m.tria e).n1)) + -disp m v 3 (m.tria e).n1 =
        gradX m (tpoly m e) (disp m v 2) by ring, neg_sq, neg_sq] at t3
      linarith [sq_nonneg (methodGamma m method e v 1), sq_nonneg (disp m v 3 (m.tria e).n2), sq_nonneg (disp m v 3 (m.tria e).n3)]
    have := hsum this
    rw [hadd, hadd, hmul, hmul, hmul] at this
    exact this
  have d3 := hP 3 (by norm_num)
  have R0 : 0 ≤ 48 * R ^ 2 := by positivity
  have x3 : D 3 ≤ 48 * R ^ 2 * X := d3.trans (mul_le_mul_of_nonneg_left (by linarith [hG0 4]) R0)
  have x34 : D 3 + D 4 ≤ 48 * R ^ 2 * X := by
    have := mul_le_mul_of_nonneg_left g34 R0
    linarith [hP 4 (by norm_num)]
  have x01 : D 0 + D 1 ≤ 48 * R ^ 2 * (2 * X) := by
    have := mul_le_mul_of_nonneg_left g01 R0
    linarith [hP 0 (by norm_num), hP 1 (by norm_num)]
  have x2 : D 2 ≤ 48 * R ^ 2 * ((3 + 24 * η ^ 2 + 144 * R ^ 2) * X) := by
    refine (hP 2 (by norm_num)).trans (mul_le_mul_of_nonneg_left ?_ R0)
    have : 24 * η ^ 2 * rotSize m v ≤ 24 * η ^ 2 * X := mul_le_mul_of_nonneg_left (by linarith) (by positivity)
    linarith
  rw [e1]
  linarith

end

/-- C132: if the plate is clamped along its boundary, the displacements computed tend to those of the solution at the nodes, in the mean square, at the rate of
the size of the triangles -/
theorem C132_displacements {s L0 L1 c g tau H al R A S M : ℝ} (hs0 : 0 ≤ s) (hL0 : 0 ≤ L0) (hL1 : 0 ≤ L1) (hc : 0 < c) (hg0 : 0 < g) (htau : 0 < tau) (hal : 0 ≤ al) (hS : 0 ≤ S) (hM : 0 ≤ M) :
    ∃ C : ℝ, 0 ≤ C ∧ ∀ (m : Mesh) (pn : Bool) (l : ℝ × ℝ → Lam), Reachable m → SmoothPlate m pn l s L0 L1 c g tau → totalArea m ≤ A → Within m R → ∀ h, 0 ≤ h → h ≤ H → Size m h →
      ∀ (method : String) (fa : Bool) (Sp : Set ℕ) (F Fx Fy : ℕ → ℝ × ℝ → ℝ) (K : Mat) (z f d : ℕ → ℝ), Clamped m Sp → SmoothField m F Fx Fy S M →
      StaticProblem m pn l method al fa Sp F Fx Fy K z f d →
      form K.dim K.get (fun i => d i - z i) (fun i => d i - z i) ≤ C * (h + litErr method) ^ 2 ∧ strainErr m Fx Fy d ≤ C * (h + litErr method) ^ 2 ∧
      dispSize m (fun i => d i - z i) ≤ C * (h + litErr method) ^ 2 := by
  obtain ⟨C, hC0, hC⟩ := C132_rate (H := H) (A := A) hs0 hL0 hL1 hc hg0 htau hal (by positivity : 0 ≤ 2 + 96 * R ^ 2) hS hM
  obtain ⟨C', hC0', hC'⟩ := C132_strains (H := H) (A := A) hs0 hL0 hL1 hc hg0 htau hal (by positivity : 0 ≤ 2 + 96 * R ^ 2) hS hM
  obtain ⟨E, hE⟩ : ∃ E, E = 48 * R ^ 2 * (6 + 24 * (3 * s * |H| + 1) ^ 2 + 144 * R ^ 2) := ⟨_, rfl⟩
  have hE0 : 0 ≤ E := by rw [hE]; positivity
  refine ⟨C + C' + E * C, by positivity, fun m pn l hr hsp hA hR h h0 hhH hh method fa Sp F Fx Fy K z f d hcl hF hpr => ?_⟩
  have hrot := clamped_rotHeld hr.wf hsp.good.proper hsp.good.planar hR hcl.rot
  obtain ⟨a1, a2⟩ := hC m pn l hr hsp hA h h0 hhH hh method fa Sp F Fx Fy K z f d hrot hF hpr
  have a3 := hC' m pn l hr hsp hA h h0 hhH hh method fa Sp F Fx Fy K z f d hrot hF hpr
  obtain ⟨l0, l1⟩ := litErr_nonneg method
  have hdim := (stiffness_split hr hsp.good hpr.stiff).1
  have a4 := dispSize_le hr.wf hsp.good.proper hsp.good.planar hsp.shape hh hR hcl method (v := fun i => d i - z i) fun i hi hS => by
    rw [hpr.sol.1 i (hdim ▸ hi) hS, hpr.supp i (hdim ▸ hi) hS, sub_zero]
  obtain ⟨q1, q2, q3⟩ := size_of_pos (m := m) (v := fun i => d i - z i)
  have q2 := q2 method
  have b1 : 48 * R ^ 2 * (6 + 24 * (3 * s * h + litErr method) ^ 2 + 144 * R ^ 2) ≤ E := by
    rw [hE]
    have : 3 * s * h ≤ 3 * s * |H| := mul_le_mul_of_nonneg_left (hhH.trans (le_abs_self H)) (by positivity)
    have := pow_le_pow_left₀ (by positivity : 0 ≤ 3 * s * h + litErr method) (add_le_add this l1) 2
    exact mul_le_mul_of_nonneg_left (by linarith) (by positivity)
  have b2 := mul_le_mul b1 a2 (by positivity) hE0
  have b3 : 0 ≤ C * (h + litErr method) ^ 2 := by positivity
  have b4 : 0 ≤ C' * (h + litErr method) ^ 2 := by positivity
  have b5 : 0 ≤ E * (C * (h + litErr method) ^ 2) := by positivity
  refine ⟨?_, ?_, ?_⟩ <;> linarith

section
variable {Om : Set (ℝ × ℝ)} {l : ℝ × ℝ → Lam} {pn : Bool} {s : ℝ} {m : ℕ → Mesh} {L0 L1 c g tau : ℝ} {F Fx Fy : ℕ → ℝ × ℝ → ℝ} {S M : ℝ}

theorem refined_smooth (hg : ∀ n, GoodPlate (m n) pn) (hR : Refined Om l pn s m) (hl : LamOn Om l L0 L1) (hc : ∀ x ∈ Om, AtLeast c (l x)) (hsh : ∀ x ∈ Om, ShearAtLeast g (l x))
    (ht : ∀ x ∈ Om, tau ≤ (l x).h) (n : ℕ) : SmoothPlate (m n) pn l s L0 L1 c g tau where
  good := hg n
  shape := hR.shape n
  lam := hl.smooth fun e he => (hR.tiles n).sub he
  assigned := hR.lam n
  stiff l' hl' := by
    obtain ⟨e, he, x, hx, rfl⟩ := assigned_inUse (hg n).piece (hR.lam n) hl'
    exact hc x ((hR.tiles n).sub he hx)
  shear l' hl' := by
    obtain ⟨e, he, x, hx, rfl⟩ := assigned_inUse (hg n).piece (hR.lam n) hl'
    exact hsh x ((hR.tiles n).sub he hx)
  thick := plate_thick (hR.tiles n) ht

/-- Cauchy-Schwarz for a symmetric matrix that is nowhere negative -/
theorem form_cs {n : ℕ} {K : ℕ → ℕ → ℝ} (hs : ∀ i < n, ∀ j < n, K i j = K j i) (hp : ∀ v, 0 ≤ form n K v v) (v u : ℕ → ℝ) : form n K v u ^ 2 ≤ form n K v v * form n K u u := by
  have q : ∀ t : ℝ, 0 ≤ form n K v v * (t * t) + 2 * form n K v u * t + form n K u u := fun t => by
    have h := hp fun i => t * v i - -1 * u i
    have e : form n K (fun i => t * v i - -1 * u i) (fun i => t * v i - -1 * u i) = form n K v v * (t * t) + 2 * form n K v u * t + form n K u u := by
      have s1 : ∀ w, form n K (fun i => t * v i) w = t * form n K v w := fun w => by
        unfold form; rw [mul_sum]; exact sum_congr rfl fun i _ => by rw [mul_sum]; exact sum_congr rfl fun j _ => by ring
      have s2 : ∀ w, form n K (fun i => -1 * u i) w = -form n K u w := fun w => by
        unfold form; rw [← sum_neg_distrib]; exact sum_congr rfl fun i _ => by rw [← sum_neg_distrib]; exact sum_congr rfl fun j _ => by ring
      rw [form_sub_left, form_sub_right, form_sub_right, s1, s1, s2, s2, form_comm hs v (fun i => t * v i), form_comm hs v (fun i => -1 * u i), form_comm hs u (fun i => t * v i),
        form_comm hs u (fun i => -1 * u i), s1, s1, s2, s2, form_comm hs u v]
      ring
    rwa [e] at h
  have := discrim_le_zero q
  unfold discrim at this
  linarith

/-- C132: refining the mesh of a plate clamped along its boundary, the displacements computed tend to the solution `F` of the plate theory: in the mean square
at the nodes, in the mean square of strains and curvatures, and in energy; the work of the loads tends to that of the theory -/
theorem C132_limit (hr : ∀ n, Reachable (m n)) (hg : ∀ n, GoodPlate (m n) pn) (hR : Refined Om l pn s m) (hs0 : 0 ≤ s) (hL0 : 0 ≤ L0) (hL1 : 0 ≤ L1) (hl : LamOn Om l L0 L1) (hc0 : 0 < c) (hg0 : 0 < g)
    (htau : 0 < tau) (hc : ∀ x ∈ Om, AtLeast c (l x)) (hsh : ∀ x ∈ Om, ShearAtLeast g (l x)) (ht : ∀ x ∈ Om, tau ≤ (l x).h) {R : ℝ} (hOm : ∀ x ∈ Om, |x.1| ≤ R) {al : ℝ} (hal : 0 ≤ al) {fa : Bool}
    (hS : 0 ≤ S) (hM : 0 ≤ M) (hF : FieldOn Om F Fx Fy S M) {Sp : ℕ → Set ℕ} (hcl : ∀ n, Clamped (m n) (Sp n)) {K : ℕ → Mat} {z f d : ℕ → ℕ → ℝ}
    (hpr : ∀ n, StaticProblem (m n) pn l "cell-based-no-smoothing" al fa (Sp n) F Fx Fy (K n) (z n) (f n) (d n)) :
    Tendsto (fun n => dispSize (m n) fun i => d n i - z n i) atTop (nhds 0) ∧ Tendsto (fun n => strainErr (m n) Fx Fy (d n)) atTop (nhds 0) ∧
    Tendsto (fun n => form (K n).dim (K n).get (fun i => d n i - z n i) (fun i => d n i - z n i)) atTop (nhds 0) ∧
    Tendsto (fun n => ∑ i ∈ range (K n).dim, f n i * d n i) atTop (nhds (plateEnergy Om l Fx Fy Fx Fy + plateShear Om l F Fx Fy F Fx Fy)) := by
  obtain ⟨h, hh, h0⟩ := hR.size
  obtain ⟨C, hC0, hC⟩ := C132_displacements (s := s) (L0 := L0) (L1 := L1) (c := c) (g := g) (tau := tau) (H := 1) (al := al) (R := R) (A := volume.real Om) (S := S) (M := M) hs0 hL0 hL1 hc0 hg0 htau hal hS hM
  have h1 : Tendsto (fun n => C * |h n| ^ 2) atTop (nhds 0) := by
    have : Continuous fun x : ℝ => C * |x| ^ 2 := by fun_prop
    exact (this.tendsto' 0 0 (by simp)).comp h0
  have hev : ∀ᶠ n in atTop, form (K n).dim (K n).get (fun i => d n i - z n i) (fun i => d n i - z n i) ≤ C * |h n| ^ 2 ∧ strainErr (m n) Fx Fy (d n) ≤ C * |h n| ^ 2 ∧
      dispSize (m n) (fun i => d n i - z n i) ≤ C * |h n| ^ 2 := by
    have := h0.abs
    rw [abs_zero] at this
    filter_upwards [this.eventually_le_const zero_lt_one] with n hn
    have hsub := fun e (he : e ∈ (m n).eids) => (hR.tiles n).sub he
    have key := hC (m n) pn l (hr n) (refined_smooth hg hR hl hc hsh ht n) (hR.tiles n).area.le ⟨0, fun e he i hi => by
      rw [sub_zero]; exact hOm _ (hsub e he (pt_mem_hull hi))⟩ |h n| (abs_nonneg _) hn (fun e he => (hh n e he).trans (le_abs_self _)) "cell-based-no-smoothing" fa (Sp n) F Fx Fy (K n) (z n) (f n) (d n)
      (hcl n) (hF.smooth hsub) (hpr n)
    have e1 : litErr "cell-based-no-smoothing" = 0 := by unfold litErr; rw [if_neg (by decide)]
    rwa [e1, add_zero] at key
  have hpos : ∀ n v, 0 ≤ form (K n).dim (K n).get v v := fun n v => (modes_total (hr n) (hg n) hal (hpr n).stiff (d := v)).1
  have t1 : Tendsto (fun n => form (K n).dim (K n).get (fun i => d n i - z n i) (fun i => d n i - z n i)) atTop (nhds 0) :=
    tendsto_of_tendsto_of_tendsto_of_le_of_le' tendsto_const_nhds h1 (Eventually.of_forall fun n => hpos n _) (hev.mono fun n h => h.1)
  refine ⟨?_, ?_, t1, ?_⟩
  · refine tendsto_of_tendsto_of_tendsto_of_le_of_le' tendsto_const_nhds h1 (Eventually.of_forall fun n => ?_) (hev.mono fun n h => h.2.2)
    refine List.sum_nonneg fun y hy => ?_
    obtain ⟨e, _, rfl⟩ := List.mem_map.1 hy
    exact mul_nonneg (abs_nonneg _) (Finset.sum_nonneg fun _ _ => by positivity)
  · refine tendsto_of_tendsto_of_tendsto_of_le_of_le' tendsto_const_nhds h1 (Eventually.of_forall fun n => ?_) (hev.mono fun n h => h.2.1)
    refine List.sum_nonneg fun y hy => ?_
    obtain ⟨e, _, rfl⟩ := List.mem_map.1 hy
    exact integral_nonneg fun x => Finset.sum_nonneg fun _ _ => sq_nonneg _
  · have t2 := C122_stiffness hr hR hL1 hl htau ht hal hM hF hF (fun n => (hpr n).stiff) (fun n => (hpr n).nodal) (fun n => (hpr n).nodal)
    have t3 : Tendsto (fun n => form (K n).dim (K n).get (z n) (fun i => d n i - z n i)) atTop (nhds 0) := by
      have hp := (t2.mul t1).sqrt
      rw [mul_zero, Real.sqrt_zero] at hp
      refine squeeze_zero_norm (fun n => ?_) hp
      rw [Real.norm_eq_abs]
      exact Real.abs_le_sqrt (form_cs (C78_symmetric (hr n) (hg n) (hpr n).stiff) (hpos n) _ _)
    have := (t2.add (t3.const_mul 2)).add t1
    rw [mul_zero, add_zero, add_zero] at this
    refine this.congr fun n => ?_
    have sy := C78_symmetric (hr n) (hg n) (hpr n).stiff
    rw [← form_load (hpr n).sol (hpr n).sol.1, form_sub_right, form_sub_right, form_sub_left, form_sub_left, form_comm sy (d n) (z n)]
    ring

end

end Meshless
