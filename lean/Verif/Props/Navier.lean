import Verif.Props.Guided

/-! A concrete case of C143: Navier's solution of the square plate with hinged sides. -/

set_option autoImplicit false

namespace Meshless
open Spec Finset MeasureTheory Filter Topology
open scoped Real

/-- hinged border: deflection and displacements in the plane fixed, and the rotation along each side -/
def gridHinge (k : ℕ) : Set ℕ := {p | (p % 5 ≤ 2 ∧ p ∈ gridBorder k) ∨ (p % 5 = 3 ∧ (p / 5 % (k + 1) = 0 ∨ p / 5 % (k + 1) = k)) ∨ (p % 5 = 4 ∧ (p / 5 / (k + 1) = 0 ∨ p / 5 / (k + 1) = k))}

theorem hinge_dof {k i j : ℕ} (hj : j ≤ k) {r : ℕ} (hr : r < 5) : 5 * (i * (k + 1) + j) + r ∈ gridHinge k ↔
    (r ≤ 2 ∧ (i = 0 ∨ i = k ∨ j = 0 ∨ j = k)) ∨ (r = 3 ∧ (j = 0 ∨ j = k)) ∨ (r = 4 ∧ (i = 0 ∨ i = k)) := by
  unfold gridHinge gridBorder
  rw [Set.mem_ofPred_eq, Set.mem_ofPred_eq, show (5 * (i * (k + 1) + j) + r) % 5 = r by omega, show (5 * (i * (k + 1) + j) + r) / 5 = j + (k + 1) * i by rw [Nat.mul_comm i]; omega,
    Nat.add_mul_div_left _ _ (by omega), Nat.add_mul_mod_self_left, Nat.div_eq_of_lt (by omega), Nat.mod_eq_of_lt (by omega), zero_add]

section
variable {k : ℕ} {l : ℝ × ℝ → Lam} {pn : Bool} {m : Mesh} (h : GridMesh k l pn m)
include h

/-- the sides of the grid with what is fixed there -/
theorem GridMesh.hinge_side {key : Key} (hk : IsRim m key) : (∀ r ≤ 2, FixedOn m (gridHinge k) r key) ∧
    ((FixedOn m (gridHinge k) 4 key ∧ nx m key.1 = nx m key.2 ∧ (nx m key.1 = 0 ∨ nx m key.1 = 1)) ∨ (FixedOn m (gridHinge k) 3 key ∧ ny m key.1 = ny m key.2 ∧ (ny m key.1 = 0 ∨ ny m key.1 = 1))) := by
  obtain ⟨a, b, a', b', h2, h3, h4, h5, h6, h7, h8⟩ := h.side_border hk.1 hk.2
  have p1 : pt m key.1 = ((a : ℝ) / k, (b : ℝ) / k) := by rw [h7, h.place _ (node_lt h2 h3), gridAt_eq h3]
  have p2 : pt m key.2 = ((a' : ℝ) / k, (b' : ℝ) / k) := by rw [h8, h.place _ (node_lt h4 h5), gridAt_eq h5]
  have x1 : nx m key.1 = (a : ℝ) / k := congrArg Prod.fst p1
  have y1 : ny m key.1 = (b : ℝ) / k := congrArg Prod.snd p1
  have x2 : nx m key.2 = (a' : ℝ) / k := congrArg Prod.fst p2
  have y2 : ny m key.2 = (b' : ℝ) / k := congrArg Prod.snd p2
  have fx : ∀ r < 5, FixedOn m (gridHinge k) r key ↔ ((r ≤ 2 ∧ (a = 0 ∨ a = k ∨ b = 0 ∨ b = k)) ∨ (r = 3 ∧ (b = 0 ∨ b = k)) ∨ (r = 4 ∧ (a = 0 ∨ a = k))) ∧
      ((r ≤ 2 ∧ (a' = 0 ∨ a' = k ∨ b' = 0 ∨ b' = k)) ∨ (r = 3 ∧ (b' = 0 ∨ b' = k)) ∨ (r = 4 ∧ (a' = 0 ∨ a' = k))) := fun r hr => by
    unfold FixedOn
    rw [h7, h8, h.idx (node_lt h2 h3), h.idx (node_lt h4 h5), hinge_dof h3 hr, hinge_dof h5 hr]
  refine ⟨fun r hr => (fx r (by omega)).2 (by omega), ?_⟩
  rw [fx 3 (by norm_num), fx 4 (by norm_num), x1, x2, y1, y2]
  have hz : ((0 : ℕ) : ℝ) / k = 0 := by simp
  have hk0 : (k : ℝ) / k = 1 ∨ (k : ℝ) / k = 0 := by
    rcases eq_or_ne (k : ℝ) 0 with h | h
    · right; simp [h]
    · left; exact div_self h
  rcases h6 with ⟨rfl, rfl⟩ | ⟨rfl, rfl⟩ | ⟨rfl, rfl⟩ | ⟨rfl, rfl⟩
  · exact Or.inl ⟨by omega, rfl, Or.inl hz⟩
  · exact Or.inl ⟨by omega, rfl, hk0.symm⟩
  · exact Or.inr ⟨by omega, rfl, Or.inl hz⟩
  · exact Or.inr ⟨by omega, rfl, hk0.symm⟩

theorem GridMesh.rim_apart (hk0 : 0 < k) {key : Key} (hk : IsRim m key) : pt m key.1 ≠ pt m key.2 := by
  obtain ⟨a, b, a', b', h2, h3, h4, h5, h6, h7, h8⟩ := h.side_border hk.1 hk.2
  have hk' : (k : ℝ) ≠ 0 := by exact_mod_cast hk0.ne'
  have hkk : key.1 ≠ key.2 := by
    rcases edge_shape h.reach.wf h.good.proper hk.1 with ⟨t, o, htr, hs, _⟩ | ⟨t1, t2, o1, o2, htr, hs1, hs2, _⟩
    · exact hs.hab
    · exact hs1.hab
  have p1 : pt m key.1 = ((a : ℝ) / k, (b : ℝ) / k) := by rw [h7, h.place _ (node_lt h2 h3), gridAt_eq h3]
  have p2 : pt m key.2 = ((a' : ℝ) / k, (b' : ℝ) / k) := by rw [h8, h.place _ (node_lt h4 h5), gridAt_eq h5]
  intro h0
  rw [p1, p2] at h0
  obtain ⟨e1, e2⟩ := Prod.mk.inj h0
  rw [div_left_inj' hk', Nat.cast_inj] at e1 e2
  exact hkk (by rw [h7, h8, e1, e2])

theorem GridMesh.within (hk : 0 < k) {e i : ℕ} (he : e ∈ m.eids) (hi : IsCorner m e i) : |nx m i - 0| ≤ 1 ∧ |ny m i - 0| ≤ 1 := by
  obtain ⟨⟨h1, h2⟩, h3, h4⟩ := mem_unitSquare.1 ((h.tiles hk).sub he (pt_mem_hull hi))
  rw [sub_zero, sub_zero]
  exact ⟨(abs_of_nonneg h1).trans_le h3, (abs_of_nonneg h2).trans_le h4⟩

theorem GridMesh.guided (hk0 : 0 < k) : Guided m (gridHinge k) 1 := by
  have hx : ∀ e ∈ m.eids, ∀ i, IsCorner m e i → |nx m i - 0| ≤ 1 := fun e he i hi => (h.within hk0 he hi).1
  have hy : ∀ e ∈ m.eids, ∀ i, IsCorner m e i → |ny m i - 0| ≤ 1 := fun e he i hi => (h.within hk0 he hi).2
  refine ⟨fun key hk => Or.inl ((h.hinge_side hk).1 0 (by norm_num)), fun key hk => ?_, fun r hr => ?_⟩
  · rcases (h.hinge_side hk).2 with ⟨a, _⟩ | ⟨a, _⟩
    · exact Or.inr (Or.inl a)
    · exact Or.inl a
  · rcases (by omega : r ≤ 2 ∨ r = 3 ∨ r = 4) with h1 | rfl | rfl
    · exact Or.inl ⟨0, hx, fun key hk => Or.inl ((h.hinge_side hk).1 r h1)⟩
    · exact Or.inr ⟨0, hy, fun key hk => (h.hinge_side hk).2.elim (fun a => Or.inr (Or.inl a.2.1)) fun a => Or.inl a.1⟩
    · exact Or.inl ⟨0, hx, fun key hk => (h.hinge_side hk).2.elim (fun a => Or.inl a.1) fun a => Or.inr (Or.inl a.2.1)⟩
end

/-- sine waves along both axes, shifted by quarter periods -/
noncomputable def wave (i j : ℕ) (x : ℝ × ℝ) : ℝ := Real.sin (π * x.1 + i * (π / 2)) * Real.sin (π * x.2 + j * (π / 2))

theorem wave_shift (i j : ℕ) (x : ℝ × ℝ) : wave (i + 2) j x = -wave i j x ∧ wave i (j + 2) x = -wave i j x := by
  unfold wave
  push_cast
  rw [show π * x.1 + ((i : ℝ) + 2) * (π / 2) = π * x.1 + i * (π / 2) + π by ring, show π * x.2 + ((j : ℝ) + 2) * (π / 2) = π * x.2 + j * (π / 2) + π by ring, Real.sin_add_pi, Real.sin_add_pi]
  constructor <;> ring

theorem wave_deriv (i j : ℕ) (x : ℝ × ℝ) : HasFDerivAt (wave i j) ((π * wave (i + 1) j x) • ContinuousLinearMap.fst ℝ ℝ ℝ + (π * wave i (j + 1) x) • ContinuousLinearMap.snd ℝ ℝ ℝ) x := by
  have a := (((hasFDerivAt_fst (𝕜 := ℝ) (p := x)).const_mul π).add_const ((i : ℝ) * (π / 2))).sin
  have b := (((hasFDerivAt_snd (𝕜 := ℝ) (p := x)).const_mul π).add_const ((j : ℝ) * (π / 2))).sin
  have s : ∀ (n : ℕ) (t : ℝ), Real.sin (π * t + ((n + 1 : ℕ) : ℝ) * (π / 2)) = Real.cos (π * t + n * (π / 2)) := fun n t => by
    rw [← Real.sin_add_pi_div_two]; congr 1; push_cast; ring
  refine (a.mul b).congr_fderiv ?_
  unfold wave
  rw [s, s]
  ext <;> simp <;> ring

theorem wave_abs (i j : ℕ) (x : ℝ × ℝ) : |wave i j x| ≤ 1 := by
  unfold wave
  rw [abs_mul]
  exact mul_le_one₀ (Real.abs_sin_le_one _) (abs_nonneg _) (Real.abs_sin_le_one _)

theorem wave_lip (i j : ℕ) (x y : ℝ × ℝ) : |wave i j x - wave i j y| ≤ 2 * π * dist x y := by
  have d1 : |x.1 - y.1| ≤ dist x y := by rw [← Real.dist_eq, Prod.dist_eq]; exact le_max_left _ _
  have d2 : |x.2 - y.2| ≤ dist x y := by rw [← Real.dist_eq, Prod.dist_eq]; exact le_max_right _ _
  have s : ∀ a b c : ℝ, |Real.sin (π * a + c) - Real.sin (π * b + c)| ≤ π * |a - b| := fun a b c => by
    have := Real.lipschitzWith_sin.dist_le_mul (π * a + c) (π * b + c)
    rw [Real.dist_eq, Real.dist_eq, NNReal.coe_one, one_mul, show π * a + c - (π * b + c) = π * (a - b) by ring, abs_mul, abs_of_pos Real.pi_pos] at this
    exact this
  unfold wave
  have s1 := s x.1 y.1 (i * (π / 2))
  have s2 := s x.2 y.2 (j * (π / 2))
  have c1 := Real.abs_sin_le_one (π * x.2 + j * (π / 2))
  have c2 := Real.abs_sin_le_one (π * y.1 + i * (π / 2))
  generalize Real.sin (π * x.1 + i * (π / 2)) = a1 at *
  generalize Real.sin (π * y.1 + i * (π / 2)) = a2 at *
  generalize Real.sin (π * x.2 + j * (π / 2)) = b1 at *
  generalize Real.sin (π * y.2 + j * (π / 2)) = b2 at *
  rw [show a1 * b1 - a2 * b2 = (a1 - a2) * b1 + a2 * (b1 - b2) by ring]
  refine (abs_add_le _ _).trans ?_
  rw [abs_mul, abs_mul]
  have e1 := mul_le_mul s1 c1 (abs_nonneg _) (mul_nonneg Real.pi_pos.le (abs_nonneg _))
  have e2 := mul_le_mul c2 s2 (abs_nonneg _) zero_le_one
  have e3 := mul_le_mul_of_nonneg_left d1 Real.pi_pos.le
  have e4 := mul_le_mul_of_nonneg_left d2 Real.pi_pos.le
  linarith

/-- amplitudes of Navier's solution -/
noncomputable def navierAmp (r : ℕ) : ℝ := if r = 2 then 1 + 3 * π ^ 2 else if r = 3 ∨ r = 4 then -π else 0

/-- Navier's solution: deflection `(1 + 3 π²) sin πx sin πy` and rotations `-π cos πx sin πy`, `-π sin πx cos πy` -/
noncomputable def navier (r : ℕ) (x : ℝ × ℝ) : ℝ := navierAmp r * wave (if r = 3 then 1 else 0) (if r = 4 then 1 else 0) x

noncomputable def navierX (r : ℕ) (x : ℝ × ℝ) : ℝ := navierAmp r * (π * wave ((if r = 3 then 1 else 0) + 1) (if r = 4 then 1 else 0) x)
noncomputable def navierY (r : ℕ) (x : ℝ × ℝ) : ℝ := navierAmp r * (π * wave (if r = 3 then 1 else 0) ((if r = 4 then 1 else 0) + 1) x)

/-- pressure `6 π⁴ sin πx sin πy` -/
noncomputable def navierLoad (r : ℕ) (x : ℝ × ℝ) : ℝ := if r = 2 then 6 * π ^ 4 * wave 0 0 x else 0

theorem navier_amp (r : ℕ) : |navierAmp r| ≤ 1 + 3 * π ^ 2 := by
  have := Real.two_le_pi
  unfold navierAmp
  split_ifs
  · rw [abs_of_pos (by positivity)]
  · rw [abs_neg, abs_of_pos Real.pi_pos]; nlinarith
  · rw [abs_zero]; positivity

theorem navier_on : FieldOn unitSquare navier navierX navierY ((1 + 3 * π ^ 2) * π) ((1 + 3 * π ^ 2) * π * (2 * π)) := by
  have hpi := Real.two_le_pi
  have hA : 0 ≤ 1 + 3 * π ^ 2 := by positivity
  refine ⟨fun r _ x _ => ?_, fun r _ x _ => ?_, fun r _ x _ y _ => ?_⟩
  · refine (((wave_deriv _ _ x).const_mul (navierAmp r)).hasFDerivWithinAt).congr_fderiv ?_
    unfold navierX navierY
    ext <;> simp
  · unfold navier navierX navierY
    simp only [abs_mul, abs_of_pos Real.pi_pos]
    refine ⟨?_, ?_, ?_⟩
    · exact mul_le_mul (navier_amp r) ((wave_abs _ _ x).trans (by linarith)) (abs_nonneg _) hA
    all_goals exact mul_le_mul (navier_amp r) (mul_le_of_le_one_right Real.pi_pos.le (wave_abs _ _ x)) (by positivity) hA
  · have hl : ∀ i j, |navierAmp r * (π * wave i j x) - navierAmp r * (π * wave i j y)| ≤ (1 + 3 * π ^ 2) * π * (2 * π) * dist x y := fun i j => by
      rw [← mul_sub, ← mul_sub, abs_mul, abs_mul, abs_of_pos Real.pi_pos]
      have := mul_le_mul (navier_amp r) (mul_le_mul_of_nonneg_left (wave_lip i j x y) Real.pi_pos.le) (by positivity) hA
      linarith
    exact ⟨hl _ _, hl _ _⟩

/-- forces and moments of Navier's solution: amplitude and waves -/
noncomputable def navierForce (r : ℕ) : ℝ × (ℕ × ℕ) × ℝ × ℕ × ℕ := match r with
  | 2 => (3 * π ^ 3, (1, 0), 3 * π ^ 3, 0, 1)
  | 3 => (-π ^ 2, (2, 0), -2 * π ^ 2, 1, 1)
  | 4 => (-2 * π ^ 2, (1, 1), -π ^ 2, 0, 2)
  | _ => (0, (0, 0), 0, 0, 0)

theorem navier_force (r : ℕ) (hr : r < 5) (x : ℝ × ℝ) : forceX (fun _ => exIso) navier navierX navierY r x = (navierForce r).1 * wave (navierForce r).2.1.1 (navierForce r).2.1.2 x ∧
    forceY (fun _ => exIso) navier navierX navierY r x = (navierForce r).2.2.1 * wave (navierForce r).2.2.2.1 (navierForce r).2.2.2.2 x := by
  rcases (by omega : r = 0 ∨ r = 1 ∨ r = 2 ∨ r = 3 ∨ r = 4) with rfl | rfl | rfl | rfl | rfl <;>
    constructor <;> simp [forceX, forceY, exIso_resultant, exIso_shearForce, strain, shear, navier, navierX, navierY, navierAmp, navierForce] <;> ring

theorem navier_equilibrium : ∃ Xx Xy Yx Yy, Equilibrium unitSquare (fun _ => exIso) navier navierX navierY Xx Xy Yx Yy navierLoad := by
  refine ⟨fun r x => (navierForce r).1 * (π * wave ((navierForce r).2.1.1 + 1) (navierForce r).2.1.2 x), fun r x => (navierForce r).1 * (π * wave (navierForce r).2.1.1 ((navierForce r).2.1.2 + 1) x),
    fun r x => (navierForce r).2.2.1 * (π * wave ((navierForce r).2.2.2.1 + 1) (navierForce r).2.2.2.2 x), fun r x => (navierForce r).2.2.1 * (π * wave (navierForce r).2.2.2.1 ((navierForce r).2.2.2.2 + 1) x),
    fun r hr x _ => ?_, fun r hr x _ => ?_, fun r _ => ?_, fun r hr x _ => ?_⟩
  · rw [funext fun y => (navier_force r hr y).1]
    refine (((wave_deriv _ _ x).const_mul _).hasFDerivWithinAt).congr_fderiv ?_
    ext <;> simp
  · rw [funext fun y => (navier_force r hr y).2]
    refine (((wave_deriv _ _ x).const_mul _).hasFDerivWithinAt).congr_fderiv ?_
    ext <;> simp
  · unfold wave
    refine ⟨?_, ?_, ?_, ?_⟩ <;> exact Continuous.continuousOn (by fun_prop)
  · rcases (by omega : r = 0 ∨ r = 1 ∨ r = 2 ∨ r = 3 ∨ r = 4) with rfl | rfl | rfl | rfl | rfl <;>
      simp [couple, exIso_shearForce, shear, navier, navierX, navierY, navierAmp, navierForce, navierLoad]
    · rw [show (2 : ℕ) = 0 + 2 from rfl, (wave_shift 0 0 x).1, (wave_shift 0 0 x).2]; ring
    · rw [show (3 : ℕ) = 1 + 2 from rfl, (wave_shift 1 0 x).1, show (2 : ℕ) = 0 + 2 from rfl, (wave_shift 1 0 x).2]; ring
    · rw [show (3 : ℕ) = 1 + 2 from rfl, (wave_shift 0 1 x).2, show (2 : ℕ) = 0 + 2 from rfl, (wave_shift 0 1 x).1]; ring

theorem wave_edge (j : ℕ) {x : ℝ × ℝ} : (x.1 = 0 ∨ x.1 = 1 → wave 0 j x = 0 ∧ wave 2 j x = 0) ∧ (x.2 = 0 ∨ x.2 = 1 → wave j 0 x = 0 ∧ wave j 2 x = 0) := by
  have h0 : ∀ t : ℝ, t = 0 ∨ t = 1 → Real.sin (π * t + ((0 : ℕ) : ℝ) * (π / 2)) = 0 := by
    rintro t (rfl | rfl) <;> simp
  refine ⟨fun hx => ?_, fun hx => ?_⟩
  · have : wave 0 j x = 0 := by unfold wave; rw [h0 _ hx, zero_mul]
    exact ⟨this, by rw [show (2 : ℕ) = 0 + 2 from rfl, (wave_shift 0 j x).1, this, neg_zero]⟩
  · have : wave j 0 x = 0 := by unfold wave; rw [h0 _ hx, mul_zero]
    exact ⟨this, by rw [show (2 : ℕ) = 0 + 2 from rfl, (wave_shift j 0 x).2, this, neg_zero]⟩

theorem navier_supported {k : ℕ} (hk : 0 < k) (N : ℕ) : Supported N (gridHinge k) (gridVals k navier) := by
  intro p _ hp
  have hk' : (k : ℝ) ≠ 0 := by exact_mod_cast hk.ne'
  have ex : p / 5 / (k + 1) = 0 ∨ p / 5 / (k + 1) = k → (gridAt k (p / 5)).1 = 0 ∨ (gridAt k (p / 5)).1 = 1 := by
    rintro (h | h) <;> simp [gridAt, h, hk']
  have ey : p / 5 % (k + 1) = 0 ∨ p / 5 % (k + 1) = k → (gridAt k (p / 5)).2 = 0 ∨ (gridAt k (p / 5)).2 = 1 := by
    rintro (h | h) <;> simp [gridAt, h, hk']
  unfold gridVals navier
  rcases hp with ⟨h1, h2⟩ | ⟨h1, h2⟩ | ⟨h1, h2⟩
  · rw [if_neg (by omega), if_neg (by omega)]
    have : wave 0 0 (gridAt k (p / 5)) = 0 := by
      rcases h2 with h | h | h | h
      · exact ((wave_edge 0).1 (ex (Or.inl h))).1
      · exact ((wave_edge 0).1 (ex (Or.inr h))).1
      · exact ((wave_edge 0).2 (ey (Or.inl h))).1
      · exact ((wave_edge 0).2 (ey (Or.inr h))).1
    rw [this, mul_zero]
  · rw [h1, if_pos rfl, if_neg (by norm_num), ((wave_edge 1).2 (ey h2)).1, mul_zero]
  · rw [h1, if_neg (by norm_num), if_pos rfl, ((wave_edge 1).1 (ex h2)).1, mul_zero]

/-- no bending moments on the hinged sides -/
theorem GridMesh.navier_traction {k : ℕ} {l : ℝ × ℝ → Lam} {pn : Bool} {m : Mesh} (h : GridMesh k l pn m) (hk0 : 0 < k) :
    Traction m (fun _ => exIso) navier navierX navierY (fun _ _ => 0) (gridHinge k) := by
  intro key hkey e ht nu hn r hr
  have hk : IsRim m key := ⟨hkey, by rw [ht]; rfl⟩
  obtain ⟨h1, h2⟩ := h.hinge_side hk
  have hne := h.rim_apart hk0 hk
  have hnn := hn.normal
  by_cases hr2 : r ≤ 2
  · exact Or.inl (h1 r hr2)
  rcases h2 with ⟨f, e1, e2⟩ | ⟨f, e1, e2⟩
  · rcases (by omega : r = 3 ∨ r = 4) with rfl | rfl
    · right
      intro t _
      have n2 : nu.2 = 0 := by
        rw [e1, sub_self, mul_zero, zero_add] at hnn
        exact (mul_eq_zero.1 hnn).resolve_right fun h0 => hne (Prod.ext e1 (sub_eq_zero.1 h0).symm)
      have hx : (sidePt m key t).1 = 0 ∨ (sidePt m key t).1 = 1 := by
        have : (sidePt m key t).1 = nx m key.1 := by
          change nx m key.1 + t * (nx m key.2 - nx m key.1) = _
          rw [e1]; ring
        rwa [this]
      rw [n2, (navier_force 3 hr _).1]
      simp only [navierForce]
      rw [((wave_edge 0).1 hx).2]
      ring
    · exact Or.inl f
  · rcases (by omega : r = 3 ∨ r = 4) with rfl | rfl
    · exact Or.inl f
    · right
      intro t _
      have n1 : nu.1 = 0 := by
        rw [e1, sub_self, mul_zero, add_zero] at hnn
        exact (mul_eq_zero.1 hnn).resolve_right fun h0 => hne (Prod.ext (sub_eq_zero.1 h0).symm e1)
      have hx : (sidePt m key t).2 = 0 ∨ (sidePt m key t).2 = 1 := by
        have : (sidePt m key t).2 = ny m key.1 := by
          change ny m key.1 + t * (ny m key.2 - ny m key.1) = _
          rw [e1]; ring
        rwa [this]
      rw [n1, (navier_force 4 hr _).2]
      simp only [navierForce]
      rw [((wave_edge 0).2 hx).2]
      ring

/-- Navier's plate: the unit square with hinged sides under the pressure `6 π⁴ sin πx sin πy`. On ever finer grids there is exactly one solution of the static
problem with the consistent nodal loads, and it tends to Navier's; the work of the loads tends to that of the theory. -/
example (pn : Bool) : ∃ (m : ℕ → Mesh) (K : ℕ → Mat) (f d : ℕ → ℕ → ℝ), (∀ n, GridMesh (n + 1) (fun _ => exIso) pn (m n)) ∧
    (∀ n, Consistent (m n) navierLoad (fun _ _ => 0) (gridHinge (n + 1)) (f n) ∧ Stiffness (m n) pn "cell-based-no-smoothing" (1 / 10) false (K n) ∧ StaticSol (K n) (gridHinge (n + 1)) (f n) (d n)) ∧
    Tendsto (fun n => dispSize (m n) fun i => d n i - gridVals (n + 1) navier i) atTop (nhds 0) ∧
    Tendsto (fun n => strainErr (m n) navierX navierY (d n)) atTop (nhds 0) := by
  choose m h using fun n => gridMesh_exists (Nat.succ_pos n) (fun _ => exLam_stiff one_pos one_pos one_pos one_pos) pn
  choose K0 K hK0 hK hG using fun n => (h n).made (Or.inr rfl) (1 / 10) false
  have hc : ∀ x ∈ unitSquare, AtLeast 1 ((fun _ => exIso : ℝ × ℝ → Lam) x) := fun _ _ => exLam_least le_rfl le_rfl
  have hsh : ∀ x ∈ unitSquare, ShearAtLeast 1 ((fun _ => exIso : ℝ × ℝ → Lam) x) := fun _ _ => exIso_shearLeast
  have hth : ∀ x ∈ unitSquare, 1 ≤ ((fun _ => exIso : ℝ × ℝ → Lam) x).h := fun _ _ => le_rfl
  have hgu := fun n => (h n).guided (Nat.succ_pos n)
  choose f hf using fun n => consistent_exists (m n) navierLoad fun _ _ => 0
  choose d hd hu using fun n => solve_unique (K n).get (gridHinge (n + 1)) (n := (K n).dim) (fun v hv h0 => by
    by_contra hcon
    push Not at hcon
    exact (C143_stable (h n).reach (h n).good (hgu n) (by norm_num) (hK n) v hv hcon).ne' h0) (f n)
  obtain ⟨Xx, Xy, Yx, Yy, hE⟩ := navier_equilibrium
  have hpi := Real.pi_pos
  obtain ⟨t1, t2, _⟩ := C143_equations (fun n => (h n).reach) (fun n => (h n).good) (grid_refined h) (by norm_num) zero_le_one le_rfl exUniform_on one_pos one_pos one_pos hc hsh hth
    (by norm_num) (by positivity) (by positivity) navier_on hE hgu (fun n => (h n).navier_traction (Nat.succ_pos n)) hK (fun n => (h n).nodal _) (fun n => navier_supported (Nat.succ_pos n) _) (fun n => hf n _) hd
  exact ⟨m, K, f, d, h, fun n => ⟨hf n _, hK n, hd n⟩, t1, t2⟩

/-- The hinged square on grids of any fineness: one constant bounds the mean square of all displacements by the energy. -/
example (pn : Bool) : ∃ C : ℝ, ∀ (m : ℕ → Mesh), (∀ n, GridMesh (n + 1) (fun _ => exIso) pn (m n)) → ∀ᶠ n in atTop, ∀ (K : Mat) (v : ℕ → ℝ), Stiffness (m n) pn "cell-based" (1 / 10) false K →
    Supported K.dim (gridHinge (n + 1)) v → dispSize (m n) v ≤ C * form K.dim K.get v v := by
  have hc : ∀ x ∈ unitSquare, AtLeast 1 ((fun _ => exIso : ℝ × ℝ → Lam) x) := fun _ _ => exLam_least le_rfl le_rfl
  have hsh : ∀ x ∈ unitSquare, ShearAtLeast 1 ((fun _ => exIso : ℝ × ℝ → Lam) x) := fun _ _ => exIso_shearLeast
  have hth : ∀ x ∈ unitSquare, 1 ≤ ((fun _ => exIso : ℝ × ℝ → Lam) x).h := fun _ _ => le_rfl
  obtain ⟨C, _, hC⟩ := C143_coercive (s := 4) (L0 := 1) (L1 := 0) (c := 1) (g := 1) (tau := 1) (H := 1) (al := 1 / 10) (R := 1) (by norm_num) one_pos one_pos one_pos (by norm_num)
  refine ⟨C, fun m h => ?_⟩
  obtain ⟨δ, hδ, hδ0⟩ := (grid_refined h).size
  filter_upwards [hδ0.eventually_le_const zero_lt_one] with n hn K v hK hv
  exact hC (m n) pn _ (h n).reach (refined_smooth (fun n => (h n).good) (grid_refined h) exUniform_on hc hsh hth n) zero_le_one (fun e he => (hδ n e he).trans hn) "cell-based" false _ K v
    ((h n).guided (Nat.succ_pos n)) hK hv

end Meshless
