import Verif.Props.Navier
import Verif.Spec.PlateMode

/-! The buckling modes of the hinged unit square: `p` half waves along `x` and `q` along `y`. -/

set_option autoImplicit false

namespace Meshless
open Spec Finset Filter MeasureTheory Topology Real

/-- `p` and `q` half waves along the axes, shifted by quarter periods -/
noncomputable def hwave (p q i j : ℕ) (x : ℝ × ℝ) : ℝ := wave i j (p * x.1, q * x.2)

theorem hwave_shift (p q i j : ℕ) (x : ℝ × ℝ) : hwave p q (i + 2) j x = -hwave p q i j x ∧ hwave p q i (j + 2) x = -hwave p q i j x := wave_shift _ _ _

theorem hwave_deriv (p q i j : ℕ) (x : ℝ × ℝ) :
    HasFDerivAt (hwave p q i j) ((p * π * hwave p q (i + 1) j x) • ContinuousLinearMap.fst ℝ ℝ ℝ + (q * π * hwave p q i (j + 1) x) • ContinuousLinearMap.snd ℝ ℝ ℝ) x := by
  have h1 : HasFDerivAt (fun x : ℝ × ℝ => ((p : ℝ) * x.1, (q : ℝ) * x.2)) (((p : ℝ) • ContinuousLinearMap.fst ℝ ℝ ℝ).prod ((q : ℝ) • ContinuousLinearMap.snd ℝ ℝ ℝ)) x :=
    ((hasFDerivAt_fst (𝕜 := ℝ) (p := x)).const_mul (p : ℝ)).prodMk ((hasFDerivAt_snd (𝕜 := ℝ) (p := x)).const_mul (q : ℝ))
  refine ((wave_deriv i j (p * x.1, q * x.2)).comp x h1).congr_fderiv ?_
  unfold hwave
  ext <;> simp <;> ring

theorem hwave_abs (p q i j : ℕ) (x : ℝ × ℝ) : |hwave p q i j x| ≤ 1 := wave_abs _ _ _

theorem hwave_lip (p q i j : ℕ) (x y : ℝ × ℝ) : |hwave p q i j x - hwave p q i j y| ≤ 2 * π * (p + q + 1) * dist x y := by
  refine (wave_lip _ _ _ _).trans ?_
  rw [mul_assoc (2 * π)]
  refine mul_le_mul_of_nonneg_left ?_ (by positivity)
  have d1 : |x.1 - y.1| ≤ dist x y := by rw [← Real.dist_eq, Prod.dist_eq]; exact le_max_left _ _
  have d2 : |x.2 - y.2| ≤ dist x y := by rw [← Real.dist_eq, Prod.dist_eq]; exact le_max_right _ _
  rw [Prod.dist_eq, Real.dist_eq, Real.dist_eq, ← mul_sub, ← mul_sub, abs_mul, abs_mul, Nat.abs_cast, Nat.abs_cast]
  have hd : 0 ≤ dist x y := dist_nonneg
  have hp : (0:ℝ) ≤ p := Nat.cast_nonneg p
  have hq : (0:ℝ) ≤ q := Nat.cast_nonneg q
  have e1 := mul_le_mul_of_nonneg_left d1 hp
  have e2 := mul_le_mul_of_nonneg_left d2 hq
  have f1 := mul_nonneg hp hd
  have f2 := mul_nonneg hq hd
  refine max_le ?_ ?_ <;> linarith

theorem hwave_cont (p q i j : ℕ) : Continuous (hwave p q i j) := by
  unfold hwave wave
  fun_prop

/-- amplitude of the deflection -/
noncomputable def hinTop (p q : ℕ) : ℝ := (1 + (p ^ 2 + q ^ 2) * π ^ 2) ^ 2 - (p * q * π ^ 2) ^ 2

theorem hinTop_pos (p q : ℕ) : 0 < hinTop p q := by
  have : hinTop p q = 1 + 2 * (p ^ 2 + q ^ 2) * π ^ 2 + (p ^ 4 + p ^ 2 * q ^ 2 + q ^ 4) * π ^ 4 := by unfold hinTop; ring
  rw [this]
  positivity

noncomputable def hinAmp (p q r : ℕ) : ℝ := if r = 2 then hinTop p q else if r = 3 then -(π * p * (1 + p ^ 2 * π ^ 2)) else if r = 4 then -(π * q * (1 + q ^ 2 * π ^ 2)) else 0

/-- the mode: deflection `sin pπx sin qπy` with the rotations in equilibrium with it -/
noncomputable def hin (p q r : ℕ) (x : ℝ × ℝ) : ℝ := hinAmp p q r * hwave p q (if r = 3 then 1 else 0) (if r = 4 then 1 else 0) x
noncomputable def hinX (p q r : ℕ) (x : ℝ × ℝ) : ℝ := hinAmp p q r * (p * π * hwave p q ((if r = 3 then 1 else 0) + 1) (if r = 4 then 1 else 0) x)
noncomputable def hinY (p q r : ℕ) (x : ℝ × ℝ) : ℝ := hinAmp p q r * (q * π * hwave p q (if r = 3 then 1 else 0) ((if r = 4 then 1 else 0) + 1) x)

/-- transverse load the mode is in equilibrium with, over `π² sin pπx sin qπy` -/
noncomputable def hinLoad (p q : ℕ) : ℝ := hinTop p q * (p ^ 2 + q ^ 2) - p ^ 2 * (1 + p ^ 2 * π ^ 2) - q ^ 2 * (1 + q ^ 2 * π ^ 2)

/-- buckling factor for the membrane forces `Nxx = -a`, `Nyy = -b` -/
noncomputable def hinFactor (p q : ℕ) (a b : ℝ) : ℝ := hinLoad p q / (hinTop p q * (a * p ^ 2 + b * q ^ 2))

theorem hinLoad_pos {p q : ℕ} (hp : 0 < p) : 0 < hinLoad p q := by
  have hp' : (0:ℝ) < p := by exact_mod_cast hp
  have : hinLoad p q = ((p ^ 2 + q ^ 2) * (p ^ 2 + q ^ 2) + 2 * p ^ 2 * q ^ 2) * π ^ 2 + (p ^ 4 + p ^ 2 * q ^ 2 + q ^ 4) * (p ^ 2 + q ^ 2) * π ^ 4 := by unfold hinLoad hinTop; ring
  rw [this]
  positivity

/-- bound for the amplitudes -/
noncomputable def hinMax (p q : ℕ) : ℝ := hinTop p q + π * p * (1 + p ^ 2 * π ^ 2) + π * q * (1 + q ^ 2 * π ^ 2)

theorem hin_amp (p q r : ℕ) : |hinAmp p q r| ≤ hinMax p q := by
  have h1 := hinTop_pos p q
  have h2 : 0 ≤ π * p * (1 + p ^ 2 * π ^ 2) := by positivity
  have h3 : 0 ≤ π * q * (1 + q ^ 2 * π ^ 2) := by positivity
  unfold hinAmp hinMax
  split_ifs
  · rw [abs_of_pos h1]; linarith
  · rw [abs_neg, abs_of_nonneg h2]; linarith
  · rw [abs_neg, abs_of_nonneg h3]; linarith
  · rw [abs_zero]; linarith

theorem hin_on (p q : ℕ) {B M : ℝ} (hB : hinMax p q * ((p + q + 1) * π) ≤ B) (hM : hinMax p q * ((p + q + 1) * π) * (2 * π * (p + q + 1)) ≤ M) : FieldOn unitSquare (hin p q) (hinX p q) (hinY p q) B M := by
  have hpi := Real.two_le_pi
  have hA : 0 ≤ hinMax p q := (abs_nonneg _).trans (hin_amp p q 0)
  have hp : (0:ℝ) ≤ p := Nat.cast_nonneg p
  have hq : (0:ℝ) ≤ q := Nat.cast_nonneg q
  have h1 : 1 ≤ (p + q + 1) * π := by nlinarith
  have h2 : p * π ≤ (p + q + 1) * π := mul_le_mul_of_nonneg_right (by linarith) Real.pi_pos.le
  have h3 : q * π ≤ (p + q + 1) * π := mul_le_mul_of_nonneg_right (by linarith) Real.pi_pos.le
  refine ⟨fun r _ x _ => ?_, fun r _ x _ => ?_, fun r _ x _ y _ => ?_⟩
  · refine (((hwave_deriv _ _ _ _ x).const_mul (hinAmp p q r)).hasFDerivWithinAt).congr_fderiv ?_
    unfold hinX hinY
    ext <;> simp
  · unfold hin hinX hinY
    have hb : ∀ (t : ℝ) i j, 0 ≤ t → t ≤ (p + q + 1) * π → |hinAmp p q r * (t * hwave p q i j x)| ≤ B := fun t i j ht0 ht => by
      rw [abs_mul, abs_mul, abs_of_nonneg ht0]
      exact (mul_le_mul (hin_amp p q r) ((mul_le_of_le_one_right ht0 (hwave_abs _ _ _ _ x)).trans ht) (by positivity) hA).trans hB
    refine ⟨?_, hb _ _ _ (by positivity) h2, hb _ _ _ (by positivity) h3⟩
    have := hb 1 (if r = 3 then 1 else 0) (if r = 4 then 1 else 0) zero_le_one h1
    rwa [one_mul] at this
  · have hl : ∀ (t : ℝ) i j, 0 ≤ t → t ≤ (p + q + 1) * π → |hinAmp p q r * (t * hwave p q i j x) - hinAmp p q r * (t * hwave p q i j y)| ≤ M * dist x y := fun t i j ht0 ht => by
      rw [← mul_sub, ← mul_sub, abs_mul, abs_mul, abs_of_nonneg ht0]
      have := mul_le_mul (hin_amp p q r) (mul_le_mul ht (hwave_lip p q i j x y) (abs_nonneg _) (by linarith)) (by positivity) hA
      refine this.trans ((le_of_eq ?_).trans (mul_le_mul_of_nonneg_right hM dist_nonneg))
      ring
    exact ⟨hl _ _ _ (by positivity) h2, hl _ _ _ (by positivity) h3⟩

/-- forces and moments of the mode: amplitude and waves -/
noncomputable def hinForce (p q r : ℕ) : ℝ × (ℕ × ℕ) × ℝ × ℕ × ℕ := match r with
  | 2 => (hinAmp p q 2 * (p * π) + hinAmp p q 3, (1, 0), hinAmp p q 2 * (q * π) + hinAmp p q 4, 0, 1)
  | 3 => (hinAmp p q 3 * (p * π), (2, 0), hinAmp p q 3 * (q * π) + hinAmp p q 4 * (p * π), 1, 1)
  | 4 => (hinAmp p q 3 * (q * π) + hinAmp p q 4 * (p * π), (1, 1), hinAmp p q 4 * (q * π), 0, 2)
  | _ => (0, (0, 0), 0, 0, 0)

theorem hinAmp_zero (p q : ℕ) : hinAmp p q 0 = 0 ∧ hinAmp p q 1 = 0 := ⟨rfl, rfl⟩

theorem hin_force (p q r : ℕ) (hr : r < 5) (x : ℝ × ℝ) : forceX (fun _ => exIso) (hin p q) (hinX p q) (hinY p q) r x = (hinForce p q r).1 * hwave p q (hinForce p q r).2.1.1 (hinForce p q r).2.1.2 x ∧
    forceY (fun _ => exIso) (hin p q) (hinX p q) (hinY p q) r x = (hinForce p q r).2.2.1 * hwave p q (hinForce p q r).2.2.2.1 (hinForce p q r).2.2.2.2 x := by
  rcases (by omega : r = 0 ∨ r = 1 ∨ r = 2 ∨ r = 3 ∨ r = 4) with rfl | rfl | rfl | rfl | rfl <;>
    constructor <;> simp [forceX, forceY, exIso_resultant, exIso_shearForce, strain, shear, hin, hinX, hinY, hinForce, hinAmp_zero] <;> ring

theorem hin_balance (p q : ℕ) : (hinAmp p q 2 * (p * π) + hinAmp p q 3) + (hinAmp p q 3 * (p * π) * (p * π) + (hinAmp p q 3 * (q * π) + hinAmp p q 4 * (p * π)) * (q * π)) = 0 ∧
    (hinAmp p q 2 * (q * π) + hinAmp p q 4) + ((hinAmp p q 3 * (q * π) + hinAmp p q 4 * (p * π)) * (p * π) + hinAmp p q 4 * (q * π) * (q * π)) = 0 ∧
    (hinAmp p q 2 * (p * π) + hinAmp p q 3) * (p * π) + (hinAmp p q 2 * (q * π) + hinAmp p q 4) * (q * π) = π ^ 2 * hinLoad p q := by
  unfold hinLoad hinAmp hinTop
  simp only [if_true, Nat.reduceEqDiff, if_false]
  refine ⟨by ring, by ring, by ring⟩

theorem hin_equilibrium (p q : ℕ) : ∃ Xx Xy Yx Yy, Equilibrium unitSquare (fun _ => exIso) (hin p q) (hinX p q) (hinY p q) Xx Xy Yx Yy fun r x => if r = 2 then π ^ 2 * hinLoad p q * hwave p q 0 0 x else 0 := by
  refine ⟨fun r x => (hinForce p q r).1 * (p * π * hwave p q ((hinForce p q r).2.1.1 + 1) (hinForce p q r).2.1.2 x), fun r x => (hinForce p q r).1 * (q * π * hwave p q (hinForce p q r).2.1.1 ((hinForce p q r).2.1.2 + 1) x),
    fun r x => (hinForce p q r).2.2.1 * (p * π * hwave p q ((hinForce p q r).2.2.2.1 + 1) (hinForce p q r).2.2.2.2 x),
    fun r x => (hinForce p q r).2.2.1 * (q * π * hwave p q (hinForce p q r).2.2.2.1 ((hinForce p q r).2.2.2.2 + 1) x),
    fun r hr x _ => ?_, fun r hr x _ => ?_, fun r _ => ?_, fun r hr x _ => ?_⟩
  · rw [funext fun y => (hin_force p q r hr y).1]
    refine (((hwave_deriv _ _ _ _ x).const_mul _).hasFDerivWithinAt).congr_fderiv ?_
    ext <;> simp
  · rw [funext fun y => (hin_force p q r hr y).2]
    refine (((hwave_deriv _ _ _ _ x).const_mul _).hasFDerivWithinAt).congr_fderiv ?_
    ext <;> simp
  · unfold hwave wave
    refine ⟨?_, ?_, ?_, ?_⟩ <;> exact Continuous.continuousOn (by fun_prop)
  · obtain ⟨b1, b2, b3⟩ := hin_balance p q
    rcases (by omega : r = 0 ∨ r = 1 ∨ r = 2 ∨ r = 3 ∨ r = 4) with rfl | rfl | rfl | rfl | rfl <;>
      simp [couple, exIso_shearForce, shear, hin, hinX, hinY, hinForce]
    · rw [show (2 : ℕ) = 0 + 2 from rfl, (hwave_shift p q 0 0 x).1, (hwave_shift p q 0 0 x).2]
      linear_combination (-hwave p q 0 0 x) * b3
    · rw [show (3 : ℕ) = 1 + 2 from rfl, (hwave_shift p q 1 0 x).1, show (2 : ℕ) = 0 + 2 from rfl, (hwave_shift p q 1 0 x).2]
      linear_combination (-hwave p q 1 0 x) * b1
    · rw [show (3 : ℕ) = 1 + 2 from rfl, (hwave_shift p q 0 1 x).2, show (2 : ℕ) = 0 + 2 from rfl, (hwave_shift p q 0 1 x).1]
      linear_combination (-hwave p q 0 1 x) * b2

theorem hwave_edge (p q j : ℕ) {x : ℝ × ℝ} : (x.1 = 0 ∨ x.1 = 1 → hwave p q 0 j x = 0 ∧ hwave p q 2 j x = 0) ∧ (x.2 = 0 ∨ x.2 = 1 → hwave p q j 0 x = 0 ∧ hwave p q j 2 x = 0) := by
  have h0 : ∀ (p : ℕ) (t : ℝ), t = 0 ∨ t = 1 → Real.sin (π * (p * t) + ((0 : ℕ) : ℝ) * (π / 2)) = 0 := by
    rintro p t (rfl | rfl)
    · simp
    · rw [Nat.cast_zero, zero_mul, add_zero, mul_one, mul_comm]; exact Real.sin_nat_mul_pi p
  refine ⟨fun hx => ?_, fun hx => ?_⟩
  · have : hwave p q 0 j x = 0 := by unfold hwave wave; rw [h0 _ _ hx, zero_mul]
    exact ⟨this, by rw [show (2 : ℕ) = 0 + 2 from rfl, (hwave_shift p q 0 j x).1, this, neg_zero]⟩
  · have : hwave p q j 0 x = 0 := by unfold hwave wave; rw [h0 _ _ hx, mul_zero]
    exact ⟨this, by rw [show (2 : ℕ) = 0 + 2 from rfl, (hwave_shift p q j 0 x).2, this, neg_zero]⟩

theorem hin_supported (p q : ℕ) {k : ℕ} (hk : 0 < k) (N : ℕ) : Supported N (gridHinge k) (gridVals k (hin p q)) := by
  intro t _ hp
  have hk' : (k : ℝ) ≠ 0 := by exact_mod_cast hk.ne'
  have ex : t / 5 / (k + 1) = 0 ∨ t / 5 / (k + 1) = k → (gridAt k (t / 5)).1 = 0 ∨ (gridAt k (t / 5)).1 = 1 := by
    rintro (h | h) <;> simp [gridAt, h, hk']
  have ey : t / 5 % (k + 1) = 0 ∨ t / 5 % (k + 1) = k → (gridAt k (t / 5)).2 = 0 ∨ (gridAt k (t / 5)).2 = 1 := by
    rintro (h | h) <;> simp [gridAt, h, hk']
  unfold gridVals hin
  rcases hp with ⟨h1, h2⟩ | ⟨h1, h2⟩ | ⟨h1, h2⟩
  · rw [if_neg (by omega), if_neg (by omega)]
    have : hwave p q 0 0 (gridAt k (t / 5)) = 0 := by
      rcases h2 with h | h | h | h
      · exact ((hwave_edge p q 0).1 (ex (Or.inl h))).1
      · exact ((hwave_edge p q 0).1 (ex (Or.inr h))).1
      · exact ((hwave_edge p q 0).2 (ey (Or.inl h))).1
      · exact ((hwave_edge p q 0).2 (ey (Or.inr h))).1
    rw [this, mul_zero]
  · rw [h1, if_pos rfl, if_neg (by norm_num), ((hwave_edge p q 1).2 (ey h2)).1, mul_zero]
  · rw [h1, if_neg (by norm_num), if_pos rfl, ((hwave_edge p q 1).1 (ex h2)).1, mul_zero]

/-- no bending moments on the hinged sides -/
theorem GridMesh.hin_traction {k : ℕ} {l : ℝ × ℝ → Lam} {pn : Bool} {m : Mesh} (h : GridMesh k l pn m) (hk0 : 0 < k) (p q : ℕ) :
    Traction m (fun _ => exIso) (hin p q) (hinX p q) (hinY p q) (fun _ _ => 0) (gridHinge k) := by
  intro key hkey e ht nu hn r hr
  have hk : IsRim m key := ⟨hkey, by rw [ht]; rfl⟩
  obtain ⟨h1, h2⟩ := h.hinge_side hk
  have hne := h.rim_apart hk0 hk
  have hnn := hn.normal
  by_cases hr2 : r ≤ 2
  · exact Or.inl (h1 r hr2)
  rcases h2 with ⟨f, e1, e2⟩ | ⟨f, e1, e2⟩
  · rcases (by omega : r = 3 ∨ r = 4) with rfl | rfl
    · right
      intro t _
      have n2 : nu.2 = 0 := by
        rw [e1, sub_self, mul_zero, zero_add] at hnn
        exact (mul_eq_zero.1 hnn).resolve_right fun h0 => hne (Prod.ext e1 (sub_eq_zero.1 h0).symm)
      have hx : (sidePt m key t).1 = 0 ∨ (sidePt m key t).1 = 1 := by
        have : (sidePt m key t).1 = nx m key.1 := by
          change nx m key.1 + t * (nx m key.2 - nx m key.1) = _
          rw [e1]; ring
        rwa [this]
      rw [n2, (hin_force p q 3 hr _).1]
      simp only [hinForce]
      rw [((hwave_edge p q 0).1 hx).2]
      ring
    · exact Or.inl f
  · rcases (by omega : r = 3 ∨ r = 4) with rfl | rfl
    · exact Or.inl f
    · right
      intro t _
      have n1 : nu.1 = 0 := by
        rw [e1, sub_self, mul_zero, add_zero] at hnn
        exact (mul_eq_zero.1 hnn).resolve_right fun h0 => hne (Prod.ext (sub_eq_zero.1 h0).symm e1)
      have hx : (sidePt m key t).2 = 0 ∨ (sidePt m key t).2 = 1 := by
        have : (sidePt m key t).2 = ny m key.1 := by
          change ny m key.1 + t * (ny m key.2 - ny m key.1) = _
          rw [e1]; ring
        rwa [this]
      rw [n1, (hin_force p q 4 hr _).2]
      simp only [hinForce]
      rw [((hwave_edge p q 0).2 hx).2]
      ring

/-- the square pushed together along both axes: displacements `-a x`, `-b y` -/
noncomputable def squeeze (a b : ℝ) (r : ℕ) (x : ℝ × ℝ) : ℝ := if r = 0 then -(a * x.1) else if r = 1 then -(b * x.2) else 0
noncomputable def squeezeX (a : ℝ) (r : ℕ) (_ : ℝ × ℝ) : ℝ := if r = 0 then -a else 0
noncomputable def squeezeY (b : ℝ) (r : ℕ) (_ : ℝ × ℝ) : ℝ := if r = 1 then -b else 0

theorem squeeze_on {a b B M : ℝ} (ha : |a| ≤ B) (hb : |b| ≤ B) (hM : 0 ≤ M) : FieldOn unitSquare (squeeze a b) (squeezeX a) (squeezeY b) B M := by
  have hB0 : 0 ≤ B := (abs_nonneg _).trans ha
  refine ⟨fun r _ x _ => ?_, fun r hr x hx => ?_, fun _ _ x _ y _ => ?_⟩
  · unfold squeeze squeezeX squeezeY
    rcases eq_or_ne r 0 with rfl | h0
    · simp only [if_true]
      refine (((hasFDerivAt_fst (𝕜 := ℝ) (p := x)).const_mul a).neg.hasFDerivWithinAt).congr_fderiv ?_
      ext <;> simp
    · rcases eq_or_ne r 1 with rfl | h1
      · simp only [if_true, if_neg h0]
        refine (((hasFDerivAt_snd (𝕜 := ℝ) (p := x)).const_mul b).neg.hasFDerivWithinAt).congr_fderiv ?_
        ext <;> simp
      · simp only [if_neg h0, if_neg h1]
        refine (hasFDerivWithinAt_const (0:ℝ) x _).congr_fderiv ?_
        ext <;> simp
  · obtain ⟨⟨h1, h2⟩, h3, h4⟩ := mem_unitSquare.1 hx
    unfold squeeze squeezeX squeezeY
    refine ⟨?_, ?_, ?_⟩ <;> split_ifs <;> simp only [abs_neg, abs_mul, abs_zero, abs_of_nonneg h1, abs_of_nonneg h2] <;> first | assumption | skip
    · exact (mul_le_of_le_one_right (abs_nonneg _) h3).trans ha
    · exact (mul_le_of_le_one_right (abs_nonneg _) h4).trans hb
  · simpa [squeezeX, squeezeY] using mul_nonneg hM dist_nonneg

theorem squeeze_membrane (a b : ℝ) (x : ℝ × ℝ) : contMembrane exIso (squeezeX a) (squeezeY b) x 0 = -a ∧ contMembrane exIso (squeezeX a) (squeezeY b) x 1 = -b ∧
    contMembrane exIso (squeezeX a) (squeezeY b) x 2 = 0 := by
  refine ⟨?_, ?_, ?_⟩ <;> simp [contMembrane, exIso, exLam, strain, squeezeX, squeezeY]

/-- the mode solves the buckling equations -/
theorem hin_mode (p q : ℕ) {a b : ℝ} (hab : a * p ^ 2 + b * q ^ 2 ≠ 0) :
    BucklingField unitSquare (fun _ => exIso) (squeezeX a) (squeezeY b) (hin p q) (hinX p q) (hinY p q) (hinFactor p q a b) := by
  obtain ⟨Xx, Xy, Yx, Yy, hE⟩ := hin_equilibrium p q
  have hT := (hinTop_pos p q).ne'
  have e1 : preX (fun _ => exIso) (squeezeX a) (squeezeY b) (hinX p q) (hinY p q) = fun x => -a * hinTop p q * (p * π) * hwave p q 1 0 x := by
    funext x
    unfold preX
    rw [(squeeze_membrane a b x).1, (squeeze_membrane a b x).2.2]
    simp [hinX, hinAmp]; ring
  have e2 : preY (fun _ => exIso) (squeezeX a) (squeezeY b) (hinX p q) (hinY p q) = fun x => -b * hinTop p q * (q * π) * hwave p q 0 1 x := by
    funext x
    unfold preY
    rw [(squeeze_membrane a b x).2.1, (squeeze_membrane a b x).2.2]
    simp [hinY, hinAmp]; ring
  refine ⟨Xx, Xy, Yx, Yy, fun x => -a * hinTop p q * (p * π) * (p * π * hwave p q 2 0 x), fun x => -a * hinTop p q * (p * π) * (q * π * hwave p q 1 1 x),
    fun x => -b * hinTop p q * (q * π) * (p * π * hwave p q 1 1 x), fun x => -b * hinTop p q * (q * π) * (q * π * hwave p q 0 2 x), fun x _ => ?_, fun x _ => ?_, ?_, ?_⟩
  · rw [e1]
    refine (((hwave_deriv p q 1 0 x).const_mul _).hasFDerivWithinAt).congr_fderiv ?_
    ext <;> simp
  · rw [e2]
    refine (((hwave_deriv p q 0 1 x).const_mul _).hasFDerivWithinAt).congr_fderiv ?_
    ext <;> simp
  · have := hwave_cont p q
    refine ⟨?_, ?_, ?_, ?_⟩ <;> exact Continuous.continuousOn (by fun_prop)
  · convert hE using 3 with r x
    have w1 : hwave p q 2 0 x = -hwave p q 0 0 x := (hwave_shift p q 0 0 x).1
    have w2 : hwave p q 0 2 x = -hwave p q 0 0 x := (hwave_shift p q 0 0 x).2
    beta_reduce
    rw [w1, w2]
    unfold hinFactor
    split
    · field_simp
    · rfl

/-- the sides of the hinged square are free of bending moments and cannot deflect -/
theorem GridMesh.hin_rim {k : ℕ} {l : ℝ × ℝ → Lam} {pn : Bool} {m : Mesh} (h : GridMesh k l pn m) (hk0 : 0 < k) (p q : ℕ) (a b lam : ℝ) :
    FreeRim m (fun _ => exIso) (squeezeX a) (squeezeY b) (hin p q) (hinX p q) (hinY p q) lam (gridHinge k) := by
  intro key hkey e ht nu hn r hr
  by_cases h2 : r ≤ 2
  · exact Or.inl ((h.hinge_side ⟨hkey, by rw [ht]; rfl⟩).1 r h2)
  · refine (h.hin_traction hk0 p q key hkey e ht nu hn r hr).imp id fun h3 t ht => ?_
    rw [if_neg (by omega), if_neg (by omega), add_zero, add_zero]
    exact h3 t ht

/-- work of the membrane forces on the slopes of two modes -/
theorem squeeze_geometric (a b : ℝ) (p q p' q' : ℕ) : plateGeometric unitSquare (fun _ => exIso) (squeezeX a) (squeezeY b) (hinX p q) (hinY p q) (hinX p' q') (hinY p' q') =
    -∫ x in unitSquare, (a * (hinX p q 2 x * hinX p' q' 2 x) + b * (hinY p q 2 x * hinY p' q' 2 x)) := by
  unfold plateGeometric
  rw [← integral_neg]
  congr 1
  funext x
  rw [(squeeze_membrane a b x).1, (squeeze_membrane a b x).2.1, (squeeze_membrane a b x).2.2]
  ring

/-- a non-negative continuous function that is positive somewhere inside the square -/
theorem square_pos {f : ℝ × ℝ → ℝ} (hf : Continuous f) (h0 : ∀ x, 0 ≤ f x) {x : ℝ × ℝ} (hx : x ∈ interior unitSquare) (hfx : f x ≠ 0) : 0 < ∫ x in unitSquare, f x := by
  have hcO : IsCompact unitSquare := isCompact_Icc.prod isCompact_Icc
  rw [setIntegral_pos_iff_support_of_nonneg_ae (Eventually.of_forall h0) (hf.continuousOn.integrableOn_compact hcO)]
  have ev : ∀ᶠ y in nhds x, f y ≠ 0 ∧ y ∈ unitSquare := (hf.continuousAt.eventually_ne hfx).and (mem_interior_iff_mem_nhds.1 hx)
  exact Measure.measure_pos_of_mem_nhds _ (x := x) (ev.mono fun y hy => ⟨hy.1, hy.2⟩)

end Meshless
