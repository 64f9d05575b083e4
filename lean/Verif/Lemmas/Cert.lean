import Verif.Model.Float
import Verif.Spec.Float
import Mathlib.Tactic.Ring
import Mathlib.Tactic.GCongr

/-! An algebra of certified pairs: computed value, exact value, magnitude, number of roundings. A formula that is generic in its
number type, evaluated at certified pairs, carries its own error bound. -/

set_option autoImplicit false

namespace Meshless

section
variable {v : ℝ}

theorem inv_one_le (h0 : 0 ≤ v) (h1 : v < 1) : 1 ≤ (1 - v)⁻¹ := (one_le_inv₀ (by linarith)).2 (by linarith)

theorem gam_zero : gam v 0 = 0 := by simp [gam]

theorem gam_nonneg (h0 : 0 ≤ v) (h1 : v < 1) (k : ℕ) : 0 ≤ gam v k := by
  have := one_le_pow₀ (inv_one_le h0 h1) (n := k); unfold gam; linarith

theorem gam_mono (h0 : 0 ≤ v) (h1 : v < 1) {j k : ℕ} (h : j ≤ k) : gam v j ≤ gam v k := by
  have := pow_le_pow_right₀ (inv_one_le h0 h1) h; unfold gam; linarith

theorem gam_add (j k : ℕ) : gam v (j + k) = (1 + gam v j) * (1 + gam v k) - 1 := by unfold gam; ring

theorem le_gam_one (h0 : 0 ≤ v) (h1 : v < 1) : v ≤ gam v 1 := by
  unfold gam
  have h : 0 < 1 - v := by linarith
  rw [pow_one, ← sub_nonneg, show (1 - v)⁻¹ - 1 - v = v ^ 2 / (1 - v) by field_simp; ring]
  positivity

/-- `gam` grows at most like `k*v`: with `2*k*v ≤ 1` it is at most `2*k*v`. -/
theorem gam_le (h0 : 0 ≤ v) {k : ℕ} (hk : 2 * k * v ≤ 1) (h1 : v < 1) : gam v k ≤ 2 * k * v := by
  have hb : 1 - k * v ≤ (1 - v) ^ k := by
    have := one_add_mul_le_pow (a := -v) (by linarith) k
    have h2 : (1 : ℝ) + k * -v = 1 - k * v := by ring
    rw [h2, ← sub_eq_add_neg] at this; exact this
  have hp : (0:ℝ) ≤ k * v := by positivity
  have hpos : (0:ℝ) < 1 - k * v := by linarith
  unfold gam
  rw [inv_pow]
  have : ((1 - v) ^ k)⁻¹ ≤ (1 - k * v)⁻¹ := inv_anti₀ hpos hb
  have h3 : (1 - k * v : ℝ)⁻¹ ≤ 1 + 2 * k * v := by
    rw [inv_le_comm₀ hpos (by linarith), inv_eq_one_div, div_le_iff₀ (by linarith)]
    nlinarith
  linarith

end

/-- A certified pair for the rounding `R` and the roundoff `v`. -/
structure Cert (R : Rounding) (v : ℝ) where
  /-- value computed with rounding -/
  c : ℝ
  /-- exact value -/
  e : ℝ
  /-- magnitude: the same expression with absolute values and without cancellation -/
  M : ℝ
  /-- number of roundings along the longest path -/
  k : ℕ
  /-- the pair is certified -/
  ok : Bool
  /-- the computed value is accurate relative to the exact one, which is not zero -/
  rel : Bool
  hM : 0 ≤ M
  h : ok = true → |e| ≤ M ∧ |c - e| ≤ gam v k * M
  hr : rel = true → ok = true ∧ M = |e| ∧ e ≠ 0 ∧ ∃ ρ : ℝ, c = e * ρ ∧ (1 - v) ^ k ≤ ρ ∧ ρ ≤ ((1 - v)⁻¹) ^ k

/-- The side conditions on the roundoff. -/
class RoundOK (R : Rounding) (v : ℝ) : Prop where
  le : R.u ≤ v
  lt : v < 1

namespace Rounding
variable (R : Rounding)

theorem fl_zero : R.fl 0 = 0 := by
  have := R.err 0; simp at this; exact this

theorem fl_factor (x : ℝ) : ∃ δ, |δ| ≤ R.u ∧ R.fl x = x * (1 + δ) := by
  rcases eq_or_ne x 0 with rfl | h
  · exact ⟨0, by simpa using R.u_nonneg, by simp [R.fl_zero]⟩
  · refine ⟨(R.fl x - x) / x, ?_, by field_simp; ring⟩
    rw [abs_div, div_le_iff₀ (abs_pos.2 h)]; exact R.err x

theorem fl_eq_zero {x : ℝ} : R.fl x = 0 ↔ x = 0 := by
  constructor
  · intro h
    have h1 := R.err x
    rw [h] at h1; simp at h1
    by_contra hx
    have := abs_pos.2 hx
    nlinarith [R.u_lt]
  · rintro rfl; exact R.fl_zero

end Rounding

namespace Cert
variable {R : Rounding} {v : ℝ} [hv : RoundOK R v]

omit hv in
theorem v_nonneg' (hv : RoundOK R v) : 0 ≤ v := R.u_nonneg.trans hv.le

/-- one rounding: factor between `1-v` and `1/(1-v)` -/
theorem factor (x : ℝ) : ∃ ρ, R.fl x = x * ρ ∧ 1 - v ≤ ρ ∧ ρ ≤ (1 - v)⁻¹ := by
  obtain ⟨δ, hd, h⟩ := R.fl_factor x
  have h0 := v_nonneg' hv
  have hl := hv.lt
  have := abs_le.1 hd
  refine ⟨1 + δ, h, by linarith [hv.le], ?_⟩
  have h2 : v ≤ gam v 1 := le_gam_one h0 hl
  unfold gam at h2; rw [pow_one] at h2
  linarith [hv.le]

/-- the error after one more rounding -/
theorem round_err {s e M : ℝ} {k : ℕ} (hM : |e| ≤ M) (h : |s - e| ≤ gam v k * M) :
    |R.fl s - e| ≤ gam v (k + 1) * M := by
  have h0 := v_nonneg' hv
  have hl := hv.lt
  have hg := gam_nonneg h0 hl k
  have hM0 : 0 ≤ M := (abs_nonneg e).trans hM
  have h1 : |R.fl s - s| ≤ v * |s| := (R.err s).trans (mul_le_mul_of_nonneg_right hv.le (abs_nonneg s))
  have h2 : |s| ≤ (1 + gam v k) * M := by
    have : |s| ≤ |s - e| + |e| := by simpa using abs_add_le (s - e) e
    linarith
  have h3 : |R.fl s - e| ≤ |R.fl s - s| + |s - e| := abs_sub_le _ _ _
  have h4 : v * |s| ≤ gam v 1 * ((1 + gam v k) * M) := mul_le_mul (le_gam_one h0 hl) h2 (abs_nonneg s) (gam_nonneg h0 hl 1)
  rw [gam_add k 1]
  nlinarith

omit hv in
/-- a factor between `(1-v)^k` and `(1-v)^-k` differs from 1 by at most `gam v k` -/
theorem factor_err (h0 : 0 ≤ v) (hl : v < 1) {k : ℕ} {ρ : ℝ} (h1 : (1 - v) ^ k ≤ ρ) (h2 : ρ ≤ ((1 - v)⁻¹) ^ k) : |ρ - 1| ≤ gam v k := by
  rw [abs_le]
  refine ⟨?_, by unfold gam; linarith⟩
  unfold gam
  have hx : 0 < (1 - v) ^ k := pow_pos (by linarith) k
  have : (1 - v) ^ k + ((1 - v)⁻¹) ^ k ≥ 2 := by
    rw [inv_pow]
    have : ((1 - v) ^ k) * ((1 - v) ^ k)⁻¹ = 1 := mul_inv_cancel₀ hx.ne'
    have hy : 0 < ((1 - v) ^ k)⁻¹ := inv_pos.2 hx
    nlinarith [sq_nonneg ((1 - v) ^ k - ((1 - v) ^ k)⁻¹)]
  linarith

/-- `bif` maximum, cheap to evaluate -/
def mx (a b : ℕ) : ℕ := bif Nat.ble a b then b else a
omit hv in
theorem le_mx_left (a b : ℕ) : a ≤ mx a b := by
  unfold mx; cases h : Nat.ble a b <;> simp_all
omit hv in
theorem le_mx_right (a b : ℕ) : b ≤ mx a b := by
  unfold mx; cases h : Nat.ble a b
  · simp
    by_contra hh
    have : Nat.ble a b = true := by rw [Nat.ble_eq]; omega
    simp_all
  · simp

omit hv in
theorem sum_err (h0 : 0 ≤ v) (hl : v < 1) {a b ea eb Ma Mb : ℝ} {j k : ℕ} (h1 : |ea| ≤ Ma) (h2 : |a - ea| ≤ gam v j * Ma) (h3 : |eb| ≤ Mb)
    (h4 : |b - eb| ≤ gam v k * Mb) : |a + b - (ea + eb)| ≤ gam v (mx j k) * (Ma + Mb) := by
  have g1 := gam_mono h0 hl (le_mx_left j k)
  have g2 := gam_mono h0 hl (le_mx_right j k)
  have p1 : 0 ≤ Ma := (abs_nonneg _).trans h1
  have p2 : 0 ≤ Mb := (abs_nonneg _).trans h3
  have : |a + b - (ea + eb)| ≤ |a - ea| + |b - eb| := by
    have := abs_add_le (a - ea) (b - eb); rwa [show a - ea + (b - eb) = a + b - (ea + eb) by ring] at this
  nlinarith

/-- rounded sum -/
noncomputable instance : Add (Cert R v) := ⟨fun a b =>
  { c := R.fl (a.c + b.c), e := a.e + b.e, M := a.M + b.M, k := mx a.k b.k + 1, ok := a.ok && b.ok, rel := false
    hM := add_nonneg a.hM b.hM
    h := fun h => by
      simp only [Bool.and_eq_true] at h
      have h1 := a.h h.1
      have h2 := b.h h.2
      have hm : |a.e + b.e| ≤ a.M + b.M := (abs_add_le _ _).trans (add_le_add h1.1 h2.1)
      exact ⟨hm, round_err hm (sum_err (v_nonneg' hv) hv.lt h1.1 h1.2 h2.1 h2.2)⟩
    hr := fun h => by simp at h }⟩

/-- rounded difference -/
noncomputable instance : Sub (Cert R v) := ⟨fun a b =>
  { c := R.fl (a.c - b.c), e := a.e - b.e, M := a.M + b.M, k := mx a.k b.k + 1, ok := a.ok && b.ok, rel := false
    hM := add_nonneg a.hM b.hM
    h := fun h => by
      simp only [Bool.and_eq_true] at h
      have h1 := a.h h.1
      have h2 := b.h h.2
      have hm : |a.e - b.e| ≤ a.M + b.M := (abs_sub _ _).trans (add_le_add h1.1 h2.1)
      refine ⟨hm, round_err hm ?_⟩
      have := sum_err (v_nonneg' hv) hv.lt (a := a.c) (b := -b.c) (ea := a.e) (eb := -b.e) (Mb := b.M) (k := b.k) h1.1 h1.2 (by rw [abs_neg]; exact h2.1)
        (by rw [show -b.c - -b.e = -(b.c - b.e) by ring, abs_neg]; exact h2.2)
      rwa [← sub_eq_add_neg, ← sub_eq_add_neg] at this
    hr := fun h => by simp at h }⟩

/-- negation is exact -/
noncomputable instance : Neg (Cert R v) := ⟨fun a =>
  { c := -a.c, e := -a.e, M := a.M, k := a.k, ok := a.ok, rel := a.rel
    hM := a.hM
    h := fun h => by
      have h1 := a.h h
      rw [abs_neg, show -a.c - -a.e = -(a.c - a.e) by ring, abs_neg]
      exact h1
    hr := fun h => by
      obtain ⟨h1, h2, h3, ρ, h4, h5⟩ := a.hr h
      exact ⟨h1, by rw [abs_neg]; exact h2, neg_ne_zero.2 h3, ρ, by rw [h4]; ring, h5⟩ }⟩

omit hv in
theorem mul_err (h0 : 0 ≤ v) (hl : v < 1) {a b ea eb Ma Mb : ℝ} {j k : ℕ} (h1 : |ea| ≤ Ma) (h2 : |a - ea| ≤ gam v j * Ma) (h3 : |eb| ≤ Mb)
    (h4 : |b - eb| ≤ gam v k * Mb) : |a * b - ea * eb| ≤ gam v (j + k) * (Ma * Mb) := by
  have g1 := gam_nonneg h0 hl j
  have g2 := gam_nonneg h0 hl k
  have p1 : 0 ≤ Ma := (abs_nonneg _).trans h1
  have p2 : 0 ≤ Mb := (abs_nonneg _).trans h3
  have e1 : a * b - ea * eb = (a - ea) * (b - eb) + (a - ea) * eb + ea * (b - eb) := by ring
  have e2 : |(a - ea) * (b - eb)| ≤ (gam v j * Ma) * (gam v k * Mb) := by
    rw [abs_mul]; exact mul_le_mul h2 h4 (abs_nonneg _) (by positivity)
  have e3 : |(a - ea) * eb| ≤ (gam v j * Ma) * Mb := by
    rw [abs_mul]; exact mul_le_mul h2 h3 (abs_nonneg _) (by positivity)
  have e4 : |ea * (b - eb)| ≤ Ma * (gam v k * Mb) := by
    rw [abs_mul]; exact mul_le_mul h1 h4 (abs_nonneg _) p1
  rw [e1, gam_add]
  have := abs_add_le ((a - ea) * (b - eb) + (a - ea) * eb) (ea * (b - eb))
  have := abs_add_le ((a - ea) * (b - eb)) ((a - ea) * eb)
  nlinarith

omit hv in
theorem pow_prod (h0 : 0 ≤ v) (hl : v < 1) {j k : ℕ} {r s t : ℝ} (h1 : (1 - v) ^ j ≤ r) (h2 : r ≤ ((1 - v)⁻¹) ^ j)
    (h3 : (1 - v) ^ k ≤ s) (h4 : s ≤ ((1 - v)⁻¹) ^ k) (h5 : 1 - v ≤ t) (h6 : t ≤ (1 - v)⁻¹) :
    (1 - v) ^ (j + k + 1) ≤ r * s * t ∧ r * s * t ≤ ((1 - v)⁻¹) ^ (j + k + 1) := by
  have hx : 0 < 1 - v := by linarith
  have hj : 0 < (1 - v) ^ j := pow_pos hx j
  have hk : 0 < (1 - v) ^ k := pow_pos hx k
  have hr : 0 < r := by linarith
  have hs : 0 < s := by linarith
  have ht : 0 < t := by linarith
  constructor
  · rw [pow_succ, pow_add]
    exact mul_le_mul (mul_le_mul h1 h3 hk.le hr.le) h5 hx.le (by positivity)
  · rw [pow_succ, pow_add]
    exact mul_le_mul (mul_le_mul h2 h4 hs.le (by positivity)) h6 ht.le (by positivity)

/-- rounded product -/
noncomputable instance : Mul (Cert R v) := ⟨fun a b =>
  { c := R.fl (a.c * b.c), e := a.e * b.e, M := a.M * b.M, k := a.k + b.k + 1, ok := a.ok && b.ok, rel := a.rel && b.rel
    hM := mul_nonneg a.hM b.hM
    h := fun h => by
      simp only [Bool.and_eq_true] at h
      have h1 := a.h h.1
      have h2 := b.h h.2
      have hm : |a.e * b.e| ≤ a.M * b.M := by rw [abs_mul]; exact mul_le_mul h1.1 h2.1 (abs_nonneg _) a.hM
      exact ⟨hm, round_err hm (mul_err (v_nonneg' hv) hv.lt h1.1 h1.2 h2.1 h2.2)⟩
    hr := fun h => by
      simp only [Bool.and_eq_true] at h
      obtain ⟨a1, a2, a3, ρ, a4, a5, a6⟩ := a.hr h.1
      obtain ⟨b1, b2, b3, σ, b4, b5, b6⟩ := b.hr h.2
      obtain ⟨τ, t1, t2, t3⟩ := factor (R := R) (v := v) (a.c * b.c)
      exact ⟨by simp [a1, b1], by rw [abs_mul, a2, b2], mul_ne_zero a3 b3, ρ * σ * τ, by rw [t1, a4, b4]; ring,
        pow_prod (v_nonneg' hv) hv.lt a5 a6 b5 b6 t2 t3⟩ }⟩

omit hv in
theorem inv_factor (h0 : 0 ≤ v) (hl : v < 1) {k : ℕ} {ρ : ℝ} (h1 : (1 - v) ^ k ≤ ρ) (h2 : ρ ≤ ((1 - v)⁻¹) ^ k) :
    (1 - v) ^ k ≤ ρ⁻¹ ∧ ρ⁻¹ ≤ ((1 - v)⁻¹) ^ k := by
  have hx : 0 < (1 - v) ^ k := pow_pos (by linarith) k
  have hr : 0 < ρ := by linarith
  rw [inv_pow] at *
  exact ⟨by rwa [le_inv_comm₀ hx hr], inv_anti₀ hx h1⟩

/-- rounded quotient; certified only when the divisor is accurate relative to its exact value -/
noncomputable instance : Div (Cert R v) := ⟨fun a b =>
  { c := R.fl (a.c / b.c), e := a.e / b.e, M := a.M / b.M, k := a.k + b.k + 1, ok := a.ok && b.rel, rel := a.rel && b.rel
    hM := div_nonneg a.hM b.hM
    h := fun h => by
      simp only [Bool.and_eq_true] at h
      have h1 := a.h h.1
      obtain ⟨b1, b2, b3, σ, b4, b5, b6⟩ := b.hr h.2
      have hb : 0 < |b.e| := abs_pos.2 b3
      have hm : |a.e / b.e| ≤ a.M / b.M := by rw [abs_div, b2]; exact div_le_div_of_nonneg_right h1.1 hb.le
      refine ⟨hm, round_err hm ?_⟩
      have hi := inv_factor (v_nonneg' hv) hv.lt b5 b6
      have := mul_err (v_nonneg' hv) hv.lt (a := a.c) (b := b.c⁻¹) (ea := a.e) (eb := b.e⁻¹) (Ma := a.M) (Mb := |b.e|⁻¹) (k := b.k) h1.1 h1.2 (by rw [abs_inv])
        (by
          rw [b4, mul_inv, show b.e⁻¹ * σ⁻¹ - b.e⁻¹ = (σ⁻¹ - 1) * b.e⁻¹ by ring, abs_mul, abs_inv]
          exact mul_le_mul_of_nonneg_right (factor_err (v_nonneg' hv) hv.lt hi.1 hi.2) (by positivity))
      rw [b2]; simpa only [div_eq_mul_inv] using this
    hr := fun h => by
      simp only [Bool.and_eq_true] at h
      obtain ⟨a1, a2, a3, ρ, a4, a5, a6⟩ := a.hr h.1
      obtain ⟨b1, b2, b3, σ, b4, b5, b6⟩ := b.hr h.2
      obtain ⟨τ, t1, t2, t3⟩ := factor (R := R) (v := v) (a.c / b.c)
      have hi := inv_factor (v_nonneg' hv) hv.lt b5 b6
      refine ⟨by simp [a1, h.2], by rw [abs_div, a2, b2], div_ne_zero a3 b3, ρ * σ⁻¹ * τ, ?_,
        pow_prod (v_nonneg' hv) hv.lt a5 a6 hi.1 hi.2 t2 t3⟩
      rw [t1, a4, b4, mul_div_mul_comm, div_eq_mul_inv ρ σ]; ring }⟩

/-- a non-zero number with relative accuracy given by its factor -/
noncomputable def ofRel (c e : ℝ) (k : ℕ) (he : e ≠ 0) (h : ∃ ρ : ℝ, c = e * ρ ∧ (1 - v) ^ k ≤ ρ ∧ ρ ≤ ((1 - v)⁻¹) ^ k) : Cert R v where
  c := c
  e := e
  M := |e|
  k := k
  ok := true
  rel := true
  hM := abs_nonneg e
  h := fun _ => by
    obtain ⟨ρ, h1, h2, h3⟩ := h
    refine ⟨le_rfl, ?_⟩
    rw [h1, show e * ρ - e = (ρ - 1) * e by ring, abs_mul]
    exact mul_le_mul_of_nonneg_right (factor_err (v_nonneg' hv) hv.lt h2 h3) (abs_nonneg e)
  hr := fun _ => ⟨rfl, rfl, he, h⟩

/-- a number with a given magnitude and error -/
def ofErr (c e M : ℝ) (k : ℕ) (h1 : |e| ≤ M) (h2 : |c - e| ≤ gam v k * M) : Cert R v where
  c := c
  e := e
  M := M
  k := k
  ok := true
  rel := false
  hM := (abs_nonneg e).trans h1
  h := fun _ => ⟨h1, h2⟩
  hr := fun h => by simp at h

/-- `ofErr` for data given by `Near` -/
def ofNear {τ : ℝ} (hτ : 0 ≤ τ) (j : ℕ) (a b : ℝ) (h : Near v j τ a b) : Cert R v :=
  ofErr a b (|b| + τ) j (by linarith) h

/-- `ofRel` for data given by `RelNear` -/
noncomputable def ofRelNear (j : ℕ) {a b : ℝ} (h : RelNear v j a b) : Cert R v := ofRel a b j h.1 h.2

/-- a non-zero literal of the program: rounded once -/
noncomputable def lit (x : ℝ) (h : x ≠ 0) : Cert R v := ofRel (R.fl x) x 1 h (by
  obtain ⟨ρ, h1, h2, h3⟩ := factor (R := R) (v := v) x
  exact ⟨ρ, h1, by simpa using h2, by simpa using h3⟩)

noncomputable instance : OfNat (Cert R v) 1 := ⟨lit 1 one_ne_zero⟩
noncomputable instance : OfNat (Cert R v) 2 := ⟨lit 2 two_ne_zero⟩
noncomputable instance : OfNat (Cert R v) 4 := ⟨lit 4 four_ne_zero⟩
noncomputable instance : OfNat (Cert R v) 8 := ⟨lit 8 (by norm_num)⟩
/-- decimal literals are not used as divisors -/
noncomputable instance : OfScientific (Cert R v) := ⟨fun m s e =>
  ofErr (R.fl (OfScientific.ofScientific m s e : ℝ)) (OfScientific.ofScientific m s e : ℝ) |(OfScientific.ofScientific m s e : ℝ)| 1 le_rfl (by
    have h : |(OfScientific.ofScientific m s e : ℝ) - (OfScientific.ofScientific m s e : ℝ)| ≤ gam v 0 * |(OfScientific.ofScientific m s e : ℝ)| := by simp [gam_zero]
    exact round_err le_rfl h)⟩

/-- the counter and the flags of a certified pair -/
structure Cnt where
  k : ℕ
  ok : Bool
  rel : Bool

namespace Cnt
instance : Add Cnt := ⟨fun a b => ⟨mx a.k b.k + 1, a.ok && b.ok, false⟩⟩
instance : Sub Cnt := ⟨fun a b => ⟨mx a.k b.k + 1, a.ok && b.ok, false⟩⟩
instance : Neg Cnt := ⟨fun a => a⟩
instance : Mul Cnt := ⟨fun a b => ⟨a.k + b.k + 1, a.ok && b.ok, a.rel && b.rel⟩⟩
instance : Div Cnt := ⟨fun a b => ⟨a.k + b.k + 1, a.ok && b.rel, a.rel && b.rel⟩⟩
instance : OfNat Cnt 1 := ⟨⟨1, true, true⟩⟩
instance : OfNat Cnt 2 := ⟨⟨1, true, true⟩⟩
instance : OfNat Cnt 4 := ⟨⟨1, true, true⟩⟩
instance : OfNat Cnt 8 := ⟨⟨1, true, true⟩⟩
instance : OfScientific Cnt := ⟨fun _ _ _ => ⟨1, true, false⟩⟩
end Cnt

/-- the counter and the flags of a certified pair -/
def cnt (a : Cert R v) : Cnt := ⟨a.k, a.ok, a.rel⟩

theorem of_cnt {l : List (ℤ × ℤ × Cert R v)} {l' : List (ℤ × ℤ × Cnt)} {K : ℕ} (h : l.map (fun t => t.2.2.cnt) = l'.map fun t => t.2.2)
    (hb : l'.all (fun t => t.2.2.ok && Nat.ble t.2.2.k K) = true) {t : ℤ × ℤ × Cert R v} (ht : t ∈ l) : t.2.2.ok = true ∧ t.2.2.k ≤ K := by
  have h1 : t.2.2.cnt ∈ l.map (fun t => t.2.2.cnt) := List.mem_map_of_mem ht
  rw [h] at h1
  obtain ⟨s, hs, h2⟩ := List.mem_map.1 h1
  have := List.all_eq_true.1 hb s hs
  rw [Bool.and_eq_true, Nat.ble_eq, h2] at this
  exact this

end Cert
end Meshless
