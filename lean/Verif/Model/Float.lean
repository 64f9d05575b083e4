import Mathlib.Analysis.Real.Sqrt
import Mathlib.Data.Int.Log
import Mathlib.Algebra.Order.Round
import Mathlib.Tactic.Linarith
import Mathlib.Tactic.FieldSimp
import Mathlib.Tactic.Positivity

/-! Rounded arithmetic. Every number of the code is a `float64`: the result of `+`, `-`, `*`, `/`, `sqrt` is the exact result
rounded to a neighbouring floating-point number (IEEE 754), `-x` and `abs` are exact. What is not modelled: overflow, underflow,
infinities and NaN, i.e. the exponent range is unbounded. -/

set_option autoImplicit false

namespace Meshless

/-- A rounding rule: `fl x` is the floating-point number returned for the exact value `x`, with relative error at most the unit
roundoff `u`; numbers that are representable (`fl x = x`) include all results, 1 and the negatives of representable numbers. Every
IEEE 754 rounding mode without overflow and underflow is of this form. Not code of the package but the arithmetic it runs on. -/
structure Rounding where
  u : ℝ
  fl : ℝ → ℝ
  u_nonneg : 0 ≤ u
  u_lt : u < 1
  err : ∀ x, |fl x - x| ≤ u * |x|
  idem : ∀ x, fl (fl x) = fl x
  fl_one : fl 1 = 1
  fl_negRep : ∀ x, fl x = x → fl (-x) = -x

namespace Rounding

/-- `a + b` in float64 -/
def add (R : Rounding) (a b : ℝ) : ℝ := R.fl (a + b)
/-- `a - b` in float64 -/
def sub (R : Rounding) (a b : ℝ) : ℝ := R.fl (a - b)
/-- `a * b` in float64 -/
def mul (R : Rounding) (a b : ℝ) : ℝ := R.fl (a * b)
/-- `a / b` in float64 for `b ≠ 0` -/
noncomputable def div (R : Rounding) (a b : ℝ) : ℝ := R.fl (a / b)
/-- `np.sqrt(a)` and `a**0.5` in float64 for `a ≥ 0` -/
noncomputable def sqrt (R : Rounding) (a : ℝ) : ℝ := R.fl (Real.sqrt a)

/-- No rounding: the arithmetic of the exact model. -/
def exact : Rounding where
  u := 0
  fl := id
  u_nonneg := le_rfl
  u_lt := one_pos
  err x := by simp
  idem _ := rfl
  fl_one := rfl
  fl_negRep _ _ := rfl

end Rounding

/-- A real number on which `+`, `-`, `*`, `/` are the rounded operations of `R`. The generated formulas (Model/Gen) are evaluated at this type;
a literal of the program is rounded. -/
def Fl (_ : Rounding) := ℝ

namespace Fl
variable {R : Rounding}
instance : Add (Fl R) := ⟨fun a b => R.add a b⟩
instance : Sub (Fl R) := ⟨fun a b => R.sub a b⟩
instance : Mul (Fl R) := ⟨fun a b => R.mul a b⟩
noncomputable instance : Div (Fl R) := ⟨fun a b => R.div a b⟩
noncomputable instance : Neg (Fl R) := ⟨fun a => -(show ℝ from a)⟩
instance : OfNat (Fl R) 1 := ⟨R.fl 1⟩
instance : OfNat (Fl R) 2 := ⟨R.fl 2⟩
instance : OfNat (Fl R) 4 := ⟨R.fl 4⟩
instance : OfNat (Fl R) 8 := ⟨R.fl 8⟩
noncomputable instance : OfScientific (Fl R) := ⟨fun m s e => R.fl (OfScientific.ofScientific m s e : ℝ)⟩
end Fl

/-- Nearest integer, ties to even. -/
noncomputable def rne (z : ℝ) : ℤ :=
  if z - ⌊z⌋ < 1/2 then ⌊z⌋ else if 1/2 < z - ⌊z⌋ then ⌊z⌋ + 1 else if Even ⌊z⌋ then ⌊z⌋ else ⌊z⌋ + 1

/-- float64 (binary64) round to nearest, ties to even, with unbounded exponent: 53 significant bits. -/
noncomputable def fl64 (x : ℝ) : ℝ := (rne (x / (2:ℝ) ^ (Int.log 2 |x| - 52)) : ℝ) * (2:ℝ) ^ (Int.log 2 |x| - 52)

theorem rne_err (z : ℝ) : |(rne z : ℝ) - z| ≤ 1/2 := by
  have h1 := Int.floor_le z
  have h2 := Int.lt_floor_add_one z
  unfold rne
  split_ifs with h h' h'' <;> push_cast <;> rw [abs_le] <;> constructor <;> linarith

theorem two_zpow_pos (e : ℤ) : (0:ℝ) < 2 ^ e := zpow_pos (by norm_num) e

theorem rne_int (n : ℤ) : rne (n : ℝ) = n := by simp [rne]

theorem rne_neg_int_cast (n : ℤ) : rne (-(n : ℝ)) = -n := by
  have := rne_int (-n); push_cast at this; exact this

theorem pow_log_le {x : ℝ} (hx : x ≠ 0) : (2:ℝ) ^ (Int.log 2 |x|) ≤ |x| := by
  have := Int.zpow_log_le_self (b := 2) (by norm_num) (abs_pos.2 hx); exact_mod_cast this

theorem lt_pow_log (x : ℝ) : |x| < (2:ℝ) ^ (Int.log 2 |x| + 1) := by
  have := Int.lt_zpow_succ_log_self (b := 2) (by norm_num) |x|; exact_mod_cast this

theorem fl64_zero : fl64 0 = 0 := by simp [fl64, rne]

theorem fl64_err (x : ℝ) : |fl64 x - x| ≤ (2:ℝ)⁻¹ ^ 53 * |x| := by
  rcases eq_or_ne x 0 with rfl | hx
  · simp [fl64_zero]
  set e := Int.log 2 |x| - 52 with he
  have hp : (0:ℝ) < 2 ^ e := two_zpow_pos e
  have h1 : fl64 x - x = ((rne (x / 2 ^ e) : ℝ) - x / 2 ^ e) * 2 ^ e := by
    rw [sub_mul, div_mul_cancel₀ _ hp.ne']; rfl
  have h2 := pow_log_le hx
  have h3 : (2:ℝ) ^ Int.log 2 |x| = 2 ^ e * 2 ^ 52 := by
    rw [show Int.log 2 |x| = e + 52 by omega, zpow_add₀ (by norm_num)]; norm_cast
  rw [h1, abs_mul, abs_of_pos hp]
  have := mul_le_mul_of_nonneg_right (rne_err (x / 2 ^ e)) hp.le
  have h5 : (2:ℝ)⁻¹ ^ 53 * (2 ^ e * 2 ^ 52) = 1/2 * 2 ^ e := by ring
  have h6 : (2:ℝ)⁻¹ ^ 53 * (2 ^ e * 2 ^ 52) ≤ (2:ℝ)⁻¹ ^ 53 * |x| := by
    apply mul_le_mul_of_nonneg_left _ (by positivity); rw [← h3]; exact h2
  linarith

/-- A number with at most 53 significant bits is not changed. -/
theorem fl64_rep (n : ℤ) (e : ℤ) (hn : |n| ≤ 2 ^ 53) : fl64 ((n : ℝ) * (2:ℝ) ^ e) = (n : ℝ) * (2:ℝ) ^ e := by
  rcases eq_or_ne n 0 with rfl | h0
  · simp [fl64_zero]
  set x : ℝ := (n : ℝ) * (2:ℝ) ^ e with hx
  have hx0 : x ≠ 0 := mul_ne_zero (by exact_mod_cast h0) (two_zpow_pos e).ne'
  set L := Int.log 2 |x| with hL
  have habs : |x| = |(n : ℝ)| * 2 ^ e := by rw [hx, abs_mul, abs_of_pos (two_zpow_pos e)]
  have hnr : |(n : ℝ)| ≤ 2 ^ (53 : ℤ) := by have : ((|n| : ℤ) : ℝ) ≤ ((2 ^ 53 : ℤ) : ℝ) := by exact_mod_cast hn
                                            push_cast at this; norm_cast at this ⊢
  have hle : L ≤ 53 + e := by
    have h1 : (2:ℝ) ^ L ≤ 2 ^ ((53:ℤ) + e) := by
      rw [zpow_add₀ (by norm_num)]
      refine (pow_log_le hx0).trans ?_
      rw [habs]; exact mul_le_mul_of_nonneg_right hnr (two_zpow_pos e).le
    exact (zpow_le_zpow_iff_right₀ (by norm_num : (1:ℝ) < 2)).1 h1
  have key : ∃ m : ℤ, x / (2:ℝ) ^ (L - 52) = m := by
    rcases eq_or_ne L (53 + e) with h | h
    · -- the largest case: a power of two
      have h2 : (2:ℝ) ^ L = |x| := by
        apply le_antisymm (pow_log_le hx0)
        rw [← hL, h, habs, zpow_add₀ (by norm_num)]
        exact mul_le_mul_of_nonneg_right hnr (two_zpow_pos e).le
      rcases abs_choice x with h3 | h3
      · refine ⟨2 ^ 52, ?_⟩
        rw [← h3, ← h2, ← zpow_sub₀ (by norm_num), show L - (L - 52) = 52 by ring]; norm_cast
      · refine ⟨-2 ^ 52, ?_⟩
        have h4 : x = -(2:ℝ) ^ L := by rw [h2, h3]; ring
        conv_lhs => rw [h4]
        rw [neg_div, ← zpow_sub₀ (by norm_num), show L - (L - 52) = 52 by ring]; norm_cast
    · have h5 : (0:ℤ) ≤ e - (L - 52) := by omega
      obtain ⟨j, hj⟩ := Int.eq_ofNat_of_zero_le h5
      refine ⟨n * 2 ^ j, ?_⟩
      rw [hx, mul_div_assoc, ← zpow_sub₀ (by norm_num), hj]; push_cast; norm_cast
  obtain ⟨m, hm⟩ := key
  have : fl64 x = (rne (x / (2:ℝ) ^ (L - 52)) : ℝ) * (2:ℝ) ^ (L - 52) := rfl
  rw [this, hm, rne_int, ← hm, div_mul_cancel₀ _ (two_zpow_pos _).ne']

theorem rne_le_of_le {z : ℝ} {n : ℤ} (h : z < n) : rne z ≤ n := by
  have h1 : ⌊z⌋ < n := Int.floor_lt.2 h
  unfold rne; split_ifs <;> omega

theorem le_rne_of_le {z : ℝ} {n : ℤ} (h : (n : ℝ) ≤ z) : n ≤ rne z := by
  have h1 : n ≤ ⌊z⌋ := Int.le_floor.2 h
  unfold rne; split_ifs <;> omega

theorem rne_abs_le {z : ℝ} {n : ℤ} (h : |z| < n) : |rne z| ≤ n := by
  rw [abs_lt] at h
  rw [abs_le]
  exact ⟨le_rne_of_le (by push_cast; linarith [h.1]), rne_le_of_le h.2⟩

/-- Results of `fl64` have the form `n * 2^e` with `|n| ≤ 2^53`. -/
theorem fl64_form (x : ℝ) : ∃ n e : ℤ, |n| ≤ 2 ^ 53 ∧ fl64 x = (n : ℝ) * (2:ℝ) ^ e := by
  refine ⟨_, _, rne_abs_le ?_, rfl⟩
  rw [abs_div, abs_of_pos (two_zpow_pos _), div_lt_iff₀ (two_zpow_pos _)]
  have := lt_pow_log x
  rw [show Int.log 2 |x| + 1 = 53 + (Int.log 2 |x| - 52) by ring, zpow_add₀ (by norm_num)] at this
  push_cast; norm_cast at this ⊢

/-- float64 with round to nearest, ties to even (the default of IEEE 754, Python and numpy), without overflow and underflow. -/
noncomputable def Rounding.binary64 : Rounding where
  u := (2:ℝ)⁻¹ ^ 53
  fl := fl64
  u_nonneg := by positivity
  u_lt := by norm_num
  err := fl64_err
  idem x := by obtain ⟨n, e, hn, h⟩ := fl64_form x; rw [h, fl64_rep n e hn]
  fl_one := by simpa using fl64_rep 1 0 (by norm_num)
  fl_negRep x hx := by
    obtain ⟨n, e, hn, h⟩ := fl64_form x
    rw [hx] at h
    have := fl64_rep (-n) e (by rwa [abs_neg])
    rw [h]; push_cast at this; rw [neg_mul] at this; exact this

end Meshless
