import Verif.Lemmas.Utils
import Verif.Model.Logger
import Mathlib.Tactic.NormNum
import Mathlib.Tactic.Positivity
import Mathlib.Tactic.FieldSimp

/-! C57 (area_of_polygon), C58 (unitvec), C65 (logger). -/

set_option autoImplicit false

namespace Meshless
open Spec

/-! ### C57 -/

/-- C57: for at least two vertices `area_of_polygon` returns half the absolute shoelace sum. -/
theorem C57_area_is_shoelace (x y : List ℝ) (hxy : x.length = y.length) (hn : 2 ≤ x.length) :
    areaOfPolygon x y = .ok (|shoelace x y| / 2) := areaOfPolygon_ok hxy hn

/-- the unit square, meeting the hypotheses of all C57 theorems -/
example : areaOfPolygon [0, 1, 1, 0] [0, 0, 1, 1] = .ok 1 := by
  rw [C57_area_is_shoelace _ _ (by simp) (by simp)]
  simp [shoelace, Finset.sum_range_succ]
  norm_num

/-- C57: fewer vertices: the empty polygon has area 0, a single vertex raises IndexError. -/
theorem C57_area_short (a b : ℝ) : areaOfPolygon [] [] = .ok 0 ∧ areaOfPolygon [a] [b] = .error .indexError := by
  constructor <;> simp [areaOfPolygon, areaLoop, pyGet, pyIdx, List.range_succ]

/-- C57: translation of the polygon does not change the area. -/
theorem C57_area_translate (x y : List ℝ) (hxy : x.length = y.length) (hn : 2 ≤ x.length) (a b : ℝ) :
    areaOfPolygon (x.map (· + a)) (y.map (· + b)) = areaOfPolygon x y := by
  rw [areaOfPolygon_ok hxy hn, areaOfPolygon_ok (by simpa using hxy) (by simpa using hn), shoelace_translate x y hxy]

/-- C57: starting the vertex list at another vertex does not change the area. -/
theorem C57_area_rotate (x y : List ℝ) (hxy : x.length = y.length) (hn : 2 ≤ x.length) (k : ℕ) :
    areaOfPolygon (x.rotate k) (y.rotate k) = areaOfPolygon x y := by
  rw [areaOfPolygon_ok hxy hn, areaOfPolygon_ok (by simpa using hxy) (by simpa using hn), shoelace_rotate k x y hxy]

/-- C57: the orientation of the vertex list does not matter. -/
theorem C57_area_reverse (x y : List ℝ) (hxy : x.length = y.length) (hn : 2 ≤ x.length) :
    areaOfPolygon x.reverse y.reverse = areaOfPolygon x y := by
  rw [areaOfPolygon_ok hxy hn, areaOfPolygon_ok (by simpa using hxy) (by simpa using hn), shoelace_reverse x y hxy, abs_neg]

/-- C57: swapping the axes does not change the area. -/
theorem C57_area_swap (x y : List ℝ) (hxy : x.length = y.length) (hn : 2 ≤ x.length) :
    areaOfPolygon y x = areaOfPolygon x y := by
  rw [areaOfPolygon_ok hxy hn, areaOfPolygon_ok hxy.symm (by omega), shoelace_swap x y hxy, abs_neg]

/-- C57: scaling by `s` scales the area by `s^2`. -/
theorem C57_area_scale (x y : List ℝ) (hxy : x.length = y.length) (hn : 2 ≤ x.length) (s : ℝ) :
    areaOfPolygon (x.map (s * ·)) (y.map (s * ·)) = .ok (s ^ 2 * (|shoelace x y| / 2)) := by
  rw [areaOfPolygon_ok (by simpa using hxy) (by simpa using hn), shoelace_scale, abs_mul, abs_mul_self]
  congr 1; ring

/-! ### C58 -/

/-- C58: `unitvec v` has Euclidean norm 1 and is a positive multiple of `v`. -/
theorem C58_unitvec (v : Vec3) (hv : v ≠ ⟨0, 0, 0⟩) :
    (unitvec v).x ^ 2 + (unitvec v).y ^ 2 + (unitvec v).z ^ 2 = 1 ∧ ∃ c : ℝ, 0 < c ∧ unitvec v = Vec3.smul c v := by
  have hpos : 0 < v.x ^ 2 + v.y ^ 2 + v.z ^ 2 := by
    by_contra h
    apply hv
    have hx : v.x = 0 := by nlinarith [sq_nonneg v.x, sq_nonneg v.y, sq_nonneg v.z]
    have hy : v.y = 0 := by nlinarith [sq_nonneg v.x, sq_nonneg v.y, sq_nonneg v.z]
    have hz : v.z = 0 := by nlinarith [sq_nonneg v.x, sq_nonneg v.y, sq_nonneg v.z]
    exact Vec3.ext hx hy hz
  have hn : 0 < v.norm := Real.sqrt_pos.mpr hpos
  have hsq : v.norm ^ 2 = v.x ^ 2 + v.y ^ 2 + v.z ^ 2 := Real.sq_sqrt hpos.le
  constructor
  · simp only [unitvec, div_pow]
    rw [← add_div, ← add_div, ← hsq, div_self (by positivity)]
  · refine ⟨1 / v.norm, by positivity, ?_⟩
    ext <;> simp only [unitvec, Vec3.smul] <;> ring

/-- a non-trivial instance: (3, 4, 0) -/
example : unitvec ⟨3, 4, 0⟩ = ⟨3/5, 4/5, 0⟩ := by
  have : Vec3.norm ⟨3, 4, 0⟩ = 5 := by
    simp only [Vec3.norm]
    rw [show (3:ℝ)^2 + 4^2 + 0^2 = 5^2 by norm_num, Real.sqrt_sq (by norm_num)]
  simp [unitvec, this]
example : (⟨3, 4, 0⟩ : Vec3) ≠ ⟨0, 0, 0⟩ := by intro h; have := congrArg Vec3.x h; norm_num at this

/-! ### C65 -/

/-- C65 (msg): returns the text; prints it once, after `level` tabs, exactly when not silent. -/
theorem C65_msg (m : String) (level : ℕ) (silent : Bool) :
    (logMsg m level silent).ret = m ∧
    (silent = true → (logMsg m level silent).printed = []) ∧
    (silent = false → (logMsg m level silent).printed = [String.ofList (List.replicate level '\t') ++ m]) := by
  refine ⟨rfl, ?_, ?_⟩ <;> rintro rfl <;> simp [logMsg, tabbed]

/-- C65 (warn) -/
theorem C65_warn (m : String) (level : ℕ) (silent : Bool) :
    (logWarn m level silent).ret = "WARNING: " ++ m ∧
    (silent = true → (logWarn m level silent).printed = []) ∧
    (silent = false → (logWarn m level silent).printed = [String.ofList (List.replicate level '\t') ++ ("WARNING: " ++ m)]) := by
  refine ⟨rfl, ?_, ?_⟩ <;> rintro rfl <;> simp [logWarn, tabbed]

/-- C65 (error) -/
theorem C65_error (m : String) (level : ℕ) (silent : Bool) :
    (logError m level silent).ret = "ERROR: " ++ m ∧
    (silent = true → (logError m level silent).printed = []) ∧
    (silent = false → (logError m level silent).printed = [String.ofList (List.replicate level '\t') ++ ("ERROR: " ++ m)]) := by
  refine ⟨rfl, ?_, ?_⟩ <;> rintro rfl <;> simp [logError, tabbed]

/-- concrete cases -/
example : (logWarn "x" 2 false).printed = ["\t\tWARNING: x"] := by decide
example : (logMsg "x" (-1) false).printed = ["x"] := by decide

end Meshless
