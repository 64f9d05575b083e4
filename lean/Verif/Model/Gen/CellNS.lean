import Mathlib.Algebra.Field.Defs
import Mathlib.Data.Rat.Cast.Defs

/-! GENERATED by /verif/tools/gen.py from meshless/espim/plate2d_add_k0s_cell_based_no_smoothing.py, function `add_k0s`, lines 62-142.
Do not edit: re-run the generator. -/

namespace Meshless

/-- The local variables read by `add_k0s` in meshless/espim/plate2d_add_k0s_cell_based_no_smoothing.py:62-142. -/
structure CellNSEnv (K : Type*) where
  (i1 i2 i3 : ℤ)
  (Ac E44 E45 E55 a1 b1 c1 d1 : K)

variable {K : Type*} [Add K] [Sub K] [Mul K] [Div K] [Neg K] [OfNat K 2] [OfNat K 4] [OfNat K 8]

/-- meshless/espim/plate2d_add_k0s_cell_based_no_smoothing.py:62-70 -/
def cellNS_i1_2 (e : CellNSEnv K) : List (ℤ × ℤ × K) := [
  (e.i1 * 5 + 2, e.i1 * 5 + 2, (-e.a1 + e.c1) * (e.E45 * (e.b1 / 2 - e.d1 / 2) + e.E55 * (-e.a1 / 2 + e.c1 / 2)) / (2 * e.Ac) + (e.b1 - e.d1) * (e.E44 * (e.b1 / 2 - e.d1 / 2) + e.E45 * (-e.a1 / 2 + e.c1 / 2)) / (2 * e.Ac)),
  (e.i1 * 5 + 2, e.i1 * 5 + 3, e.E44 * (e.b1 / 2 - e.d1 / 2) / 2 + e.E45 * (-e.a1 / 2 + e.c1 / 2) / 2),
  (e.i1 * 5 + 2, e.i1 * 5 + 4, e.E45 * (e.b1 / 2 - e.d1 / 2) / 2 + e.E55 * (-e.a1 / 2 + e.c1 / 2) / 2),
  (e.i1 * 5 + 2, e.i2 * 5 + 2, -e.c1 * (e.E45 * (e.b1 / 2 - e.d1 / 2) + e.E55 * (-e.a1 / 2 + e.c1 / 2)) / (2 * e.Ac) + e.d1 * (e.E44 * (e.b1 / 2 - e.d1 / 2) + e.E45 * (-e.a1 / 2 + e.c1 / 2)) / (2 * e.Ac)),
  (e.i1 * 5 + 2, e.i2 * 5 + 3, -e.a1 * e.c1 * (e.E45 * (e.b1 / 2 - e.d1 / 2) + e.E55 * (-e.a1 / 2 + e.c1 / 2)) / (4 * e.Ac) + e.a1 * e.d1 * (e.E44 * (e.b1 / 2 - e.d1 / 2) + e.E45 * (-e.a1 / 2 + e.c1 / 2)) / (4 * e.Ac)),
  (e.i1 * 5 + 2, e.i2 * 5 + 4, -e.b1 * e.c1 * (e.E45 * (e.b1 / 2 - e.d1 / 2) + e.E55 * (-e.a1 / 2 + e.c1 / 2)) / (4 * e.Ac) + e.b1 * e.d1 * (e.E44 * (e.b1 / 2 - e.d1 / 2) + e.E45 * (-e.a1 / 2 + e.c1 / 2)) / (4 * e.Ac)),
  (e.i1 * 5 + 2, e.i3 * 5 + 2, e.a1 * (e.E45 * (e.b1 / 2 - e.d1 / 2) + e.E55 * (-e.a1 / 2 + e.c1 / 2)) / (2 * e.Ac) - e.b1 * (e.E44 * (e.b1 / 2 - e.d1 / 2) + e.E45 * (-e.a1 / 2 + e.c1 / 2)) / (2 * e.Ac)),
  (e.i1 * 5 + 2, e.i3 * 5 + 3, e.a1 * e.c1 * (e.E45 * (e.b1 / 2 - e.d1 / 2) + e.E55 * (-e.a1 / 2 + e.c1 / 2)) / (4 * e.Ac) - e.b1 * e.c1 * (e.E44 * (e.b1 / 2 - e.d1 / 2) + e.E45 * (-e.a1 / 2 + e.c1 / 2)) / (4 * e.Ac)),
  (e.i1 * 5 + 2, e.i3 * 5 + 4, e.a1 * e.d1 * (e.E45 * (e.b1 / 2 - e.d1 / 2) + e.E55 * (-e.a1 / 2 + e.c1 / 2)) / (4 * e.Ac) - e.b1 * e.d1 * (e.E44 * (e.b1 / 2 - e.d1 / 2) + e.E45 * (-e.a1 / 2 + e.c1 / 2)) / (4 * e.Ac))]

/-- meshless/espim/plate2d_add_k0s_cell_based_no_smoothing.py:71-79 -/
def cellNS_i1_3 (e : CellNSEnv K) : List (ℤ × ℤ × K) := [
  (e.i1 * 5 + 3, e.i1 * 5 + 2, e.E44 * (e.b1 - e.d1) / 4 + e.E45 * (-e.a1 + e.c1) / 4),
  (e.i1 * 5 + 3, e.i1 * 5 + 3, e.Ac * e.E44 / 4),
  (e.i1 * 5 + 3, e.i1 * 5 + 4, e.Ac * e.E45 / 4),
  (e.i1 * 5 + 3, e.i2 * 5 + 2, e.E44 * e.d1 / 4 - e.E45 * e.c1 / 4),
  (e.i1 * 5 + 3, e.i2 * 5 + 3, e.E44 * e.a1 * e.d1 / 8 - e.E45 * e.a1 * e.c1 / 8),
  (e.i1 * 5 + 3, e.i2 * 5 + 4, e.E44 * e.b1 * e.d1 / 8 - e.E45 * e.b1 * e.c1 / 8),
  (e.i1 * 5 + 3, e.i3 * 5 + 2, -e.E44 * e.b1 / 4 + e.E45 * e.a1 / 4),
  (e.i1 * 5 + 3, e.i3 * 5 + 3, -e.E44 * e.b1 * e.c1 / 8 + e.E45 * e.a1 * e.c1 / 8),
  (e.i1 * 5 + 3, e.i3 * 5 + 4, -e.E44 * e.b1 * e.d1 / 8 + e.E45 * e.a1 * e.d1 / 8)]

/-- meshless/espim/plate2d_add_k0s_cell_based_no_smoothing.py:80-88 -/
def cellNS_i1_4 (e : CellNSEnv K) : List (ℤ × ℤ × K) := [
  (e.i1 * 5 + 4, e.i1 * 5 + 2, e.E45 * (e.b1 - e.d1) / 4 + e.E55 * (-e.a1 + e.c1) / 4),
  (e.i1 * 5 + 4, e.i1 * 5 + 3, e.Ac * e.E45 / 4),
  (e.i1 * 5 + 4, e.i1 * 5 + 4, e.Ac * e.E55 / 4),
  (e.i1 * 5 + 4, e.i2 * 5 + 2, e.E45 * e.d1 / 4 - e.E55 * e.c1 / 4),
  (e.i1 * 5 + 4, e.i2 * 5 + 3, e.E45 * e.a1 * e.d1 / 8 - e.E55 * e.a1 * e.c1 / 8),
  (e.i1 * 5 + 4, e.i2 * 5 + 4, e.E45 * e.b1 * e.d1 / 8 - e.E55 * e.b1 * e.c1 / 8),
  (e.i1 * 5 + 4, e.i3 * 5 + 2, -e.E45 * e.b1 / 4 + e.E55 * e.a1 / 4),
  (e.i1 * 5 + 4, e.i3 * 5 + 3, -e.E45 * e.b1 * e.c1 / 8 + e.E55 * e.a1 * e.c1 / 8),
  (e.i1 * 5 + 4, e.i3 * 5 + 4, -e.E45 * e.b1 * e.d1 / 8 + e.E55 * e.a1 * e.d1 / 8)]

/-- meshless/espim/plate2d_add_k0s_cell_based_no_smoothing.py:89-97 -/
def cellNS_i2_2 (e : CellNSEnv K) : List (ℤ × ℤ × K) := [
  (e.i2 * 5 + 2, e.i1 * 5 + 2, (-e.a1 + e.c1) * (e.E45 * e.d1 / 2 - e.E55 * e.c1 / 2) / (2 * e.Ac) + (e.b1 - e.d1) * (e.E44 * e.d1 / 2 - e.E45 * e.c1 / 2) / (2 * e.Ac)),
  (e.i2 * 5 + 2, e.i1 * 5 + 3, e.E44 * e.d1 / 4 - e.E45 * e.c1 / 4),
  (e.i2 * 5 + 2, e.i1 * 5 + 4, e.E45 * e.d1 / 4 - e.E55 * e.c1 / 4),
  (e.i2 * 5 + 2, e.i2 * 5 + 2, -e.c1 * (e.E45 * e.d1 / 2 - e.E55 * e.c1 / 2) / (2 * e.Ac) + e.d1 * (e.E44 * e.d1 / 2 - e.E45 * e.c1 / 2) / (2 * e.Ac)),
  (e.i2 * 5 + 2, e.i2 * 5 + 3, -e.a1 * e.c1 * (e.E45 * e.d1 / 2 - e.E55 * e.c1 / 2) / (4 * e.Ac) + e.a1 * e.d1 * (e.E44 * e.d1 / 2 - e.E45 * e.c1 / 2) / (4 * e.Ac)),
  (e.i2 * 5 + 2, e.i2 * 5 + 4, -e.b1 * e.c1 * (e.E45 * e.d1 / 2 - e.E55 * e.c1 / 2) / (4 * e.Ac) + e.b1 * e.d1 * (e.E44 * e.d1 / 2 - e.E45 * e.c1 / 2) / (4 * e.Ac)),
  (e.i2 * 5 + 2, e.i3 * 5 + 2, e.a1 * (e.E45 * e.d1 / 2 - e.E55 * e.c1 / 2) / (2 * e.Ac) - e.b1 * (e.E44 * e.d1 / 2 - e.E45 * e.c1 / 2) / (2 * e.Ac)),
  (e.i2 * 5 + 2, e.i3 * 5 + 3, e.a1 * e.c1 * (e.E45 * e.d1 / 2 - e.E55 * e.c1 / 2) / (4 * e.Ac) - e.b1 * e.c1 * (e.E44 * e.d1 / 2 - e.E45 * e.c1 / 2) / (4 * e.Ac)),
  (e.i2 * 5 + 2, e.i3 * 5 + 4, e.a1 * e.d1 * (e.E45 * e.d1 / 2 - e.E55 * e.c1 / 2) / (4 * e.Ac) - e.b1 * e.d1 * (e.E44 * e.d1 / 2 - e.E45 * e.c1 / 2) / (4 * e.Ac))]

/-- meshless/espim/plate2d_add_k0s_cell_based_no_smoothing.py:98-106 -/
def cellNS_i2_3 (e : CellNSEnv K) : List (ℤ × ℤ × K) := [
  (e.i2 * 5 + 3, e.i1 * 5 + 2, (-e.a1 + e.c1) * (e.E45 * e.a1 * e.d1 / 4 - e.E55 * e.a1 * e.c1 / 4) / (2 * e.Ac) + (e.b1 - e.d1) * (e.E44 * e.a1 * e.d1 / 4 - e.E45 * e.a1 * e.c1 / 4) / (2 * e.Ac)),
  (e.i2 * 5 + 3, e.i1 * 5 + 3, e.E44 * e.a1 * e.d1 / 8 - e.E45 * e.a1 * e.c1 / 8),
  (e.i2 * 5 + 3, e.i1 * 5 + 4, e.E45 * e.a1 * e.d1 / 8 - e.E55 * e.a1 * e.c1 / 8),
  (e.i2 * 5 + 3, e.i2 * 5 + 2, -e.c1 * (e.E45 * e.a1 * e.d1 / 4 - e.E55 * e.a1 * e.c1 / 4) / (2 * e.Ac) + e.d1 * (e.E44 * e.a1 * e.d1 / 4 - e.E45 * e.a1 * e.c1 / 4) / (2 * e.Ac)),
  (e.i2 * 5 + 3, e.i2 * 5 + 3, -e.a1 * e.c1 * (e.E45 * e.a1 * e.d1 / 4 - e.E55 * e.a1 * e.c1 / 4) / (4 * e.Ac) + e.a1 * e.d1 * (e.E44 * e.a1 * e.d1 / 4 - e.E45 * e.a1 * e.c1 / 4) / (4 * e.Ac)),
  (e.i2 * 5 + 3, e.i2 * 5 + 4, -e.b1 * e.c1 * (e.E45 * e.a1 * e.d1 / 4 - e.E55 * e.a1 * e.c1 / 4) / (4 * e.Ac) + e.b1 * e.d1 * (e.E44 * e.a1 * e.d1 / 4 - e.E45 * e.a1 * e.c1 / 4) / (4 * e.Ac)),
  (e.i2 * 5 + 3, e.i3 * 5 + 2, e.a1 * (e.E45 * e.a1 * e.d1 / 4 - e.E55 * e.a1 * e.c1 / 4) / (2 * e.Ac) - e.b1 * (e.E44 * e.a1 * e.d1 / 4 - e.E45 * e.a1 * e.c1 / 4) / (2 * e.Ac)),
  (e.i2 * 5 + 3, e.i3 * 5 + 3, e.a1 * e.c1 * (e.E45 * e.a1 * e.d1 / 4 - e.E55 * e.a1 * e.c1 / 4) / (4 * e.Ac) - e.b1 * e.c1 * (e.E44 * e.a1 * e.d1 / 4 - e.E45 * e.a1 * e.c1 / 4) / (4 * e.Ac)),
  (e.i2 * 5 + 3, e.i3 * 5 + 4, e.a1 * e.d1 * (e.E45 * e.a1 * e.d1 / 4 - e.E55 * e.a1 * e.c1 / 4) / (4 * e.Ac) - e.b1 * e.d1 * (e.E44 * e.a1 * e.d1 / 4 - e.E45 * e.a1 * e.c1 / 4) / (4 * e.Ac))]

/-- meshless/espim/plate2d_add_k0s_cell_based_no_smoothing.py:107-115 -/
def cellNS_i2_4 (e : CellNSEnv K) : List (ℤ × ℤ × K) := [
  (e.i2 * 5 + 4, e.i1 * 5 + 2, (-e.a1 + e.c1) * (e.E45 * e.b1 * e.d1 / 4 - e.E55 * e.b1 * e.c1 / 4) / (2 * e.Ac) + (e.b1 - e.d1) * (e.E44 * e.b1 * e.d1 / 4 - e.E45 * e.b1 * e.c1 / 4) / (2 * e.Ac)),
  (e.i2 * 5 + 4, e.i1 * 5 + 3, e.E44 * e.b1 * e.d1 / 8 - e.E45 * e.b1 * e.c1 / 8),
  (e.i2 * 5 + 4, e.i1 * 5 + 4, e.E45 * e.b1 * e.d1 / 8 - e.E55 * e.b1 * e.c1 / 8),
  (e.i2 * 5 + 4, e.i2 * 5 + 2, -e.c1 * (e.E45 * e.b1 * e.d1 / 4 - e.E55 * e.b1 * e.c1 / 4) / (2 * e.Ac) + e.d1 * (e.E44 * e.b1 * e.d1 / 4 - e.E45 * e.b1 * e.c1 / 4) / (2 * e.Ac)),
  (e.i2 * 5 + 4, e.i2 * 5 + 3, -e.a1 * e.c1 * (e.E45 * e.b1 * e.d1 / 4 - e.E55 * e.b1 * e.c1 / 4) / (4 * e.Ac) + e.a1 * e.d1 * (e.E44 * e.b1 * e.d1 / 4 - e.E45 * e.b1 * e.c1 / 4) / (4 * e.Ac)),
  (e.i2 * 5 + 4, e.i2 * 5 + 4, -e.b1 * e.c1 * (e.E45 * e.b1 * e.d1 / 4 - e.E55 * e.b1 * e.c1 / 4) / (4 * e.Ac) + e.b1 * e.d1 * (e.E44 * e.b1 * e.d1 / 4 - e.E45 * e.b1 * e.c1 / 4) / (4 * e.Ac)),
  (e.i2 * 5 + 4, e.i3 * 5 + 2, e.a1 * (e.E45 * e.b1 * e.d1 / 4 - e.E55 * e.b1 * e.c1 / 4) / (2 * e.Ac) - e.b1 * (e.E44 * e.b1 * e.d1 / 4 - e.E45 * e.b1 * e.c1 / 4) / (2 * e.Ac)),
  (e.i2 * 5 + 4, e.i3 * 5 + 3, e.a1 * e.c1 * (e.E45 * e.b1 * e.d1 / 4 - e.E55 * e.b1 * e.c1 / 4) / (4 * e.Ac) - e.b1 * e.c1 * (e.E44 * e.b1 * e.d1 / 4 - e.E45 * e.b1 * e.c1 / 4) / (4 * e.Ac)),
  (e.i2 * 5 + 4, e.i3 * 5 + 4, e.a1 * e.d1 * (e.E45 * e.b1 * e.d1 / 4 - e.E55 * e.b1 * e.c1 / 4) / (4 * e.Ac) - e.b1 * e.d1 * (e.E44 * e.b1 * e.d1 / 4 - e.E45 * e.b1 * e.c1 / 4) / (4 * e.Ac))]

/-- meshless/espim/plate2d_add_k0s_cell_based_no_smoothing.py:116-124 -/
def cellNS_i3_2 (e : CellNSEnv K) : List (ℤ × ℤ × K) := [
  (e.i3 * 5 + 2, e.i1 * 5 + 2, (-e.a1 + e.c1) * (-e.E45 * e.b1 / 2 + e.E55 * e.a1 / 2) / (2 * e.Ac) + (e.b1 - e.d1) * (-e.E44 * e.b1 / 2 + e.E45 * e.a1 / 2) / (2 * e.Ac)),
  (e.i3 * 5 + 2, e.i1 * 5 + 3, -e.E44 * e.b1 / 4 + e.E45 * e.a1 / 4),
  (e.i3 * 5 + 2, e.i1 * 5 + 4, -e.E45 * e.b1 / 4 + e.E55 * e.a1 / 4),
  (e.i3 * 5 + 2, e.i2 * 5 + 2, -e.c1 * (-e.E45 * e.b1 / 2 + e.E55 * e.a1 / 2) / (2 * e.Ac) + e.d1 * (-e.E44 * e.b1 / 2 + e.E45 * e.a1 / 2) / (2 * e.Ac)),
  (e.i3 * 5 + 2, e.i2 * 5 + 3, -e.a1 * e.c1 * (-e.E45 * e.b1 / 2 + e.E55 * e.a1 / 2) / (4 * e.Ac) + e.a1 * e.d1 * (-e.E44 * e.b1 / 2 + e.E45 * e.a1 / 2) / (4 * e.Ac)),
  (e.i3 * 5 + 2, e.i2 * 5 + 4, -e.b1 * e.c1 * (-e.E45 * e.b1 / 2 + e.E55 * e.a1 / 2) / (4 * e.Ac) + e.b1 * e.d1 * (-e.E44 * e.b1 / 2 + e.E45 * e.a1 / 2) / (4 * e.Ac)),
  (e.i3 * 5 + 2, e.i3 * 5 + 2, e.a1 * (-e.E45 * e.b1 / 2 + e.E55 * e.a1 / 2) / (2 * e.Ac) - e.b1 * (-e.E44 * e.b1 / 2 + e.E45 * e.a1 / 2) / (2 * e.Ac)),
  (e.i3 * 5 + 2, e.i3 * 5 + 3, e.a1 * e.c1 * (-e.E45 * e.b1 / 2 + e.E55 * e.a1 / 2) / (4 * e.Ac) - e.b1 * e.c1 * (-e.E44 * e.b1 / 2 + e.E45 * e.a1 / 2) / (4 * e.Ac)),
  (e.i3 * 5 + 2, e.i3 * 5 + 4, e.a1 * e.d1 * (-e.E45 * e.b1 / 2 + e.E55 * e.a1 / 2) / (4 * e.Ac) - e.b1 * e.d1 * (-e.E44 * e.b1 / 2 + e.E45 * e.a1 / 2) / (4 * e.Ac))]

/-- meshless/espim/plate2d_add_k0s_cell_based_no_smoothing.py:125-133 -/
def cellNS_i3_3 (e : CellNSEnv K) : List (ℤ × ℤ × K) := [
  (e.i3 * 5 + 3, e.i1 * 5 + 2, (-e.a1 + e.c1) * (-e.E45 * e.b1 * e.c1 / 4 + e.E55 * e.a1 * e.c1 / 4) / (2 * e.Ac) + (e.b1 - e.d1) * (-e.E44 * e.b1 * e.c1 / 4 + e.E45 * e.a1 * e.c1 / 4) / (2 * e.Ac)),
  (e.i3 * 5 + 3, e.i1 * 5 + 3, -e.E44 * e.b1 * e.c1 / 8 + e.E45 * e.a1 * e.c1 / 8),
  (e.i3 * 5 + 3, e.i1 * 5 + 4, -e.E45 * e.b1 * e.c1 / 8 + e.E55 * e.a1 * e.c1 / 8),
  (e.i3 * 5 + 3, e.i2 * 5 + 2, -e.c1 * (-e.E45 * e.b1 * e.c1 / 4 + e.E55 * e.a1 * e.c1 / 4) / (2 * e.Ac) + e.d1 * (-e.E44 * e.b1 * e.c1 / 4 + e.E45 * e.a1 * e.c1 / 4) / (2 * e.Ac)),
  (e.i3 * 5 + 3, e.i2 * 5 + 3, -e.a1 * e.c1 * (-e.E45 * e.b1 * e.c1 / 4 + e.E55 * e.a1 * e.c1 / 4) / (4 * e.Ac) + e.a1 * e.d1 * (-e.E44 * e.b1 * e.c1 / 4 + e.E45 * e.a1 * e.c1 / 4) / (4 * e.Ac)),
  (e.i3 * 5 + 3, e.i2 * 5 + 4, -e.b1 * e.c1 * (-e.E45 * e.b1 * e.c1 / 4 + e.E55 * e.a1 * e.c1 / 4) / (4 * e.Ac) + e.b1 * e.d1 * (-e.E44 * e.b1 * e.c1 / 4 + e.E45 * e.a1 * e.c1 / 4) / (4 * e.Ac)),
  (e.i3 * 5 + 3, e.i3 * 5 + 2, e.a1 * (-e.E45 * e.b1 * e.c1 / 4 + e.E55 * e.a1 * e.c1 / 4) / (2 * e.Ac) - e.b1 * (-e.E44 * e.b1 * e.c1 / 4 + e.E45 * e.a1 * e.c1 / 4) / (2 * e.Ac)),
  (e.i3 * 5 + 3, e.i3 * 5 + 3, e.a1 * e.c1 * (-e.E45 * e.b1 * e.c1 / 4 + e.E55 * e.a1 * e.c1 / 4) / (4 * e.Ac) - e.b1 * e.c1 * (-e.E44 * e.b1 * e.c1 / 4 + e.E45 * e.a1 * e.c1 / 4) / (4 * e.Ac)),
  (e.i3 * 5 + 3, e.i3 * 5 + 4, e.a1 * e.d1 * (-e.E45 * e.b1 * e.c1 / 4 + e.E55 * e.a1 * e.c1 / 4) / (4 * e.Ac) - e.b1 * e.d1 * (-e.E44 * e.b1 * e.c1 / 4 + e.E45 * e.a1 * e.c1 / 4) / (4 * e.Ac))]

/-- meshless/espim/plate2d_add_k0s_cell_based_no_smoothing.py:134-142 -/
def cellNS_i3_4 (e : CellNSEnv K) : List (ℤ × ℤ × K) := [
  (e.i3 * 5 + 4, e.i1 * 5 + 2, (-e.a1 + e.c1) * (-e.E45 * e.b1 * e.d1 / 4 + e.E55 * e.a1 * e.d1 / 4) / (2 * e.Ac) + (e.b1 - e.d1) * (-e.E44 * e.b1 * e.d1 / 4 + e.E45 * e.a1 * e.d1 / 4) / (2 * e.Ac)),
  (e.i3 * 5 + 4, e.i1 * 5 + 3, -e.E44 * e.b1 * e.d1 / 8 + e.E45 * e.a1 * e.d1 / 8),
  (e.i3 * 5 + 4, e.i1 * 5 + 4, -e.E45 * e.b1 * e.d1 / 8 + e.E55 * e.a1 * e.d1 / 8),
  (e.i3 * 5 + 4, e.i2 * 5 + 2, -e.c1 * (-e.E45 * e.b1 * e.d1 / 4 + e.E55 * e.a1 * e.d1 / 4) / (2 * e.Ac) + e.d1 * (-e.E44 * e.b1 * e.d1 / 4 + e.E45 * e.a1 * e.d1 / 4) / (2 * e.Ac)),
  (e.i3 * 5 + 4, e.i2 * 5 + 3, -e.a1 * e.c1 * (-e.E45 * e.b1 * e.d1 / 4 + e.E55 * e.a1 * e.d1 / 4) / (4 * e.Ac) + e.a1 * e.d1 * (-e.E44 * e.b1 * e.d1 / 4 + e.E45 * e.a1 * e.d1 / 4) / (4 * e.Ac)),
  (e.i3 * 5 + 4, e.i2 * 5 + 4, -e.b1 * e.c1 * (-e.E45 * e.b1 * e.d1 / 4 + e.E55 * e.a1 * e.d1 / 4) / (4 * e.Ac) + e.b1 * e.d1 * (-e.E44 * e.b1 * e.d1 / 4 + e.E45 * e.a1 * e.d1 / 4) / (4 * e.Ac)),
  (e.i3 * 5 + 4, e.i3 * 5 + 2, e.a1 * (-e.E45 * e.b1 * e.d1 / 4 + e.E55 * e.a1 * e.d1 / 4) / (2 * e.Ac) - e.b1 * (-e.E44 * e.b1 * e.d1 / 4 + e.E45 * e.a1 * e.d1 / 4) / (2 * e.Ac)),
  (e.i3 * 5 + 4, e.i3 * 5 + 3, e.a1 * e.c1 * (-e.E45 * e.b1 * e.d1 / 4 + e.E55 * e.a1 * e.d1 / 4) / (4 * e.Ac) - e.b1 * e.c1 * (-e.E44 * e.b1 * e.d1 / 4 + e.E45 * e.a1 * e.d1 / 4) / (4 * e.Ac)),
  (e.i3 * 5 + 4, e.i3 * 5 + 4, e.a1 * e.d1 * (-e.E45 * e.b1 * e.d1 / 4 + e.E55 * e.a1 * e.d1 / 4) / (4 * e.Ac) - e.b1 * e.d1 * (-e.E44 * e.b1 * e.d1 / 4 + e.E45 * e.a1 * e.d1 / 4) / (4 * e.Ac))]

/-- All increments, in program order. meshless/espim/plate2d_add_k0s_cell_based_no_smoothing.py:62-142 -/
def cellNSEntries (e : CellNSEnv K) : List (ℤ × ℤ × K) :=
  cellNS_i1_2 e ++ cellNS_i1_3 e ++ cellNS_i1_4 e ++ cellNS_i2_2 e ++ cellNS_i2_3 e ++ cellNS_i2_4 e ++ cellNS_i3_2 e ++ cellNS_i3_3 e ++ cellNS_i3_4 e

end Meshless
