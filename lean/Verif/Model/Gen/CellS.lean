import Mathlib.Algebra.Field.Defs
import Mathlib.Data.Rat.Cast.Defs

/-! GENERATED by /verif/tools/gen.py from meshless/espim/plate2d_add_k0s_cell_based.py, function `add_k0s`, lines 94-174.
Do not edit: re-run the generator. -/

namespace Meshless

/-- The local variables read by `add_k0s` in meshless/espim/plate2d_add_k0s_cell_based.py:94-174. -/
structure CellSEnv (K : Type*) where
  (i1 i2 i3 : ℤ)
  (Ac Ac1 Ac2 Ac3 E44 E45 E55 a1 b1 c1 d1 a2 b2 c2 d2 a3 b3 c3 d3 : K)

variable {K : Type*} [Add K] [Sub K] [Mul K] [Div K] [Neg K] [OfNat K 2] [OfNat K 4] [OfScientific K]

/-- meshless/espim/plate2d_add_k0s_cell_based.py:94-102 -/
def cellS_i1_2 (e : CellSEnv K) : List (ℤ × ℤ × K) := [
  (e.i1 * 5 + 2, e.i1 * 5 + 2, (e.E44 * (e.Ac1 * (e.d1 / (2 * e.Ac1) + 0.166666666666667 * (e.b1 - e.d1) / e.Ac1) + e.Ac3 * (-e.b3 / (2 * e.Ac3) + 0.166666666666667 * (e.b3 - e.d3) / e.Ac3) + 0.166666666666667 * e.b2 - 0.166666666666667 * e.d2) + e.E45 * (e.Ac1 * (-e.c1 / (2 * e.Ac1) + 0.166666666666667 * (-e.a1 + e.c1) / e.Ac1) + e.Ac3 * (e.a3 / (2 * e.Ac3) + 0.166666666666667 * (-e.a3 + e.c3) / e.Ac3) - 0.166666666666667 * e.a2 + 0.166666666666667 * e.c2)) * (e.Ac1 * (e.d1 / (2 * e.Ac1) + 0.166666666666667 * (e.b1 - e.d1) / e.Ac1) + e.Ac3 * (-e.b3 / (2 * e.Ac3) + 0.166666666666667 * (e.b3 - e.d3) / e.Ac3) + 0.166666666666667 * e.b2 - 0.166666666666667 * e.d2) / e.Ac + (e.E45 * (e.Ac1 * (e.d1 / (2 * e.Ac1) + 0.166666666666667 * (e.b1 - e.d1) / e.Ac1) + e.Ac3 * (-e.b3 / (2 * e.Ac3) + 0.166666666666667 * (e.b3 - e.d3) / e.Ac3) + 0.166666666666667 * e.b2 - 0.166666666666667 * e.d2) + e.E55 * (e.Ac1 * (-e.c1 / (2 * e.Ac1) + 0.166666666666667 * (-e.a1 + e.c1) / e.Ac1) + e.Ac3 * (e.a3 / (2 * e.Ac3) + 0.166666666666667 * (-e.a3 + e.c3) / e.Ac3) - 0.166666666666667 * e.a2 + 0.166666666666667 * e.c2)) * (e.Ac1 * (-e.c1 / (2 * e.Ac1) + 0.166666666666667 * (-e.a1 + e.c1) / e.Ac1) + e.Ac3 * (e.a3 / (2 * e.Ac3) + 0.166666666666667 * (-e.a3 + e.c3) / e.Ac3) - 0.166666666666667 * e.a2 + 0.166666666666667 * e.c2) / e.Ac),
  (e.i1 * 5 + 2, e.i1 * 5 + 3, (e.E44 * (e.Ac1 * (e.d1 / (2 * e.Ac1) + 0.166666666666667 * (e.b1 - e.d1) / e.Ac1) + e.Ac3 * (-e.b3 / (2 * e.Ac3) + 0.166666666666667 * (e.b3 - e.d3) / e.Ac3) + 0.166666666666667 * e.b2 - 0.166666666666667 * e.d2) + e.E45 * (e.Ac1 * (-e.c1 / (2 * e.Ac1) + 0.166666666666667 * (-e.a1 + e.c1) / e.Ac1) + e.Ac3 * (e.a3 / (2 * e.Ac3) + 0.166666666666667 * (-e.a3 + e.c3) / e.Ac3) - 0.166666666666667 * e.a2 + 0.166666666666667 * e.c2)) * (e.Ac1 * (0.166666666666667 + e.a1 * e.d1 / (4 * e.Ac1)) + 0.166666666666667 * e.Ac2 + e.Ac3 * (0.166666666666667 - e.b3 * e.c3 / (4 * e.Ac3))) / e.Ac + (e.E45 * (e.Ac1 * (e.d1 / (2 * e.Ac1) + 0.166666666666667 * (e.b1 - e.d1) / e.Ac1) + e.Ac3 * (-e.b3 / (2 * e.Ac3) + 0.166666666666667 * (e.b3 - e.d3) / e.Ac3) + 0.166666666666667 * e.b2 - 0.166666666666667 * e.d2) + e.E55 * (e.Ac1 * (-e.c1 / (2 * e.Ac1) + 0.166666666666667 * (-e.a1 + e.c1) / e.Ac1) + e.Ac3 * (e.a3 / (2 * e.Ac3) + 0.166666666666667 * (-e.a3 + e.c3) / e.Ac3) - 0.166666666666667 * e.a2 + 0.166666666666667 * e.c2)) * (-e.a1 * e.c1 / 4 + e.a3 * e.c3 / 4) / e.Ac),
  (e.i1 * 5 + 2, e.i1 * 5 + 4, (e.E44 * (e.Ac1 * (e.d1 / (2 * e.Ac1) + 0.166666666666667 * (e.b1 - e.d1) / e.Ac1) + e.Ac3 * (-e.b3 / (2 * e.Ac3) + 0.166666666666667 * (e.b3 - e.d3) / e.Ac3) + 0.166666666666667 * e.b2 - 0.166666666666667 * e.d2) + e.E45 * (e.Ac1 * (-e.c1 / (2 * e.Ac1) + 0.166666666666667 * (-e.a1 + e.c1) / e.Ac1) + e.Ac3 * (e.a3 / (2 * e.Ac3) + 0.166666666666667 * (-e.a3 + e.c3) / e.Ac3) - 0.166666666666667 * e.a2 + 0.166666666666667 * e.c2)) * (e.b1 * e.d1 / 4 - e.b3 * e.d3 / 4) / e.Ac + (e.E45 * (e.Ac1 * (e.d1 / (2 * e.Ac1) + 0.166666666666667 * (e.b1 - e.d1) / e.Ac1) + e.Ac3 * (-e.b3 / (2 * e.Ac3) + 0.166666666666667 * (e.b3 - e.d3) / e.Ac3) + 0.166666666666667 * e.b2 - 0.166666666666667 * e.d2) + e.E55 * (e.Ac1 * (-e.c1 / (2 * e.Ac1) + 0.166666666666667 * (-e.a1 + e.c1) / e.Ac1) + e.Ac3 * (e.a3 / (2 * e.Ac3) + 0.166666666666667 * (-e.a3 + e.c3) / e.Ac3) - 0.166666666666667 * e.a2 + 0.166666666666667 * e.c2)) * (e.Ac1 * (0.166666666666667 - e.b1 * e.c1 / (4 * e.Ac1)) + 0.166666666666667 * e.Ac2 + e.Ac3 * (0.166666666666667 + e.a3 * e.d3 / (4 * e.Ac3))) / e.Ac),
  (e.i1 * 5 + 2, e.i2 * 5 + 2, (e.E44 * (e.Ac1 * (e.d1 / (2 * e.Ac1) + 0.166666666666667 * (e.b1 - e.d1) / e.Ac1) + e.Ac3 * (-e.b3 / (2 * e.Ac3) + 0.166666666666667 * (e.b3 - e.d3) / e.Ac3) + 0.166666666666667 * e.b2 - 0.166666666666667 * e.d2) + e.E45 * (e.Ac1 * (-e.c1 / (2 * e.Ac1) + 0.166666666666667 * (-e.a1 + e.c1) / e.Ac1) + e.Ac3 * (e.a3 / (2 * e.Ac3) + 0.166666666666667 * (-e.a3 + e.c3) / e.Ac3) - 0.166666666666667 * e.a2 + 0.166666666666667 * e.c2)) * (e.Ac1 * (-e.b1 / (2 * e.Ac1) + 0.166666666666667 * (e.b1 - e.d1) / e.Ac1) + e.Ac2 * (e.d2 / (2 * e.Ac2) + 0.166666666666667 * (e.b2 - e.d2) / e.Ac2) + 0.166666666666667 * e.b3 - 0.166666666666667 * e.d3) / e.Ac + (e.E45 * (e.Ac1 * (e.d1 / (2 * e.Ac1) + 0.166666666666667 * (e.b1 - e.d1) / e.Ac1) + e.Ac3 * (-e.b3 / (2 * e.Ac3) + 0.166666666666667 * (e.b3 - e.d3) / e.Ac3) + 0.166666666666667 * e.b2 - 0.166666666666667 * e.d2) + e.E55 * (e.Ac1 * (-e.c1 / (2 * e.Ac1) + 0.166666666666667 * (-e.a1 + e.c1) / e.Ac1) + e.Ac3 * (e.a3 / (2 * e.Ac3) + 0.166666666666667 * (-e.a3 + e.c3) / e.Ac3) - 0.166666666666667 * e.a2 + 0.166666666666667 * e.c2)) * (e.Ac1 * (e.a1 / (2 * e.Ac1) + 0.166666666666667 * (-e.a1 + e.c1) / e.Ac1) + e.Ac2 * (-e.c2 / (2 * e.Ac2) + 0.166666666666667 * (-e.a2 + e.c2) / e.Ac2) - 0.166666666666667 * e.a3 + 0.166666666666667 * e.c3) / e.Ac),
  (e.i1 * 5 + 2, e.i2 * 5 + 3, (e.E44 * (e.Ac1 * (e.d1 / (2 * e.Ac1) + 0.166666666666667 * (e.b1 - e.d1) / e.Ac1) + e.Ac3 * (-e.b3 / (2 * e.Ac3) + 0.166666666666667 * (e.b3 - e.d3) / e.Ac3) + 0.166666666666667 * e.b2 - 0.166666666666667 * e.d2) + e.E45 * (e.Ac1 * (-e.c1 / (2 * e.Ac1) + 0.166666666666667 * (-e.a1 + e.c1) / e.Ac1) + e.Ac3 * (e.a3 / (2 * e.Ac3) + 0.166666666666667 * (-e.a3 + e.c3) / e.Ac3) - 0.166666666666667 * e.a2 + 0.166666666666667 * e.c2)) * (e.Ac1 * (0.166666666666667 - e.b1 * e.c1 / (4 * e.Ac1)) + e.Ac2 * (0.166666666666667 + e.a2 * e.d2 / (4 * e.Ac2)) + 0.166666666666667 * e.Ac3) / e.Ac + (e.E45 * (e.Ac1 * (e.d1 / (2 * e.Ac1) + 0.166666666666667 * (e.b1 - e.d1) / e.Ac1) + e.Ac3 * (-e.b3 / (2 * e.Ac3) + 0.166666666666667 * (e.b3 - e.d3) / e.Ac3) + 0.166666666666667 * e.b2 - 0.166666666666667 * e.d2) + e.E55 * (e.Ac1 * (-e.c1 / (2 * e.Ac1) + 0.166666666666667 * (-e.a1 + e.c1) / e.Ac1) + e.Ac3 * (e.a3 / (2 * e.Ac3) + 0.166666666666667 * (-e.a3 + e.c3) / e.Ac3) - 0.166666666666667 * e.a2 + 0.166666666666667 * e.c2)) * (e.a1 * e.c1 / 4 - e.a2 * e.c2 / 4) / e.Ac),
  (e.i1 * 5 + 2, e.i2 * 5 + 4, (e.E44 * (e.Ac1 * (e.d1 / (2 * e.Ac1) + 0.166666666666667 * (e.b1 - e.d1) / e.Ac1) + e.Ac3 * (-e.b3 / (2 * e.Ac3) + 0.166666666666667 * (e.b3 - e.d3) / e.Ac3) + 0.166666666666667 * e.b2 - 0.166666666666667 * e.d2) + e.E45 * (e.Ac1 * (-e.c1 / (2 * e.Ac1) + 0.166666666666667 * (-e.a1 + e.c1) / e.Ac1) + e.Ac3 * (e.a3 / (2 * e.Ac3) + 0.166666666666667 * (-e.a3 + e.c3) / e.Ac3) - 0.166666666666667 * e.a2 + 0.166666666666667 * e.c2)) * (-e.b1 * e.d1 / 4 + e.b2 * e.d2 / 4) / e.Ac + (e.E45 * (e.Ac1 * (e.d1 / (2 * e.Ac1) + 0.166666666666667 * (e.b1 - e.d1) / e.Ac1) + e.Ac3 * (-e.b3 / (2 * e.Ac3) + 0.166666666666667 * (e.b3 - e.d3) / e.Ac3) + 0.166666666666667 * e.b2 - 0.166666666666667 * e.d2) + e.E55 * (e.Ac1 * (-e.c1 / (2 * e.Ac1) + 0.166666666666667 * (-e.a1 + e.c1) / e.Ac1) + e.Ac3 * (e.a3 / (2 * e.Ac3) + 0.166666666666667 * (-e.a3 + e.c3) / e.Ac3) - 0.166666666666667 * e.a2 + 0.166666666666667 * e.c2)) * (e.Ac1 * (0.166666666666667 + e.a1 * e.d1 / (4 * e.Ac1)) + e.Ac2 * (0.166666666666667 - e.b2 * e.c2 / (4 * e.Ac2)) + 0.166666666666667 * e.Ac3) / e.Ac),
  (e.i1 * 5 + 2, e.i3 * 5 + 2, (e.E44 * (e.Ac1 * (e.d1 / (2 * e.Ac1) + 0.166666666666667 * (e.b1 - e.d1) / e.Ac1) + e.Ac3 * (-e.b3 / (2 * e.Ac3) + 0.166666666666667 * (e.b3 - e.d3) / e.Ac3) + 0.166666666666667 * e.b2 - 0.166666666666667 * e.d2) + e.E45 * (e.Ac1 * (-e.c1 / (2 * e.Ac1) + 0.166666666666667 * (-e.a1 + e.c1) / e.Ac1) + e.Ac3 * (e.a3 / (2 * e.Ac3) + 0.166666666666667 * (-e.a3 + e.c3) / e.Ac3) - 0.166666666666667 * e.a2 + 0.166666666666667 * e.c2)) * (e.Ac2 * (-e.b2 / (2 * e.Ac2) + 0.166666666666667 * (e.b2 - e.d2) / e.Ac2) + e.Ac3 * (e.d3 / (2 * e.Ac3) + 0.166666666666667 * (e.b3 - e.d3) / e.Ac3) + 0.166666666666667 * e.b1 - 0.166666666666667 * e.d1) / e.Ac + (e.E45 * (e.Ac1 * (e.d1 / (2 * e.Ac1) + 0.166666666666667 * (e.b1 - e.d1) / e.Ac1) + e.Ac3 * (-e.b3 / (2 * e.Ac3) + 0.166666666666667 * (e.b3 - e.d3) / e.Ac3) + 0.166666666666667 * e.b2 - 0.166666666666667 * e.d2) + e.E55 * (e.Ac1 * (-e.c1 / (2 * e.Ac1) + 0.166666666666667 * (-e.a1 + e.c1) / e.Ac1) + e.Ac3 * (e.a3 / (2 * e.Ac3) + 0.166666666666667 * (-e.a3 + e.c3) / e.Ac3) - 0.166666666666667 * e.a2 + 0.166666666666667 * e.c2)) * (e.Ac2 * (e.a2 / (2 * e.Ac2) + 0.166666666666667 * (-e.a2 + e.c2) / e.Ac2) + e.Ac3 * (-e.c3 / (2 * e.Ac3) + 0.166666666666667 * (-e.a3 + e.c3) / e.Ac3) - 0.166666666666667 * e.a1 + 0.166666666666667 * e.c1) / e.Ac),
  (e.i1 * 5 + 2, e.i3 * 5 + 3, (e.E44 * (e.Ac1 * (e.d1 / (2 * e.Ac1) + 0.166666666666667 * (e.b1 - e.d1) / e.Ac1) + e.Ac3 * (-e.b3 / (2 * e.Ac3) + 0.166666666666667 * (e.b3 - e.d3) / e.Ac3) + 0.166666666666667 * e.b2 - 0.166666666666667 * e.d2) + e.E45 * (e.Ac1 * (-e.c1 / (2 * e.Ac1) + 0.166666666666667 * (-e.a1 + e.c1) / e.Ac1) + e.Ac3 * (e.a3 / (2 * e.Ac3) + 0.166666666666667 * (-e.a3 + e.c3) / e.Ac3) - 0.166666666666667 * e.a2 + 0.166666666666667 * e.c2)) * (0.166666666666667 * e.Ac1 + e.Ac2 * (0.166666666666667 - e.b2 * e.c2 / (4 * e.Ac2)) + e.Ac3 * (0.166666666666667 + e.a3 * e.d3 / (4 * e.Ac3))) / e.Ac + (e.E45 * (e.Ac1 * (e.d1 / (2 * e.Ac1) + 0.166666666666667 * (e.b1 - e.d1) / e.Ac1) + e.Ac3 * (-e.b3 / (2 * e.Ac3) + 0.166666666666667 * (e.b3 - e.d3) / e.Ac3) + 0.166666666666667 * e.b2 - 0.166666666666667 * e.d2) + e.E55 * (e.Ac1 * (-e.c1 / (2 * e.Ac1) + 0.166666666666667 * (-e.a1 + e.c1) / e.Ac1) + e.Ac3 * (e.a3 / (2 * e.Ac3) + 0.166666666666667 * (-e.a3 + e.c3) / e.Ac3) - 0.166666666666667 * e.a2 + 0.166666666666667 * e.c2)) * (e.a2 * e.c2 / 4 - e.a3 * e.c3 / 4) / e.Ac),
  (e.i1 * 5 + 2, e.i3 * 5 + 4, (e.E44 * (e.Ac1 * (e.d1 / (2 * e.Ac1) + 0.166666666666667 * (e.b1 - e.d1) / e.Ac1) + e.Ac3 * (-e.b3 / (2 * e.Ac3) + 0.166666666666667 * (e.b3 - e.d3) / e.Ac3) + 0.166666666666667 * e.b2 - 0.166666666666667 * e.d2) + e.E45 * (e.Ac1 * (-e.c1 / (2 * e.Ac1) + 0.166666666666667 * (-e.a1 + e.c1) / e.Ac1) + e.Ac3 * (e.a3 / (2 * e.Ac3) + 0.166666666666667 * (-e.a3 + e.c3) / e.Ac3) - 0.166666666666667 * e.a2 + 0.166666666666667 * e.c2)) * (-e.b2 * e.d2 / 4 + e.b3 * e.d3 / 4) / e.Ac + (e.E45 * (e.Ac1 * (e.d1 / (2 * e.Ac1) + 0.166666666666667 * (e.b1 - e.d1) / e.Ac1) + e.Ac3 * (-e.b3 / (2 * e.Ac3) + 0.166666666666667 * (e.b3 - e.d3) / e.Ac3) + 0.166666666666667 * e.b2 - 0.166666666666667 * e.d2) + e.E55 * (e.Ac1 * (-e.c1 / (2 * e.Ac1) + 0.166666666666667 * (-e.a1 + e.c1) / e.Ac1) + e.Ac3 * (e.a3 / (2 * e.Ac3) + 0.166666666666667 * (-e.a3 + e.c3) / e.Ac3) - 0.166666666666667 * e.a2 + 0.166666666666667 * e.c2)) * (0.166666666666667 * e.Ac1 + e.Ac2 * (0.166666666666667 + e.a2 * e.d2 / (4 * e.Ac2)) + e.Ac3 * (0.166666666666667 - e.b3 * e.c3 / (4 * e.Ac3))) / e.Ac)]

/-- meshless/espim/plate2d_add_k0s_cell_based.py:103-111 -/
def cellS_i1_3 (e : CellSEnv K) : List (ℤ × ℤ × K) := [
  (e.i1 * 5 + 3, e.i1 * 5 + 2, (e.E44 * (e.Ac1 * (0.166666666666667 + e.a1 * e.d1 / (4 * e.Ac1)) + 0.166666666666667 * e.Ac2 + e.Ac3 * (0.166666666666667 - e.b3 * e.c3 / (4 * e.Ac3))) + e.E45 * (-e.a1 * e.c1 / 4 + e.a3 * e.c3 / 4)) * (e.Ac1 * (e.d1 / (2 * e.Ac1) + 0.166666666666667 * (e.b1 - e.d1) / e.Ac1) + e.Ac3 * (-e.b3 / (2 * e.Ac3) + 0.166666666666667 * (e.b3 - e.d3) / e.Ac3) + 0.166666666666667 * e.b2 - 0.166666666666667 * e.d2) / e.Ac + (e.E45 * (e.Ac1 * (0.166666666666667 + e.a1 * e.d1 / (4 * e.Ac1)) + 0.166666666666667 * e.Ac2 + e.Ac3 * (0.166666666666667 - e.b3 * e.c3 / (4 * e.Ac3))) + e.E55 * (-e.a1 * e.c1 / 4 + e.a3 * e.c3 / 4)) * (e.Ac1 * (-e.c1 / (2 * e.Ac1) + 0.166666666666667 * (-e.a1 + e.c1) / e.Ac1) + e.Ac3 * (e.a3 / (2 * e.Ac3) + 0.166666666666667 * (-e.a3 + e.c3) / e.Ac3) - 0.166666666666667 * e.a2 + 0.166666666666667 * e.c2) / e.Ac),
  (e.i1 * 5 + 3, e.i1 * 5 + 3, (e.E44 * (e.Ac1 * (0.166666666666667 + e.a1 * e.d1 / (4 * e.Ac1)) + 0.166666666666667 * e.Ac2 + e.Ac3 * (0.166666666666667 - e.b3 * e.c3 / (4 * e.Ac3))) + e.E45 * (-e.a1 * e.c1 / 4 + e.a3 * e.c3 / 4)) * (e.Ac1 * (0.166666666666667 + e.a1 * e.d1 / (4 * e.Ac1)) + 0.166666666666667 * e.Ac2 + e.Ac3 * (0.166666666666667 - e.b3 * e.c3 / (4 * e.Ac3))) / e.Ac + (e.E45 * (e.Ac1 * (0.166666666666667 + e.a1 * e.d1 / (4 * e.Ac1)) + 0.166666666666667 * e.Ac2 + e.Ac3 * (0.166666666666667 - e.b3 * e.c3 / (4 * e.Ac3))) + e.E55 * (-e.a1 * e.c1 / 4 + e.a3 * e.c3 / 4)) * (-e.a1 * e.c1 / 4 + e.a3 * e.c3 / 4) / e.Ac),
  (e.i1 * 5 + 3, e.i1 * 5 + 4, (e.E44 * (e.Ac1 * (0.166666666666667 + e.a1 * e.d1 / (4 * e.Ac1)) + 0.166666666666667 * e.Ac2 + e.Ac3 * (0.166666666666667 - e.b3 * e.c3 / (4 * e.Ac3))) + e.E45 * (-e.a1 * e.c1 / 4 + e.a3 * e.c3 / 4)) * (e.b1 * e.d1 / 4 - e.b3 * e.d3 / 4) / e.Ac + (e.E45 * (e.Ac1 * (0.166666666666667 + e.a1 * e.d1 / (4 * e.Ac1)) + 0.166666666666667 * e.Ac2 + e.Ac3 * (0.166666666666667 - e.b3 * e.c3 / (4 * e.Ac3))) + e.E55 * (-e.a1 * e.c1 / 4 + e.a3 * e.c3 / 4)) * (e.Ac1 * (0.166666666666667 - e.b1 * e.c1 / (4 * e.Ac1)) + 0.166666666666667 * e.Ac2 + e.Ac3 * (0.166666666666667 + e.a3 * e.d3 / (4 * e.Ac3))) / e.Ac),
  (e.i1 * 5 + 3, e.i2 * 5 + 2, (e.E44 * (e.Ac1 * (0.166666666666667 + e.a1 * e.d1 / (4 * e.Ac1)) + 0.166666666666667 * e.Ac2 + e.Ac3 * (0.166666666666667 - e.b3 * e.c3 / (4 * e.Ac3))) + e.E45 * (-e.a1 * e.c1 / 4 + e.a3 * e.c3 / 4)) * (e.Ac1 * (-e.b1 / (2 * e.Ac1) + 0.166666666666667 * (e.b1 - e.d1) / e.Ac1) + e.Ac2 * (e.d2 / (2 * e.Ac2) + 0.166666666666667 * (e.b2 - e.d2) / e.Ac2) + 0.166666666666667 * e.b3 - 0.166666666666667 * e.d3) / e.Ac + (e.E45 * (e.Ac1 * (0.166666666666667 + e.a1 * e.d1 / (4 * e.Ac1)) + 0.166666666666667 * e.Ac2 + e.Ac3 * (0.166666666666667 - e.b3 * e.c3 / (4 * e.Ac3))) + e.E55 * (-e.a1 * e.c1 / 4 + e.a3 * e.c3 / 4)) * (e.Ac1 * (e.a1 / (2 * e.Ac1) + 0.166666666666667 * (-e.a1 + e.c1) / e.Ac1) + e.Ac2 * (-e.c2 / (2 * e.Ac2) + 0.166666666666667 * (-e.a2 + e.c2) / e.Ac2) - 0.166666666666667 * e.a3 + 0.166666666666667 * e.c3) / e.Ac),
  (e.i1 * 5 + 3, e.i2 * 5 + 3, (e.E44 * (e.Ac1 * (0.166666666666667 + e.a1 * e.d1 / (4 * e.Ac1)) + 0.166666666666667 * e.Ac2 + e.Ac3 * (0.166666666666667 - e.b3 * e.c3 / (4 * e.Ac3))) + e.E45 * (-e.a1 * e.c1 / 4 + e.a3 * e.c3 / 4)) * (e.Ac1 * (0.166666666666667 - e.b1 * e.c1 / (4 * e.Ac1)) + e.Ac2 * (0.166666666666667 + e.a2 * e.d2 / (4 * e.Ac2)) + 0.166666666666667 * e.Ac3) / e.Ac + (e.E45 * (e.Ac1 * (0.166666666666667 + e.a1 * e.d1 / (4 * e.Ac1)) + 0.166666666666667 * e.Ac2 + e.Ac3 * (0.166666666666667 - e.b3 * e.c3 / (4 * e.Ac3))) + e.E55 * (-e.a1 * e.c1 / 4 + e.a3 * e.c3 / 4)) * (e.a1 * e.c1 / 4 - e.a2 * e.c2 / 4) / e.Ac),
  (e.i1 * 5 + 3, e.i2 * 5 + 4, (e.E44 * (e.Ac1 * (0.166666666666667 + e.a1 * e.d1 / (4 * e.Ac1)) + 0.166666666666667 * e.Ac2 + e.Ac3 * (0.166666666666667 - e.b3 * e.c3 / (4 * e.Ac3))) + e.E45 * (-e.a1 * e.c1 / 4 + e.a3 * e.c3 / 4)) * (-e.b1 * e.d1 / 4 + e.b2 * e.d2 / 4) / e.Ac + (e.E45 * (e.Ac1 * (0.166666666666667 + e.a1 * e.d1 / (4 * e.Ac1)) + 0.166666666666667 * e.Ac2 + e.Ac3 * (0.166666666666667 - e.b3 * e.c3 / (4 * e.Ac3))) + e.E55 * (-e.a1 * e.c1 / 4 + e.a3 * e.c3 / 4)) * (e.Ac1 * (0.166666666666667 + e.a1 * e.d1 / (4 * e.Ac1)) + e.Ac2 * (0.166666666666667 - e.b2 * e.c2 / (4 * e.Ac2)) + 0.166666666666667 * e.Ac3) / e.Ac),
  (e.i1 * 5 + 3, e.i3 * 5 + 2, (e.E44 * (e.Ac1 * (0.166666666666667 + e.a1 * e.d1 / (4 * e.Ac1)) + 0.166666666666667 * e.Ac2 + e.Ac3 * (0.166666666666667 - e.b3 * e.c3 / (4 * e.Ac3))) + e.E45 * (-e.a1 * e.c1 / 4 + e.a3 * e.c3 / 4)) * (e.Ac2 * (-e.b2 / (2 * e.Ac2) + 0.166666666666667 * (e.b2 - e.d2) / e.Ac2) + e.Ac3 * (e.d3 / (2 * e.Ac3) + 0.166666666666667 * (e.b3 - e.d3) / e.Ac3) + 0.166666666666667 * e.b1 - 0.166666666666667 * e.d1) / e.Ac + (e.E45 * (e.Ac1 * (0.166666666666667 + e.a1 * e.d1 / (4 * e.Ac1)) + 0.166666666666667 * e.Ac2 + e.Ac3 * (0.166666666666667 - e.b3 * e.c3 / (4 * e.Ac3))) + e.E55 * (-e.a1 * e.c1 / 4 + e.a3 * e.c3 / 4)) * (e.Ac2 * (e.a2 / (2 * e.Ac2) + 0.166666666666667 * (-e.a2 + e.c2) / e.Ac2) + e.Ac3 * (-e.c3 / (2 * e.Ac3) + 0.166666666666667 * (-e.a3 + e.c3) / e.Ac3) - 0.166666666666667 * e.a1 + 0.166666666666667 * e.c1) / e.Ac),
  (e.i1 * 5 + 3, e.i3 * 5 + 3, (e.E44 * (e.Ac1 * (0.166666666666667 + e.a1 * e.d1 / (4 * e.Ac1)) + 0.166666666666667 * e.Ac2 + e.Ac3 * (0.166666666666667 - e.b3 * e.c3 / (4 * e.Ac3))) + e.E45 * (-e.a1 * e.c1 / 4 + e.a3 * e.c3 / 4)) * (0.166666666666667 * e.Ac1 + e.Ac2 * (0.166666666666667 - e.b2 * e.c2 / (4 * e.Ac2)) + e.Ac3 * (0.166666666666667 + e.a3 * e.d3 / (4 * e.Ac3))) / e.Ac + (e.E45 * (e.Ac1 * (0.166666666666667 + e.a1 * e.d1 / (4 * e.Ac1)) + 0.166666666666667 * e.Ac2 + e.Ac3 * (0.166666666666667 - e.b3 * e.c3 / (4 * e.Ac3))) + e.E55 * (-e.a1 * e.c1 / 4 + e.a3 * e.c3 / 4)) * (e.a2 * e.c2 / 4 - e.a3 * e.c3 / 4) / e.Ac),
  (e.i1 * 5 + 3, e.i3 * 5 + 4, (e.E44 * (e.Ac1 * (0.166666666666667 + e.a1 * e.d1 / (4 * e.Ac1)) + 0.166666666666667 * e.Ac2 + e.Ac3 * (0.166666666666667 - e.b3 * e.c3 / (4 * e.Ac3))) + e.E45 * (-e.a1 * e.c1 / 4 + e.a3 * e.c3 / 4)) * (-e.b2 * e.d2 / 4 + e.b3 * e.d3 / 4) / e.Ac + (e.E45 * (e.Ac1 * (0.166666666666667 + e.a1 * e.d1 / (4 * e.Ac1)) + 0.166666666666667 * e.Ac2 + e.Ac3 * (0.166666666666667 - e.b3 * e.c3 / (4 * e.Ac3))) + e.E55 * (-e.a1 * e.c1 / 4 + e.a3 * e.c3 / 4)) * (0.166666666666667 * e.Ac1 + e.Ac2 * (0.166666666666667 + e.a2 * e.d2 / (4 * e.Ac2)) + e.Ac3 * (0.166666666666667 - e.b3 * e.c3 / (4 * e.Ac3))) / e.Ac)]

/-- meshless/espim/plate2d_add_k0s_cell_based.py:112-120 -/
def cellS_i1_4 (e : CellSEnv K) : List (ℤ × ℤ × K) := [
  (e.i1 * 5 + 4, e.i1 * 5 + 2, (e.E44 * (e.b1 * e.d1 / 4 - e.b3 * e.d3 / 4) + e.E45 * (e.Ac1 * (0.166666666666667 - e.b1 * e.c1 / (4 * e.Ac1)) + 0.166666666666667 * e.Ac2 + e.Ac3 * (0.166666666666667 + e.a3 * e.d3 / (4 * e.Ac3)))) * (e.Ac1 * (e.d1 / (2 * e.Ac1) + 0.166666666666667 * (e.b1 - e.d1) / e.Ac1) + e.Ac3 * (-e.b3 / (2 * e.Ac3) + 0.166666666666667 * (e.b3 - e.d3) / e.Ac3) + 0.166666666666667 * e.b2 - 0.166666666666667 * e.d2) / e.Ac + (e.E45 * (e.b1 * e.d1 / 4 - e.b3 * e.d3 / 4) + e.E55 * (e.Ac1 * (0.166666666666667 - e.b1 * e.c1 / (4 * e.Ac1)) + 0.166666666666667 * e.Ac2 + e.Ac3 * (0.166666666666667 + e.a3 * e.d3 / (4 * e.Ac3)))) * (e.Ac1 * (-e.c1 / (2 * e.Ac1) + 0.166666666666667 * (-e.a1 + e.c1) / e.Ac1) + e.Ac3 * (e.a3 / (2 * e.Ac3) + 0.166666666666667 * (-e.a3 + e.c3) / e.Ac3) - 0.166666666666667 * e.a2 + 0.166666666666667 * e.c2) / e.Ac),
  (e.i1 * 5 + 4, e.i1 * 5 + 3, (e.E44 * (e.b1 * e.d1 / 4 - e.b3 * e.d3 / 4) + e.E45 * (e.Ac1 * (0.166666666666667 - e.b1 * e.c1 / (4 * e.Ac1)) + 0.166666666666667 * e.Ac2 + e.Ac3 * (0.166666666666667 + e.a3 * e.d3 / (4 * e.Ac3)))) * (e.Ac1 * (0.166666666666667 + e.a1 * e.d1 / (4 * e.Ac1)) + 0.166666666666667 * e.Ac2 + e.Ac3 * (0.166666666666667 - e.b3 * e.c3 / (4 * e.Ac3))) / e.Ac + (e.E45 * (e.b1 * e.d1 / 4 - e.b3 * e.d3 / 4) + e.E55 * (e.Ac1 * (0.166666666666667 - e.b1 * e.c1 / (4 * e.Ac1)) + 0.166666666666667 * e.Ac2 + e.Ac3 * (0.166666666666667 + e.a3 * e.d3 / (4 * e.Ac3)))) * (-e.a1 * e.c1 / 4 + e.a3 * e.c3 / 4) / e.Ac),
  (e.i1 * 5 + 4, e.i1 * 5 + 4, (e.E44 * (e.b1 * e.d1 / 4 - e.b3 * e.d3 / 4) + e.E45 * (e.Ac1 * (0.166666666666667 - e.b1 * e.c1 / (4 * e.Ac1)) + 0.166666666666667 * e.Ac2 + e.Ac3 * (0.166666666666667 + e.a3 * e.d3 / (4 * e.Ac3)))) * (e.b1 * e.d1 / 4 - e.b3 * e.d3 / 4) / e.Ac + (e.E45 * (e.b1 * e.d1 / 4 - e.b3 * e.d3 / 4) + e.E55 * (e.Ac1 * (0.166666666666667 - e.b1 * e.c1 / (4 * e.Ac1)) + 0.166666666666667 * e.Ac2 + e.Ac3 * (0.166666666666667 + e.a3 * e.d3 / (4 * e.Ac3)))) * (e.Ac1 * (0.166666666666667 - e.b1 * e.c1 / (4 * e.Ac1)) + 0.166666666666667 * e.Ac2 + e.Ac3 * (0.166666666666667 + e.a3 * e.d3 / (4 * e.Ac3))) / e.Ac),
  (e.i1 * 5 + 4, e.i2 * 5 + 2, (e.E44 * (e.b1 * e.d1 / 4 - e.b3 * e.d3 / 4) + e.E45 * (e.Ac1 * (0.166666666666667 - e.b1 * e.c1 / (4 * e.Ac1)) + 0.166666666666667 * e.Ac2 + e.Ac3 * (0.166666666666667 + e.a3 * e.d3 / (4 * e.Ac3)))) * (e.Ac1 * (-e.b1 / (2 * e.Ac1) + 0.166666666666667 * (e.b1 - e.d1) / e.Ac1) + e.Ac2 * (e.d2 / (2 * e.Ac2) + 0.166666666666667 * (e.b2 - e.d2) / e.Ac2) + 0.166666666666667 * e.b3 - 0.166666666666667 * e.d3) / e.Ac + (e.E45 * (e.b1 * e.d1 / 4 - e.b3 * e.d3 / 4) + e.E55 * (e.Ac1 * (0.166666666666667 - e.b1 * e.c1 / (4 * e.Ac1)) + 0.166666666666667 * e.Ac2 + e.Ac3 * (0.166666666666667 + e.a3 * e.d3 / (4 * e.Ac3)))) * (e.Ac1 * (e.a1 / (2 * e.Ac1) + 0.166666666666667 * (-e.a1 + e.c1) / e.Ac1) + e.Ac2 * (-e.c2 / (2 * e.Ac2) + 0.166666666666667 * (-e.a2 + e.c2) / e.Ac2) - 0.166666666666667 * e.a3 + 0.166666666666667 * e.c3) / e.Ac),
  (e.i1 * 5 + 4, e.i2 * 5 + 3, (e.E44 * (e.b1 * e.d1 / 4 - e.b3 * e.d3 / 4) + e.E45 * (e.Ac1 * (0.166666666666667 - e.b1 * e.c1 / (4 * e.Ac1)) + 0.166666666666667 * e.Ac2 + e.Ac3 * (0.166666666666667 + e.a3 * e.d3 / (4 * e.Ac3)))) * (e.Ac1 * (0.166666666666667 - e.b1 * e.c1 / (4 * e.Ac1)) + e.Ac2 * (0.166666666666667 + e.a2 * e.d2 / (4 * e.Ac2)) + 0.166666666666667 * e.Ac3) / e.Ac + (e.E45 * (e.b1 * e.d1 / 4 - e.b3 * e.d3 / 4) + e.E55 * (e.Ac1 * (0.166666666666667 - e.b1 * e.c1 / (4 * e.Ac1)) + 0.166666666666667 * e.Ac2 + e.Ac3 * (0.166666666666667 + e.a3 * e.d3 / (4 * e.Ac3)))) * (e.a1 * e.c1 / 4 - e.a2 * e.c2 / 4) / e.Ac),
  (e.i1 * 5 + 4, e.i2 * 5 + 4, (e.E44 * (e.b1 * e.d1 / 4 - e.b3 * e.d3 / 4) + e.E45 * (e.Ac1 * (0.166666666666667 - e.b1 * e.c1 / (4 * e.Ac1)) + 0.166666666666667 * e.Ac2 + e.Ac3 * (0.166666666666667 + e.a3 * e.d3 / (4 * e.Ac3)))) * (-e.b1 * e.d1 / 4 + e.b2 * e.d2 / 4) / e.Ac + (e.E45 * (e.b1 * e.d1 / 4 - e.b3 * e.d3 / 4) + e.E55 * (e.Ac1 * (0.166666666666667 - e.b1 * e.c1 / (4 * e.Ac1)) + 0.166666666666667 * e.Ac2 + e.Ac3 * (0.166666666666667 + e.a3 * e.d3 / (4 * e.Ac3)))) * (e.Ac1 * (0.166666666666667 + e.a1 * e.d1 / (4 * e.Ac1)) + e.Ac2 * (0.166666666666667 - e.b2 * e.c2 / (4 * e.Ac2)) + 0.166666666666667 * e.Ac3) / e.Ac),
  (e.i1 * 5 + 4, e.i3 * 5 + 2, (e.E44 * (e.b1 * e.d1 / 4 - e.b3 * e.d3 / 4) + e.E45 * (e.Ac1 * (0.166666666666667 - e.b1 * e.c1 / (4 * e.Ac1)) + 0.166666666666667 * e.Ac2 + e.Ac3 * (0.166666666666667 + e.a3 * e.d3 / (4 * e.Ac3)))) * (e.Ac2 * (-e.b2 / (2 * e.Ac2) + 0.166666666666667 * (e.b2 - e.d2) / e.Ac2) + e.Ac3 * (e.d3 / (2 * e.Ac3) + 0.166666666666667 * (e.b3 - e.d3) / e.Ac3) + 0.166666666666667 * e.b1 - 0.166666666666667 * e.d1) / e.Ac + (e.E45 * (e.b1 * e.d1 / 4 - e.b3 * e.d3 / 4) + e.E55 * (e.Ac1 * (0.166666666666667 - e.b1 * e.c1 / (4 * e.Ac1)) + 0.166666666666667 * e.Ac2 + e.Ac3 * (0.166666666666667 + e.a3 * e.d3 / (4 * e.Ac3)))) * (e.Ac2 * (e.a2 / (2 * e.Ac2) + 0.166666666666667 * (-e.a2 + e.c2) / e.Ac2) + e.Ac3 * (-e.c3 / (2 * e.Ac3) + 0.166666666666667 * (-e.a3 + e.c3) / e.Ac3) - 0.166666666666667 * e.a1 + 0.166666666666667 * e.c1) / e.Ac),
  (e.i1 * 5 + 4, e.i3 * 5 + 3, (e.E44 * (e.b1 * e.d1 / 4 - e.b3 * e.d3 / 4) + e.E45 * (e.Ac1 * (0.166666666666667 - e.b1 * e.c1 / (4 * e.Ac1)) + 0.166666666666667 * e.Ac2 + e.Ac3 * (0.166666666666667 + e.a3 * e.d3 / (4 * e.Ac3)))) * (0.166666666666667 * e.Ac1 + e.Ac2 * (0.166666666666667 - e.b2 * e.c2 / (4 * e.Ac2)) + e.Ac3 * (0.166666666666667 + e.a3 * e.d3 / (4 * e.Ac3))) / e.Ac + (e.E45 * (e.b1 * e.d1 / 4 - e.b3 * e.d3 / 4) + e.E55 * (e.Ac1 * (0.166666666666667 - e.b1 * e.c1 / (4 * e.Ac1)) + 0.166666666666667 * e.Ac2 + e.Ac3 * (0.166666666666667 + e.a3 * e.d3 / (4 * e.Ac3)))) * (e.a2 * e.c2 / 4 - e.a3 * e.c3 / 4) / e.Ac),
  (e.i1 * 5 + 4, e.i3 * 5 + 4, (e.E44 * (e.b1 * e.d1 / 4 - e.b3 * e.d3 / 4) + e.E45 * (e.Ac1 * (0.166666666666667 - e.b1 * e.c1 / (4 * e.Ac1)) + 0.166666666666667 * e.Ac2 + e.Ac3 * (0.166666666666667 + e.a3 * e.d3 / (4 * e.Ac3)))) * (-e.b2 * e.d2 / 4 + e.b3 * e.d3 / 4) / e.Ac + (e.E45 * (e.b1 * e.d1 / 4 - e.b3 * e.d3 / 4) + e.E55 * (e.Ac1 * (0.166666666666667 - e.b1 * e.c1 / (4 * e.Ac1)) + 0.166666666666667 * e.Ac2 + e.Ac3 * (0.166666666666667 + e.a3 * e.d3 / (4 * e.Ac3)))) * (0.166666666666667 * e.Ac1 + e.Ac2 * (0.166666666666667 + e.a2 * e.d2 / (4 * e.Ac2)) + e.Ac3 * (0.166666666666667 - e.b3 * e.c3 / (4 * e.Ac3))) / e.Ac)]

/-- meshless/espim/plate2d_add_k0s_cell_based.py:121-129 -/
def cellS_i2_2 (e : CellSEnv K) : List (ℤ × ℤ × K) := [
  (e.i2 * 5 + 2, e.i1 * 5 + 2, (e.E44 * (e.Ac1 * (-e.b1 / (2 * e.Ac1) + 0.166666666666667 * (e.b1 - e.d1) / e.Ac1) + e.Ac2 * (e.d2 / (2 * e.Ac2) + 0.166666666666667 * (e.b2 - e.d2) / e.Ac2) + 0.166666666666667 * e.b3 - 0.166666666666667 * e.d3) + e.E45 * (e.Ac1 * (e.a1 / (2 * e.Ac1) + 0.166666666666667 * (-e.a1 + e.c1) / e.Ac1) + e.Ac2 * (-e.c2 / (2 * e.Ac2) + 0.166666666666667 * (-e.a2 + e.c2) / e.Ac2) - 0.166666666666667 * e.a3 + 0.166666666666667 * e.c3)) * (e.Ac1 * (e.d1 / (2 * e.Ac1) + 0.166666666666667 * (e.b1 - e.d1) / e.Ac1) + e.Ac3 * (-e.b3 / (2 * e.Ac3) + 0.166666666666667 * (e.b3 - e.d3) / e.Ac3) + 0.166666666666667 * e.b2 - 0.166666666666667 * e.d2) / e.Ac + (e.E45 * (e.Ac1 * (-e.b1 / (2 * e.Ac1) + 0.166666666666667 * (e.b1 - e.d1) / e.Ac1) + e.Ac2 * (e.d2 / (2 * e.Ac2) + 0.166666666666667 * (e.b2 - e.d2) / e.Ac2) + 0.166666666666667 * e.b3 - 0.166666666666667 * e.d3) + e.E55 * (e.Ac1 * (e.a1 / (2 * e.Ac1) + 0.166666666666667 * (-e.a1 + e.c1) / e.Ac1) + e.Ac2 * (-e.c2 / (2 * e.Ac2) + 0.166666666666667 * (-e.a2 + e.c2) / e.Ac2) - 0.166666666666667 * e.a3 + 0.166666666666667 * e.c3)) * (e.Ac1 * (-e.c1 / (2 * e.Ac1) + 0.166666666666667 * (-e.a1 + e.c1) / e.Ac1) + e.Ac3 * (e.a3 / (2 * e.Ac3) + 0.166666666666667 * (-e.a3 + e.c3) / e.Ac3) - 0.166666666666667 * e.a2 + 0.166666666666667 * e.c2) / e.Ac),
  (e.i2 * 5 + 2, e.i1 * 5 + 3, (e.E44 * (e.Ac1 * (-e.b1 / (2 * e.Ac1) + 0.166666666666667 * (e.b1 - e.d1) / e.Ac1) + e.Ac2 * (e.d2 / (2 * e.Ac2) + 0.166666666666667 * (e.b2 - e.d2) / e.Ac2) + 0.166666666666667 * e.b3 - 0.166666666666667 * e.d3) + e.E45 * (e.Ac1 * (e.a1 / (2 * e.Ac1) + 0.166666666666667 * (-e.a1 + e.c1) / e.Ac1) + e.Ac2 * (-e.c2 / (2 * e.Ac2) + 0.166666666666667 * (-e.a2 + e.c2) / e.Ac2) - 0.166666666666667 * e.a3 + 0.166666666666667 * e.c3)) * (e.Ac1 * (0.166666666666667 + e.a1 * e.d1 / (4 * e.Ac1)) + 0.166666666666667 * e.Ac2 + e.Ac3 * (0.166666666666667 - e.b3 * e.c3 / (4 * e.Ac3))) / e.Ac + (e.E45 * (e.Ac1 * (-e.b1 / (2 * e.Ac1) + 0.166666666666667 * (e.b1 - e.d1) / e.Ac1) + e.Ac2 * (e.d2 / (2 * e.Ac2) + 0.166666666666667 * (e.b2 - e.d2) / e.Ac2) + 0.166666666666667 * e.b3 - 0.166666666666667 * e.d3) + e.E55 * (e.Ac1 * (e.a1 / (2 * e.Ac1) + 0.166666666666667 * (-e.a1 + e.c1) / e.Ac1) + e.Ac2 * (-e.c2 / (2 * e.Ac2) + 0.166666666666667 * (-e.a2 + e.c2) / e.Ac2) - 0.166666666666667 * e.a3 + 0.166666666666667 * e.c3)) * (-e.a1 * e.c1 / 4 + e.a3 * e.c3 / 4) / e.Ac),
  (e.i2 * 5 + 2, e.i1 * 5 + 4, (e.E44 * (e.Ac1 * (-e.b1 / (2 * e.Ac1) + 0.166666666666667 * (e.b1 - e.d1) / e.Ac1) + e.Ac2 * (e.d2 / (2 * e.Ac2) + 0.166666666666667 * (e.b2 - e.d2) / e.Ac2) + 0.166666666666667 * e.b3 - 0.166666666666667 * e.d3) + e.E45 * (e.Ac1 * (e.a1 / (2 * e.Ac1) + 0.166666666666667 * (-e.a1 + e.c1) / e.Ac1) + e.Ac2 * (-e.c2 / (2 * e.Ac2) + 0.166666666666667 * (-e.a2 + e.c2) / e.Ac2) - 0.166666666666667 * e.a3 + 0.166666666666667 * e.c3)) * (e.b1 * e.d1 / 4 - e.b3 * e.d3 / 4) / e.Ac + (e.E45 * (e.Ac1 * (-e.b1 / (2 * e.Ac1) + 0.166666666666667 * (e.b1 - e.d1) / e.Ac1) + e.Ac2 * (e.d2 / (2 * e.Ac2) + 0.166666666666667 * (e.b2 - e.d2) / e.Ac2) + 0.166666666666667 * e.b3 - 0.166666666666667 * e.d3) + e.E55 * (e.Ac1 * (e.a1 / (2 * e.Ac1) + 0.166666666666667 * (-e.a1 + e.c1) / e.Ac1) + e.Ac2 * (-e.c2 / (2 * e.Ac2) + 0.166666666666667 * (-e.a2 + e.c2) / e.Ac2) - 0.166666666666667 * e.a3 + 0.166666666666667 * e.c3)) * (e.Ac1 * (0.166666666666667 - e.b1 * e.c1 / (4 * e.Ac1)) + 0.166666666666667 * e.Ac2 + e.Ac3 * (0.166666666666667 + e.a3 * e.d3 / (4 * e.Ac3))) / e.Ac),
  (e.i2 * 5 + 2, e.i2 * 5 + 2, (e.E44 * (e.Ac1 * (-e.b1 / (2 * e.Ac1) + 0.166666666666667 * (e.b1 - e.d1) / e.Ac1) + e.Ac2 * (e.d2 / (2 * e.Ac2) + 0.166666666666667 * (e.b2 - e.d2) / e.Ac2) + 0.166666666666667 * e.b3 - 0.166666666666667 * e.d3) + e.E45 * (e.Ac1 * (e.a1 / (2 * e.Ac1) + 0.166666666666667 * (-e.a1 + e.c1) / e.Ac1) + e.Ac2 * (-e.c2 / (2 * e.Ac2) + 0.166666666666667 * (-e.a2 + e.c2) / e.Ac2) - 0.166666666666667 * e.a3 + 0.166666666666667 * e.c3)) * (e.Ac1 * (-e.b1 / (2 * e.Ac1) + 0.166666666666667 * (e.b1 - e.d1) / e.Ac1) + e.Ac2 * (e.d2 / (2 * e.Ac2) + 0.166666666666667 * (e.b2 - e.d2) / e.Ac2) + 0.166666666666667 * e.b3 - 0.166666666666667 * e.d3) / e.Ac + (e.E45 * (e.Ac1 * (-e.b1 / (2 * e.Ac1) + 0.166666666666667 * (e.b1 - e.d1) / e.Ac1) + e.Ac2 * (e.d2 / (2 * e.Ac2) + 0.166666666666667 * (e.b2 - e.d2) / e.Ac2) + 0.166666666666667 * e.b3 - 0.166666666666667 * e.d3) + e.E55 * (e.Ac1 * (e.a1 / (2 * e.Ac1) + 0.166666666666667 * (-e.a1 + e.c1) / e.Ac1) + e.Ac2 * (-e.c2 / (2 * e.Ac2) + 0.166666666666667 * (-e.a2 + e.c2) / e.Ac2) - 0.166666666666667 * e.a3 + 0.166666666666667 * e.c3)) * (e.Ac1 * (e.a1 / (2 * e.Ac1) + 0.166666666666667 * (-e.a1 + e.c1) / e.Ac1) + e.Ac2 * (-e.c2 / (2 * e.Ac2) + 0.166666666666667 * (-e.a2 + e.c2) / e.Ac2) - 0.166666666666667 * e.a3 + 0.166666666666667 * e.c3) / e.Ac),
  (e.i2 * 5 + 2, e.i2 * 5 + 3, (e.E44 * (e.Ac1 * (-e.b1 / (2 * e.Ac1) + 0.166666666666667 * (e.b1 - e.d1) / e.Ac1) + e.Ac2 * (e.d2 / (2 * e.Ac2) + 0.166666666666667 * (e.b2 - e.d2) / e.Ac2) + 0.166666666666667 * e.b3 - 0.166666666666667 * e.d3) + e.E45 * (e.Ac1 * (e.a1 / (2 * e.Ac1) + 0.166666666666667 * (-e.a1 + e.c1) / e.Ac1) + e.Ac2 * (-e.c2 / (2 * e.Ac2) + 0.166666666666667 * (-e.a2 + e.c2) / e.Ac2) - 0.166666666666667 * e.a3 + 0.166666666666667 * e.c3)) * (e.Ac1 * (0.166666666666667 - e.b1 * e.c1 / (4 * e.Ac1)) + e.Ac2 * (0.166666666666667 + e.a2 * e.d2 / (4 * e.Ac2)) + 0.166666666666667 * e.Ac3) / e.Ac + (e.E45 * (e.Ac1 * (-e.b1 / (2 * e.Ac1) + 0.166666666666667 * (e.b1 - e.d1) / e.Ac1) + e.Ac2 * (e.d2 / (2 * e.Ac2) + 0.166666666666667 * (e.b2 - e.d2) / e.Ac2) + 0.166666666666667 * e.b3 - 0.166666666666667 * e.d3) + e.E55 * (e.Ac1 * (e.a1 / (2 * e.Ac1) + 0.166666666666667 * (-e.a1 + e.c1) / e.Ac1) + e.Ac2 * (-e.c2 / (2 * e.Ac2) + 0.166666666666667 * (-e.a2 + e.c2) / e.Ac2) - 0.166666666666667 * e.a3 + 0.166666666666667 * e.c3)) * (e.a1 * e.c1 / 4 - e.a2 * e.c2 / 4) / e.Ac),
  (e.i2 * 5 + 2, e.i2 * 5 + 4, (e.E44 * (e.Ac1 * (-e.b1 / (2 * e.Ac1) + 0.166666666666667 * (e.b1 - e.d1) / e.Ac1) + e.Ac2 * (e.d2 / (2 * e.Ac2) + 0.166666666666667 * (e.b2 - e.d2) / e.Ac2) + 0.166666666666667 * e.b3 - 0.166666666666667 * e.d3) + e.E45 * (e.Ac1 * (e.a1 / (2 * e.Ac1) + 0.166666666666667 * (-e.a1 + e.c1) / e.Ac1) + e.Ac2 * (-e.c2 / (2 * e.Ac2) + 0.166666666666667 * (-e.a2 + e.c2) / e.Ac2) - 0.166666666666667 * e.a3 + 0.166666666666667 * e.c3)) * (-e.b1 * e.d1 / 4 + e.b2 * e.d2 / 4) / e.Ac + (e.E45 * (e.Ac1 * (-e.b1 / (2 * e.Ac1) + 0.166666666666667 * (e.b1 - e.d1) / e.Ac1) + e.Ac2 * (e.d2 / (2 * e.Ac2) + 0.166666666666667 * (e.b2 - e.d2) / e.Ac2) + 0.166666666666667 * e.b3 - 0.166666666666667 * e.d3) + e.E55 * (e.Ac1 * (e.a1 / (2 * e.Ac1) + 0.166666666666667 * (-e.a1 + e.c1) / e.Ac1) + e.Ac2 * (-e.c2 / (2 * e.Ac2) + 0.166666666666667 * (-e.a2 + e.c2) / e.Ac2) - 0.166666666666667 * e.a3 + 0.166666666666667 * e.c3)) * (e.Ac1 * (0.166666666666667 + e.a1 * e.d1 / (4 * e.Ac1)) + e.Ac2 * (0.166666666666667 - e.b2 * e.c2 / (4 * e.Ac2)) + 0.166666666666667 * e.Ac3) / e.Ac),
  (e.i2 * 5 + 2, e.i3 * 5 + 2, (e.E44 * (e.Ac1 * (-e.b1 / (2 * e.Ac1) + 0.166666666666667 * (e.b1 - e.d1) / e.Ac1) + e.Ac2 * (e.d2 / (2 * e.Ac2) + 0.166666666666667 * (e.b2 - e.d2) / e.Ac2) + 0.166666666666667 * e.b3 - 0.166666666666667 * e.d3) + e.E45 * (e.Ac1 * (e.a1 / (2 * e.Ac1) + 0.166666666666667 * (-e.a1 + e.c1) / e.Ac1) + e.Ac2 * (-e.c2 / (2 * e.Ac2) + 0.166666666666667 * (-e.a2 + e.c2) / e.Ac2) - 0.166666666666667 * e.a3 + 0.166666666666667 * e.c3)) * (e.Ac2 * (-e.b2 / (2 * e.Ac2) + 0.166666666666667 * (e.b2 - e.d2) / e.Ac2) + e.Ac3 * (e.d3 / (2 * e.Ac3) + 0.166666666666667 * (e.b3 - e.d3) / e.Ac3) + 0.166666666666667 * e.b1 - 0.166666666666667 * e.d1) / e.Ac + (e.E45 * (e.Ac1 * (-e.b1 / (2 * e.Ac1) + 0.166666666666667 * (e.b1 - e.d1) / e.Ac1) + e.Ac2 * (e.d2 / (2 * e.Ac2) + 0.166666666666667 * (e.b2 - e.d2) / e.Ac2) + 0.166666666666667 * e.b3 - 0.166666666666667 * e.d3) + e.E55 * (e.Ac1 * (e.a1 / (2 * e.Ac1) + 0.166666666666667 * (-e.a1 + e.c1) / e.Ac1) + e.Ac2 * (-e.c2 / (2 * e.Ac2) + 0.166666666666667 * (-e.a2 + e.c2) / e.Ac2) - 0.166666666666667 * e.a3 + 0.166666666666667 * e.c3)) * (e.Ac2 * (e.a2 / (2 * e.Ac2) + 0.166666666666667 * (-e.a2 + e.c2) / e.Ac2) + e.Ac3 * (-e.c3 / (2 * e.Ac3) + 0.166666666666667 * (-e.a3 + e.c3) / e.Ac3) - 0.166666666666667 * e.a1 + 0.166666666666667 * e.c1) / e.Ac),
  (e.i2 * 5 + 2, e.i3 * 5 + 3, (e.E44 * (e.Ac1 * (-e.b1 / (2 * e.Ac1) + 0.166666666666667 * (e.b1 - e.d1) / e.Ac1) + e.Ac2 * (e.d2 / (2 * e.Ac2) + 0.166666666666667 * (e.b2 - e.d2) / e.Ac2) + 0.166666666666667 * e.b3 - 0.166666666666667 * e.d3) + e.E45 * (e.Ac1 * (e.a1 / (2 * e.Ac1) + 0.166666666666667 * (-e.a1 + e.c1) / e.Ac1) + e.Ac2 * (-e.c2 / (2 * e.Ac2) + 0.166666666666667 * (-e.a2 + e.c2) / e.Ac2) - 0.166666666666667 * e.a3 + 0.166666666666667 * e.c3)) * (0.166666666666667 * e.Ac1 + e.Ac2 * (0.166666666666667 - e.b2 * e.c2 / (4 * e.Ac2)) + e.Ac3 * (0.166666666666667 + e.a3 * e.d3 / (4 * e.Ac3))) / e.Ac + (e.E45 * (e.Ac1 * (-e.b1 / (2 * e.Ac1) + 0.166666666666667 * (e.b1 - e.d1) / e.Ac1) + e.Ac2 * (e.d2 / (2 * e.Ac2) + 0.166666666666667 * (e.b2 - e.d2) / e.Ac2) + 0.166666666666667 * e.b3 - 0.166666666666667 * e.d3) + e.E55 * (e.Ac1 * (e.a1 / (2 * e.Ac1) + 0.166666666666667 * (-e.a1 + e.c1) / e.Ac1) + e.Ac2 * (-e.c2 / (2 * e.Ac2) + 0.166666666666667 * (-e.a2 + e.c2) / e.Ac2) - 0.166666666666667 * e.a3 + 0.166666666666667 * e.c3)) * (e.a2 * e.c2 / 4 - e.a3 * e.c3 / 4) / e.Ac),
  (e.i2 * 5 + 2, e.i3 * 5 + 4, (e.E44 * (e.Ac1 * (-e.b1 / (2 * e.Ac1) + 0.166666666666667 * (e.b1 - e.d1) / e.Ac1) + e.Ac2 * (e.d2 / (2 * e.Ac2) + 0.166666666666667 * (e.b2 - e.d2) / e.Ac2) + 0.166666666666667 * e.b3 - 0.166666666666667 * e.d3) + e.E45 * (e.Ac1 * (e.a1 / (2 * e.Ac1) + 0.166666666666667 * (-e.a1 + e.c1) / e.Ac1) + e.Ac2 * (-e.c2 / (2 * e.Ac2) + 0.166666666666667 * (-e.a2 + e.c2) / e.Ac2) - 0.166666666666667 * e.a3 + 0.166666666666667 * e.c3)) * (-e.b2 * e.d2 / 4 + e.b3 * e.d3 / 4) / e.Ac + (e.E45 * (e.Ac1 * (-e.b1 / (2 * e.Ac1) + 0.166666666666667 * (e.b1 - e.d1) / e.Ac1) + e.Ac2 * (e.d2 / (2 * e.Ac2) + 0.166666666666667 * (e.b2 - e.d2) / e.Ac2) + 0.166666666666667 * e.b3 - 0.166666666666667 * e.d3) + e.E55 * (e.Ac1 * (e.a1 / (2 * e.Ac1) + 0.166666666666667 * (-e.a1 + e.c1) / e.Ac1) + e.Ac2 * (-e.c2 / (2 * e.Ac2) + 0.166666666666667 * (-e.a2 + e.c2) / e.Ac2) - 0.166666666666667 * e.a3 + 0.166666666666667 * e.c3)) * (0.166666666666667 * e.Ac1 + e.Ac2 * (0.166666666666667 + e.a2 * e.d2 / (4 * e.Ac2)) + e.Ac3 * (0.166666666666667 - e.b3 * e.c3 / (4 * e.Ac3))) / e.Ac)]

/-- meshless/espim/plate2d_add_k0s_cell_based.py:130-138 -/
def cellS_i2_3 (e : CellSEnv K) : List (ℤ × ℤ × K) := [
  (e.i2 * 5 + 3, e.i1 * 5 + 2, (e.E44 * (e.Ac1 * (0.166666666666667 - e.b1 * e.c1 / (4 * e.Ac1)) + e.Ac2 * (0.166666666666667 + e.a2 * e.d2 / (4 * e.Ac2)) + 0.166666666666667 * e.Ac3) + e.E45 * (e.a1 * e.c1 / 4 - e.a2 * e.c2 / 4)) * (e.Ac1 * (e.d1 / (2 * e.Ac1) + 0.166666666666667 * (e.b1 - e.d1) / e.Ac1) + e.Ac3 * (-e.b3 / (2 * e.Ac3) + 0.166666666666667 * (e.b3 - e.d3) / e.Ac3) + 0.166666666666667 * e.b2 - 0.166666666666667 * e.d2) / e.Ac + (e.E45 * (e.Ac1 * (0.166666666666667 - e.b1 * e.c1 / (4 * e.Ac1)) + e.Ac2 * (0.166666666666667 + e.a2 * e.d2 / (4 * e.Ac2)) + 0.166666666666667 * e.Ac3) + e.E55 * (e.a1 * e.c1 / 4 - e.a2 * e.c2 / 4)) * (e.Ac1 * (-e.c1 / (2 * e.Ac1) + 0.166666666666667 * (-e.a1 + e.c1) / e.Ac1) + e.Ac3 * (e.a3 / (2 * e.Ac3) + 0.166666666666667 * (-e.a3 + e.c3) / e.Ac3) - 0.166666666666667 * e.a2 + 0.166666666666667 * e.c2) / e.Ac),
  (e.i2 * 5 + 3, e.i1 * 5 + 3, (e.E44 * (e.Ac1 * (0.166666666666667 - e.b1 * e.c1 / (4 * e.Ac1)) + e.Ac2 * (0.166666666666667 + e.a2 * e.d2 / (4 * e.Ac2)) + 0.166666666666667 * e.Ac3) + e.E45 * (e.a1 * e.c1 / 4 - e.a2 * e.c2 / 4)) * (e.Ac1 * (0.166666666666667 + e.a1 * e.d1 / (4 * e.Ac1)) + 0.166666666666667 * e.Ac2 + e.Ac3 * (0.166666666666667 - e.b3 * e.c3 / (4 * e.Ac3))) / e.Ac + (e.E45 * (e.Ac1 * (0.166666666666667 - e.b1 * e.c1 / (4 * e.Ac1)) + e.Ac2 * (0.166666666666667 + e.a2 * e.d2 / (4 * e.Ac2)) + 0.166666666666667 * e.Ac3) + e.E55 * (e.a1 * e.c1 / 4 - e.a2 * e.c2 / 4)) * (-e.a1 * e.c1 / 4 + e.a3 * e.c3 / 4) / e.Ac),
  (e.i2 * 5 + 3, e.i1 * 5 + 4, (e.E44 * (e.Ac1 * (0.166666666666667 - e.b1 * e.c1 / (4 * e.Ac1)) + e.Ac2 * (0.166666666666667 + e.a2 * e.d2 / (4 * e.Ac2)) + 0.166666666666667 * e.Ac3) + e.E45 * (e.a1 * e.c1 / 4 - e.a2 * e.c2 / 4)) * (e.b1 * e.d1 / 4 - e.b3 * e.d3 / 4) / e.Ac + (e.E45 * (e.Ac1 * (0.166666666666667 - e.b1 * e.c1 / (4 * e.Ac1)) + e.Ac2 * (0.166666666666667 + e.a2 * e.d2 / (4 * e.Ac2)) + 0.166666666666667 * e.Ac3) + e.E55 * (e.a1 * e.c1 / 4 - e.a2 * e.c2 / 4)) * (e.Ac1 * (0.166666666666667 - e.b1 * e.c1 / (4 * e.Ac1)) + 0.166666666666667 * e.Ac2 + e.Ac3 * (0.166666666666667 + e.a3 * e.d3 / (4 * e.Ac3))) / e.Ac),
  (e.i2 * 5 + 3, e.i2 * 5 + 2, (e.E44 * (e.Ac1 * (0.166666666666667 - e.b1 * e.c1 / (4 * e.Ac1)) + e.Ac2 * (0.166666666666667 + e.a2 * e.d2 / (4 * e.Ac2)) + 0.166666666666667 * e.Ac3) + e.E45 * (e.a1 * e.c1 / 4 - e.a2 * e.c2 / 4)) * (e.Ac1 * (-e.b1 / (2 * e.Ac1) + 0.166666666666667 * (e.b1 - e.d1) / e.Ac1) + e.Ac2 * (e.d2 / (2 * e.Ac2) + 0.166666666666667 * (e.b2 - e.d2) / e.Ac2) + 0.166666666666667 * e.b3 - 0.166666666666667 * e.d3) / e.Ac + (e.E45 * (e.Ac1 * (0.166666666666667 - e.b1 * e.c1 / (4 * e.Ac1)) + e.Ac2 * (0.166666666666667 + e.a2 * e.d2 / (4 * e.Ac2)) + 0.166666666666667 * e.Ac3) + e.E55 * (e.a1 * e.c1 / 4 - e.a2 * e.c2 / 4)) * (e.Ac1 * (e.a1 / (2 * e.Ac1) + 0.166666666666667 * (-e.a1 + e.c1) / e.Ac1) + e.Ac2 * (-e.c2 / (2 * e.Ac2) + 0.166666666666667 * (-e.a2 + e.c2) / e.Ac2) - 0.166666666666667 * e.a3 + 0.166666666666667 * e.c3) / e.Ac),
  (e.i2 * 5 + 3, e.i2 * 5 + 3, (e.E44 * (e.Ac1 * (0.166666666666667 - e.b1 * e.c1 / (4 * e.Ac1)) + e.Ac2 * (0.166666666666667 + e.a2 * e.d2 / (4 * e.Ac2)) + 0.166666666666667 * e.Ac3) + e.E45 * (e.a1 * e.c1 / 4 - e.a2 * e.c2 / 4)) * (e.Ac1 * (0.166666666666667 - e.b1 * e.c1 / (4 * e.Ac1)) + e.Ac2 * (0.166666666666667 + e.a2 * e.d2 / (4 * e.Ac2)) + 0.166666666666667 * e.Ac3) / e.Ac + (e.E45 * (e.Ac1 * (0.166666666666667 - e.b1 * e.c1 / (4 * e.Ac1)) + e.Ac2 * (0.166666666666667 + e.a2 * e.d2 / (4 * e.Ac2)) + 0.166666666666667 * e.Ac3) + e.E55 * (e.a1 * e.c1 / 4 - e.a2 * e.c2 / 4)) * (e.a1 * e.c1 / 4 - e.a2 * e.c2 / 4) / e.Ac),
  (e.i2 * 5 + 3, e.i2 * 5 + 4, (e.E44 * (e.Ac1 * (0.166666666666667 - e.b1 * e.c1 / (4 * e.Ac1)) + e.Ac2 * (0.166666666666667 + e.a2 * e.d2 / (4 * e.Ac2)) + 0.166666666666667 * e.Ac3) + e.E45 * (e.a1 * e.c1 / 4 - e.a2 * e.c2 / 4)) * (-e.b1 * e.d1 / 4 + e.b2 * e.d2 / 4) / e.Ac + (e.E45 * (e.Ac1 * (0.166666666666667 - e.b1 * e.c1 / (4 * e.Ac1)) + e.Ac2 * (0.166666666666667 + e.a2 * e.d2 / (4 * e.Ac2)) + 0.166666666666667 * e.Ac3) + e.E55 * (e.a1 * e.c1 / 4 - e.a2 * e.c2 / 4)) * (e.Ac1 * (0.166666666666667 + e.a1 * e.d1 / (4 * e.Ac1)) + e.Ac2 * (0.166666666666667 - e.b2 * e.c2 / (4 * e.Ac2)) + 0.166666666666667 * e.Ac3) / e.Ac),
  (e.i2 * 5 + 3, e.i3 * 5 + 2, (e.E44 * (e.Ac1 * (0.166666666666667 - e.b1 * e.c1 / (4 * e.Ac1)) + e.Ac2 * (0.166666666666667 + e.a2 * e.d2 / (4 * e.Ac2)) + 0.166666666666667 * e.Ac3) + e.E45 * (e.a1 * e.c1 / 4 - e.a2 * e.c2 / 4)) * (e.Ac2 * (-e.b2 / (2 * e.Ac2) + 0.166666666666667 * (e.b2 - e.d2) / e.Ac2) + e.Ac3 * (e.d3 / (2 * e.Ac3) + 0.166666666666667 * (e.b3 - e.d3) / e.Ac3) + 0.166666666666667 * e.b1 - 0.166666666666667 * e.d1) / e.Ac + (e.E45 * (e.Ac1 * (0.166666666666667 - e.b1 * e.c1 / (4 * e.Ac1)) + e.Ac2 * (0.166666666666667 + e.a2 * e.d2 / (4 * e.Ac2)) + 0.166666666666667 * e.Ac3) + e.E55 * (e.a1 * e.c1 / 4 - e.a2 * e.c2 / 4)) * (e.Ac2 * (e.a2 / (2 * e.Ac2) + 0.166666666666667 * (-e.a2 + e.c2) / e.Ac2) + e.Ac3 * (-e.c3 / (2 * e.Ac3) + 0.166666666666667 * (-e.a3 + e.c3) / e.Ac3) - 0.166666666666667 * e.a1 + 0.166666666666667 * e.c1) / e.Ac),
  (e.i2 * 5 + 3, e.i3 * 5 + 3, (e.E44 * (e.Ac1 * (0.166666666666667 - e.b1 * e.c1 / (4 * e.Ac1)) + e.Ac2 * (0.166666666666667 + e.a2 * e.d2 / (4 * e.Ac2)) + 0.166666666666667 * e.Ac3) + e.E45 * (e.a1 * e.c1 / 4 - e.a2 * e.c2 / 4)) * (0.166666666666667 * e.Ac1 + e.Ac2 * (0.166666666666667 - e.b2 * e.c2 / (4 * e.Ac2)) + e.Ac3 * (0.166666666666667 + e.a3 * e.d3 / (4 * e.Ac3))) / e.Ac + (e.E45 * (e.Ac1 * (0.166666666666667 - e.b1 * e.c1 / (4 * e.Ac1)) + e.Ac2 * (0.166666666666667 + e.a2 * e.d2 / (4 * e.Ac2)) + 0.166666666666667 * e.Ac3) + e.E55 * (e.a1 * e.c1 / 4 - e.a2 * e.c2 / 4)) * (e.a2 * e.c2 / 4 - e.a3 * e.c3 / 4) / e.Ac),
  (e.i2 * 5 + 3, e.i3 * 5 + 4, (e.E44 * (e.Ac1 * (0.166666666666667 - e.b1 * e.c1 / (4 * e.Ac1)) + e.Ac2 * (0.166666666666667 + e.a2 * e.d2 / (4 * e.Ac2)) + 0.166666666666667 * e.Ac3) + e.E45 * (e.a1 * e.c1 / 4 - e.a2 * e.c2 / 4)) * (-e.b2 * e.d2 / 4 + e.b3 * e.d3 / 4) / e.Ac + (e.E45 * (e.Ac1 * (0.166666666666667 - e.b1 * e.c1 / (4 * e.Ac1)) + e.Ac2 * (0.166666666666667 + e.a2 * e.d2 / (4 * e.Ac2)) + 0.166666666666667 * e.Ac3) + e.E55 * (e.a1 * e.c1 / 4 - e.a2 * e.c2 / 4)) * (0.166666666666667 * e.Ac1 + e.Ac2 * (0.166666666666667 + e.a2 * e.d2 / (4 * e.Ac2)) + e.Ac3 * (0.166666666666667 - e.b3 * e.c3 / (4 * e.Ac3))) / e.Ac)]

/-- meshless/espim/plate2d_add_k0s_cell_based.py:139-147 -/
def cellS_i2_4 (e : CellSEnv K) : List (ℤ × ℤ × K) := [
  (e.i2 * 5 + 4, e.i1 * 5 + 2, (e.E44 * (-e.b1 * e.d1 / 4 + e.b2 * e.d2 / 4) + e.E45 * (e.Ac1 * (0.166666666666667 + e.a1 * e.d1 / (4 * e.Ac1)) + e.Ac2 * (0.166666666666667 - e.b2 * e.c2 / (4 * e.Ac2)) + 0.166666666666667 * e.Ac3)) * (e.Ac1 * (e.d1 / (2 * e.Ac1) + 0.166666666666667 * (e.b1 - e.d1) / e.Ac1) + e.Ac3 * (-e.b3 / (2 * e.Ac3) + 0.166666666666667 * (e.b3 - e.d3) / e.Ac3) + 0.166666666666667 * e.b2 - 0.166666666666667 * e.d2) / e.Ac + (e.E45 * (-e.b1 * e.d1 / 4 + e.b2 * e.d2 / 4) + e.E55 * (e.Ac1 * (0.166666666666667 + e.a1 * e.d1 / (4 * e.Ac1)) + e.Ac2 * (0.166666666666667 - e.b2 * e.c2 / (4 * e.Ac2)) + 0.166666666666667 * e.Ac3)) * (e.Ac1 * (-e.c1 / (2 * e.Ac1) + 0.166666666666667 * (-e.a1 + e.c1) / e.Ac1) + e.Ac3 * (e.a3 / (2 * e.Ac3) + 0.166666666666667 * (-e.a3 + e.c3) / e.Ac3) - 0.166666666666667 * e.a2 + 0.166666666666667 * e.c2) / e.Ac),
  (e.i2 * 5 + 4, e.i1 * 5 + 3, (e.E44 * (-e.b1 * e.d1 / 4 + e.b2 * e.d2 / 4) + e.E45 * (e.Ac1 * (0.166666666666667 + e.a1 * e.d1 / (4 * e.Ac1)) + e.Ac2 * (0.166666666666667 - e.b2 * e.c2 / (4 * e.Ac2)) + 0.166666666666667 * e.Ac3)) * (e.Ac1 * (0.166666666666667 + e.a1 * e.d1 / (4 * e.Ac1)) + 0.166666666666667 * e.Ac2 + e.Ac3 * (0.166666666666667 - e.b3 * e.c3 / (4 * e.Ac3))) / e.Ac + (e.E45 * (-e.b1 * e.d1 / 4 + e.b2 * e.d2 / 4) + e.E55 * (e.Ac1 * (0.166666666666667 + e.a1 * e.d1 / (4 * e.Ac1)) + e.Ac2 * (0.166666666666667 - e.b2 * e.c2 / (4 * e.Ac2)) + 0.166666666666667 * e.Ac3)) * (-e.a1 * e.c1 / 4 + e.a3 * e.c3 / 4) / e.Ac),
  (e.i2 * 5 + 4, e.i1 * 5 + 4, (e.E44 * (-e.b1 * e.d1 / 4 + e.b2 * e.d2 / 4) + e.E45 * (e.Ac1 * (0.166666666666667 + e.a1 * e.d1 / (4 * e.Ac1)) + e.Ac2 * (0.166666666666667 - e.b2 * e.c2 / (4 * e.Ac2)) + 0.166666666666667 * e.Ac3)) * (e.b1 * e.d1 / 4 - e.b3 * e.d3 / 4) / e.Ac + (e.E45 * (-e.b1 * e.d1 / 4 + e.b2 * e.d2 / 4) + e.E55 * (e.Ac1 * (0.166666666666667 + e.a1 * e.d1 / (4 * e.Ac1)) + e.Ac2 * (0.166666666666667 - e.b2 * e.c2 / (4 * e.Ac2)) + 0.166666666666667 * e.Ac3)) * (e.Ac1 * (0.166666666666667 - e.b1 * e.c1 / (4 * e.Ac1)) + 0.166666666666667 * e.Ac2 + e.Ac3 * (0.166666666666667 + e.a3 * e.d3 / (4 * e.Ac3))) / e.Ac),
  (e.i2 * 5 + 4, e.i2 * 5 + 2, (e.E44 * (-e.b1 * e.d1 / 4 + e.b2 * e.d2 / 4) + e.E45 * (e.Ac1 * (0.166666666666667 + e.a1 * e.d1 / (4 * e.Ac1)) + e.Ac2 * (0.166666666666667 - e.b2 * e.c2 / (4 * e.Ac2)) + 0.166666666666667 * e.Ac3)) * (e.Ac1 * (-e.b1 / (2 * e.Ac1) + 0.166666666666667 * (e.b1 - e.d1) / e.Ac1) + e.Ac2 * (e.d2 / (2 * e.Ac2) + 0.166666666666667 * (e.b2 - e.d2) / e.Ac2) + 0.166666666666667 * e.b3 - 0.166666666666667 * e.d3) / e.Ac + (e.E45 * (-e.b1 * e.d1 / 4 + e.b2 * e.d2 / 4) + e.E55 * (e.Ac1 * (0.166666666666667 + e.a1 * e.d1 / (4 * e.Ac1)) + e.Ac2 * (0.166666666666667 - e.b2 * e.c2 / (4 * e.Ac2)) + 0.166666666666667 * e.Ac3)) * (e.Ac1 * (e.a1 / (2 * e.Ac1) + 0.166666666666667 * (-e.a1 + e.c1) / e.Ac1) + e.Ac2 * (-e.c2 / (2 * e.Ac2) + 0.166666666666667 * (-e.a2 + e.c2) / e.Ac2) - 0.166666666666667 * e.a3 + 0.166666666666667 * e.c3) / e.Ac),
  (e.i2 * 5 + 4, e.i2 * 5 + 3, (e.E44 * (-e.b1 * e.d1 / 4 + e.b2 * e.d2 / 4) + e.E45 * (e.Ac1 * (0.166666666666667 + e.a1 * e.d1 / (4 * e.Ac1)) + e.Ac2 * (0.166666666666667 - e.b2 * e.c2 / (4 * e.Ac2)) + 0.166666666666667 * e.Ac3)) * (e.Ac1 * (0.166666666666667 - e.b1 * e.c1 / (4 * e.Ac1)) + e.Ac2 * (0.166666666666667 + e.a2 * e.d2 / (4 * e.Ac2)) + 0.166666666666667 * e.Ac3) / e.Ac + (e.E45 * (-e.b1 * e.d1 / 4 + e.b2 * e.d2 / 4) + e.E55 * (e.Ac1 * (0.166666666666667 + e.a1 * e.d1 / (4 * e.Ac1)) + e.Ac2 * (0.166666666666667 - e.b2 * e.c2 / (4 * e.Ac2)) + 0.166666666666667 * e.Ac3)) * (e.a1 * e.c1 / 4 - e.a2 * e.c2 / 4) / e.Ac),
  (e.i2 * 5 + 4, e.i2 * 5 + 4, (e.E44 * (-e.b1 * e.d1 / 4 + e.b2 * e.d2 / 4) + e.E45 * (e.Ac1 * (0.166666666666667 + e.a1 * e.d1 / (4 * e.Ac1)) + e.Ac2 * (0.166666666666667 - e.b2 * e.c2 / (4 * e.Ac2)) + 0.166666666666667 * e.Ac3)) * (-e.b1 * e.d1 / 4 + e.b2 * e.d2 / 4) / e.Ac + (e.E45 * (-e.b1 * e.d1 / 4 + e.b2 * e.d2 / 4) + e.E55 * (e.Ac1 * (0.166666666666667 + e.a1 * e.d1 / (4 * e.Ac1)) + e.Ac2 * (0.166666666666667 - e.b2 * e.c2 / (4 * e.Ac2)) + 0.166666666666667 * e.Ac3)) * (e.Ac1 * (0.166666666666667 + e.a1 * e.d1 / (4 * e.Ac1)) + e.Ac2 * (0.166666666666667 - e.b2 * e.c2 / (4 * e.Ac2)) + 0.166666666666667 * e.Ac3) / e.Ac),
  (e.i2 * 5 + 4, e.i3 * 5 + 2, (e.E44 * (-e.b1 * e.d1 / 4 + e.b2 * e.d2 / 4) + e.E45 * (e.Ac1 * (0.166666666666667 + e.a1 * e.d1 / (4 * e.Ac1)) + e.Ac2 * (0.166666666666667 - e.b2 * e.c2 / (4 * e.Ac2)) + 0.166666666666667 * e.Ac3)) * (e.Ac2 * (-e.b2 / (2 * e.Ac2) + 0.166666666666667 * (e.b2 - e.d2) / e.Ac2) + e.Ac3 * (e.d3 / (2 * e.Ac3) + 0.166666666666667 * (e.b3 - e.d3) / e.Ac3) + 0.166666666666667 * e.b1 - 0.166666666666667 * e.d1) / e.Ac + (e.E45 * (-e.b1 * e.d1 / 4 + e.b2 * e.d2 / 4) + e.E55 * (e.Ac1 * (0.166666666666667 + e.a1 * e.d1 / (4 * e.Ac1)) + e.Ac2 * (0.166666666666667 - e.b2 * e.c2 / (4 * e.Ac2)) + 0.166666666666667 * e.Ac3)) * (e.Ac2 * (e.a2 / (2 * e.Ac2) + 0.166666666666667 * (-e.a2 + e.c2) / e.Ac2) + e.Ac3 * (-e.c3 / (2 * e.Ac3) + 0.166666666666667 * (-e.a3 + e.c3) / e.Ac3) - 0.166666666666667 * e.a1 + 0.166666666666667 * e.c1) / e.Ac),
  (e.i2 * 5 + 4, e.i3 * 5 + 3, (e.E44 * (-e.b1 * e.d1 / 4 + e.b2 * e.d2 / 4) + e.E45 * (e.Ac1 * (0.166666666666667 + e.a1 * e.d1 / (4 * e.Ac1)) + e.Ac2 * (0.166666666666667 - e.b2 * e.c2 / (4 * e.Ac2)) + 0.166666666666667 * e.Ac3)) * (0.166666666666667 * e.Ac1 + e.Ac2 * (0.166666666666667 - e.b2 * e.c2 / (4 * e.Ac2)) + e.Ac3 * (0.166666666666667 + e.a3 * e.d3 / (4 * e.Ac3))) / e.Ac + (e.E45 * (-e.b1 * e.d1 / 4 + e.b2 * e.d2 / 4) + e.E55 * (e.Ac1 * (0.166666666666667 + e.a1 * e.d1 / (4 * e.Ac1)) + e.Ac2 * (0.166666666666667 - e.b2 * e.c2 / (4 * e.Ac2)) + 0.166666666666667 * e.Ac3)) * (e.a2 * e.c2 / 4 - e.a3 * e.c3 / 4) / e.Ac),
  (e.i2 * 5 + 4, e.i3 * 5 + 4, (e.E44 * (-e.b1 * e.d1 / 4 + e.b2 * e.d2 / 4) + e.E45 * (e.Ac1 * (0.166666666666667 + e.a1 * e.d1 / (4 * e.Ac1)) + e.Ac2 * (0.166666666666667 - e.b2 * e.c2 / (4 * e.Ac2)) + 0.166666666666667 * e.Ac3)) * (-e.b2 * e.d2 / 4 + e.b3 * e.d3 / 4) / e.Ac + (e.E45 * (-e.b1 * e.d1 / 4 + e.b2 * e.d2 / 4) + e.E55 * (e.Ac1 * (0.166666666666667 + e.a1 * e.d1 / (4 * e.Ac1)) + e.Ac2 * (0.166666666666667 - e.b2 * e.c2 / (4 * e.Ac2)) + 0.166666666666667 * e.Ac3)) * (0.166666666666667 * e.Ac1 + e.Ac2 * (0.166666666666667 + e.a2 * e.d2 / (4 * e.Ac2)) + e.Ac3 * (0.166666666666667 - e.b3 * e.c3 / (4 * e.Ac3))) / e.Ac)]

/-- meshless/espim/plate2d_add_k0s_cell_based.py:148-156 -/
def cellS_i3_2 (e : CellSEnv K) : List (ℤ × ℤ × K) := [
  (e.i3 * 5 + 2, e.i1 * 5 + 2, (e.E44 * (e.Ac2 * (-e.b2 / (2 * e.Ac2) + 0.166666666666667 * (e.b2 - e.d2) / e.Ac2) + e.Ac3 * (e.d3 / (2 * e.Ac3) + 0.166666666666667 * (e.b3 - e.d3) / e.Ac3) + 0.166666666666667 * e.b1 - 0.166666666666667 * e.d1) + e.E45 * (e.Ac2 * (e.a2 / (2 * e.Ac2) + 0.166666666666667 * (-e.a2 + e.c2) / e.Ac2) + e.Ac3 * (-e.c3 / (2 * e.Ac3) + 0.166666666666667 * (-e.a3 + e.c3) / e.Ac3) - 0.166666666666667 * e.a1 + 0.166666666666667 * e.c1)) * (e.Ac1 * (e.d1 / (2 * e.Ac1) + 0.166666666666667 * (e.b1 - e.d1) / e.Ac1) + e.Ac3 * (-e.b3 / (2 * e.Ac3) + 0.166666666666667 * (e.b3 - e.d3) / e.Ac3) + 0.166666666666667 * e.b2 - 0.166666666666667 * e.d2) / e.Ac + (e.E45 * (e.Ac2 * (-e.b2 / (2 * e.Ac2) + 0.166666666666667 * (e.b2 - e.d2) / e.Ac2) + e.Ac3 * (e.d3 / (2 * e.Ac3) + 0.166666666666667 * (e.b3 - e.d3) / e.Ac3) + 0.166666666666667 * e.b1 - 0.166666666666667 * e.d1) + e.E55 * (e.Ac2 * (e.a2 / (2 * e.Ac2) + 0.166666666666667 * (-e.a2 + e.c2) / e.Ac2) + e.Ac3 * (-e.c3 / (2 * e.Ac3) + 0.166666666666667 * (-e.a3 + e.c3) / e.Ac3) - 0.166666666666667 * e.a1 + 0.166666666666667 * e.c1)) * (e.Ac1 * (-e.c1 / (2 * e.Ac1) + 0.166666666666667 * (-e.a1 + e.c1) / e.Ac1) + e.Ac3 * (e.a3 / (2 * e.Ac3) + 0.166666666666667 * (-e.a3 + e.c3) / e.Ac3) - 0.166666666666667 * e.a2 + 0.166666666666667 * e.c2) / e.Ac),
  (e.i3 * 5 + 2, e.i1 * 5 + 3, (e.E44 * (e.Ac2 * (-e.b2 / (2 * e.Ac2) + 0.166666666666667 * (e.b2 - e.d2) / e.Ac2) + e.Ac3 * (e.d3 / (2 * e.Ac3) + 0.166666666666667 * (e.b3 - e.d3) / e.Ac3) + 0.166666666666667 * e.b1 - 0.166666666666667 * e.d1) + e.E45 * (e.Ac2 * (e.a2 / (2 * e.Ac2) + 0.166666666666667 * (-e.a2 + e.c2) / e.Ac2) + e.Ac3 * (-e.c3 / (2 * e.Ac3) + 0.166666666666667 * (-e.a3 + e.c3) / e.Ac3) - 0.166666666666667 * e.a1 + 0.166666666666667 * e.c1)) * (e.Ac1 * (0.166666666666667 + e.a1 * e.d1 / (4 * e.Ac1)) + 0.166666666666667 * e.Ac2 + e.Ac3 * (0.166666666666667 - e.b3 * e.c3 / (4 * e.Ac3))) / e.Ac + (e.E45 * (e.Ac2 * (-e.b2 / (2 * e.Ac2) + 0.166666666666667 * (e.b2 - e.d2) / e.Ac2) + e.Ac3 * (e.d3 / (2 * e.Ac3) + 0.166666666666667 * (e.b3 - e.d3) / e.Ac3) + 0.166666666666667 * e.b1 - 0.166666666666667 * e.d1) + e.E55 * (e.Ac2 * (e.a2 / (2 * e.Ac2) + 0.166666666666667 * (-e.a2 + e.c2) / e.Ac2) + e.Ac3 * (-e.c3 / (2 * e.Ac3) + 0.166666666666667 * (-e.a3 + e.c3) / e.Ac3) - 0.166666666666667 * e.a1 + 0.166666666666667 * e.c1)) * (-e.a1 * e.c1 / 4 + e.a3 * e.c3 / 4) / e.Ac),
  (e.i3 * 5 + 2, e.i1 * 5 + 4, (e.E44 * (e.Ac2 * (-e.b2 / (2 * e.Ac2) + 0.166666666666667 * (e.b2 - e.d2) / e.Ac2) + e.Ac3 * (e.d3 / (2 * e.Ac3) + 0.166666666666667 * (e.b3 - e.d3) / e.Ac3) + 0.166666666666667 * e.b1 - 0.166666666666667 * e.d1) + e.E45 * (e.Ac2 * (e.a2 / (2 * e.Ac2) + 0.166666666666667 * (-e.a2 + e.c2) / e.Ac2) + e.Ac3 * (-e.c3 / (2 * e.Ac3) + 0.166666666666667 * (-e.a3 + e.c3) / e.Ac3) - 0.166666666666667 * e.a1 + 0.166666666666667 * e.c1)) * (e.b1 * e.d1 / 4 - e.b3 * e.d3 / 4) / e.Ac + (e.E45 * (e.Ac2 * (-e.b2 / (2 * e.Ac2) + 0.166666666666667 * (e.b2 - e.d2) / e.Ac2) + e.Ac3 * (e.d3 / (2 * e.Ac3) + 0.166666666666667 * (e.b3 - e.d3) / e.Ac3) + 0.166666666666667 * e.b1 - 0.166666666666667 * e.d1) + e.E55 * (e.Ac2 * (e.a2 / (2 * e.Ac2) + 0.166666666666667 * (-e.a2 + e.c2) / e.Ac2) + e.Ac3 * (-e.c3 / (2 * e.Ac3) + 0.166666666666667 * (-e.a3 + e.c3) / e.Ac3) - 0.166666666666667 * e.a1 + 0.166666666666667 * e.c1)) * (e.Ac1 * (0.166666666666667 - e.b1 * e.c1 / (4 * e.Ac1)) + 0.166666666666667 * e.Ac2 + e.Ac3 * (0.166666666666667 + e.a3 * e.d3 / (4 * e.Ac3))) / e.Ac),
  (e.i3 * 5 + 2, e.i2 * 5 + 2, (e.E44 * (e.Ac2 * (-e.b2 / (2 * e.Ac2) + 0.166666666666667 * (e.b2 - e.d2) / e.Ac2) + e.Ac3 * (e.d3 / (2 * e.Ac3) + 0.166666666666667 * (e.b3 - e.d3) / e.Ac3) + 0.166666666666667 * e.b1 - 0.166666666666667 * e.d1) + e.E45 * (e.Ac2 * (e.a2 / (2 * e.Ac2) + 0.166666666666667 * (-e.a2 + e.c2) / e.Ac2) + e.Ac3 * (-e.c3 / (2 * e.Ac3) + 0.166666666666667 * (-e.a3 + e.c3) / e.Ac3) - 0.166666666666667 * e.a1 + 0.166666666666667 * e.c1)) * (e.Ac1 * (-e.b1 / (2 * e.Ac1) + 0.166666666666667 * (e.b1 - e.d1) / e.Ac1) + e.Ac2 * (e.d2 / (2 * e.Ac2) + 0.166666666666667 * (e.b2 - e.d2) / e.Ac2) + 0.166666666666667 * e.b3 - 0.166666666666667 * e.d3) / e.Ac + (e.E45 * (e.Ac2 * (-e.b2 / (2 * e.Ac2) + 0.166666666666667 * (e.b2 - e.d2) / e.Ac2) + e.Ac3 * (e.d3 / (2 * e.Ac3) + 0.166666666666667 * (e.b3 - e.d3) / e.Ac3) + 0.166666666666667 * e.b1 - 0.166666666666667 * e.d1) + e.E55 * (e.Ac2 * (e.a2 / (2 * e.Ac2) + 0.166666666666667 * (-e.a2 + e.c2) / e.Ac2) + e.Ac3 * (-e.c3 / (2 * e.Ac3) + 0.166666666666667 * (-e.a3 + e.c3) / e.Ac3) - 0.166666666666667 * e.a1 + 0.166666666666667 * e.c1)) * (e.Ac1 * (e.a1 / (2 * e.Ac1) + 0.166666666666667 * (-e.a1 + e.c1) / e.Ac1) + e.Ac2 * (-e.c2 / (2 * e.Ac2) + 0.166666666666667 * (-e.a2 + e.c2) / e.Ac2) - 0.166666666666667 * e.a3 + 0.166666666666667 * e.c3) / e.Ac),
  (e.i3 * 5 + 2, e.i2 * 5 + 3, (e.E44 * (e.Ac2 * (-e.b2 / (2 * e.Ac2) + 0.166666666666667 * (e.b2 - e.d2) / e.Ac2) + e.Ac3 * (e.d3 / (2 * e.Ac3) + 0.166666666666667 * (e.b3 - e.d3) / e.Ac3) + 0.166666666666667 * e.b1 - 0.166666666666667 * e.d1) + e.E45 * (e.Ac2 * (e.a2 / (2 * e.Ac2) + 0.166666666666667 * (-e.a2 + e.c2) / e.Ac2) + e.Ac3 * (-e.c3 / (2 * e.Ac3) + 0.166666666666667 * (-e.a3 + e.c3) / e.Ac3) - 0.166666666666667 * e.a1 + 0.166666666666667 * e.c1)) * (e.Ac1 * (0.166666666666667 - e.b1 * e.c1 / (4 * e.Ac1)) + e.Ac2 * (0.166666666666667 + e.a2 * e.d2 / (4 * e.Ac2)) + 0.166666666666667 * e.Ac3) / e.Ac + (e.E45 * (e.Ac2 * (-e.b2 / (2 * e.Ac2) + 0.166666666666667 * (e.b2 - e.d2) / e.Ac2) + e.Ac3 * (e.d3 / (2 * e.Ac3) + 0.166666666666667 * (e.b3 - e.d3) / e.Ac3) + 0.166666666666667 * e.b1 - 0.166666666666667 * e.d1) + e.E55 * (e.Ac2 * (e.a2 / (2 * e.Ac2) + 0.166666666666667 * (-e.a2 + e.c2) / e.Ac2) + e.Ac3 * (-e.c3 / (2 * e.Ac3) + 0.166666666666667 * (-e.a3 + e.c3) / e.Ac3) - 0.166666666666667 * e.a1 + 0.166666666666667 * e.c1)) * (e.a1 * e.c1 / 4 - e.a2 * e.c2 / 4) / e.Ac),
  (e.i3 * 5 + 2, e.i2 * 5 + 4, (e.E44 * (e.Ac2 * (-e.b2 / (2 * e.Ac2) + 0.166666666666667 * (e.b2 - e.d2) / e.Ac2) + e.Ac3 * (e.d3 / (2 * e.Ac3) + 0.166666666666667 * (e.b3 - e.d3) / e.Ac3) + 0.166666666666667 * e.b1 - 0.166666666666667 * e.d1) + e.E45 * (e.Ac2 * (e.a2 / (2 * e.Ac2) + 0.166666666666667 * (-e.a2 + e.c2) / e.Ac2) + e.Ac3 * (-e.c3 / (2 * e.Ac3) + 0.166666666666667 * (-e.a3 + e.c3) / e.Ac3) - 0.166666666666667 * e.a1 + 0.166666666666667 * e.c1)) * (-e.b1 * e.d1 / 4 + e.b2 * e.d2 / 4) / e.Ac + (e.E45 * (e.Ac2 * (-e.b2 / (2 * e.Ac2) + 0.166666666666667 * (e.b2 - e.d2) / e.Ac2) + e.Ac3 * (e.d3 / (2 * e.Ac3) + 0.166666666666667 * (e.b3 - e.d3) / e.Ac3) + 0.166666666666667 * e.b1 - 0.166666666666667 * e.d1) + e.E55 * (e.Ac2 * (e.a2 / (2 * e.Ac2) + 0.166666666666667 * (-e.a2 + e.c2) / e.Ac2) + e.Ac3 * (-e.c3 / (2 * e.Ac3) + 0.166666666666667 * (-e.a3 + e.c3) / e.Ac3) - 0.166666666666667 * e.a1 + 0.166666666666667 * e.c1)) * (e.Ac1 * (0.166666666666667 + e.a1 * e.d1 / (4 * e.Ac1)) + e.Ac2 * (0.166666666666667 - e.b2 * e.c2 / (4 * e.Ac2)) + 0.166666666666667 * e.Ac3) / e.Ac),
  (e.i3 * 5 + 2, e.i3 * 5 + 2, (e.E44 * (e.Ac2 * (-e.b2 / (2 * e.Ac2) + 0.166666666666667 * (e.b2 - e.d2) / e.Ac2) + e.Ac3 * (e.d3 / (2 * e.Ac3) + 0.166666666666667 * (e.b3 - e.d3) / e.Ac3) + 0.166666666666667 * e.b1 - 0.166666666666667 * e.d1) + e.E45 * (e.Ac2 * (e.a2 / (2 * e.Ac2) + 0.166666666666667 * (-e.a2 + e.c2) / e.Ac2) + e.Ac3 * (-e.c3 / (2 * e.Ac3) + 0.166666666666667 * (-e.a3 + e.c3) / e.Ac3) - 0.166666666666667 * e.a1 + 0.166666666666667 * e.c1)) * (e.Ac2 * (-e.b2 / (2 * e.Ac2) + 0.166666666666667 * (e.b2 - e.d2) / e.Ac2) + e.Ac3 * (e.d3 / (2 * e.Ac3) + 0.166666666666667 * (e.b3 - e.d3) / e.Ac3) + 0.166666666666667 * e.b1 - 0.166666666666667 * e.d1) / e.Ac + (e.E45 * (e.Ac2 * (-e.b2 / (2 * e.Ac2) + 0.166666666666667 * (e.b2 - e.d2) / e.Ac2) + e.Ac3 * (e.d3 / (2 * e.Ac3) + 0.166666666666667 * (e.b3 - e.d3) / e.Ac3) + 0.166666666666667 * e.b1 - 0.166666666666667 * e.d1) + e.E55 * (e.Ac2 * (e.a2 / (2 * e.Ac2) + 0.166666666666667 * (-e.a2 + e.c2) / e.Ac2) + e.Ac3 * (-e.c3 / (2 * e.Ac3) + 0.166666666666667 * (-e.a3 + e.c3) / e.Ac3) - 0.166666666666667 * e.a1 + 0.166666666666667 * e.c1)) * (e.Ac2 * (e.a2 / (2 * e.Ac2) + 0.166666666666667 * (-e.a2 + e.c2) / e.Ac2) + e.Ac3 * (-e.c3 / (2 * e.Ac3) + 0.166666666666667 * (-e.a3 + e.c3) / e.Ac3) - 0.166666666666667 * e.a1 + 0.166666666666667 * e.c1) / e.Ac),
  (e.i3 * 5 + 2, e.i3 * 5 + 3, (e.E44 * (e.Ac2 * (-e.b2 / (2 * e.Ac2) + 0.166666666666667 * (e.b2 - e.d2) / e.Ac2) + e.Ac3 * (e.d3 / (2 * e.Ac3) + 0.166666666666667 * (e.b3 - e.d3) / e.Ac3) + 0.166666666666667 * e.b1 - 0.166666666666667 * e.d1) + e.E45 * (e.Ac2 * (e.a2 / (2 * e.Ac2) + 0.166666666666667 * (-e.a2 + e.c2) / e.Ac2) + e.Ac3 * (-e.c3 / (2 * e.Ac3) + 0.166666666666667 * (-e.a3 + e.c3) / e.Ac3) - 0.166666666666667 * e.a1 + 0.166666666666667 * e.c1)) * (0.166666666666667 * e.Ac1 + e.Ac2 * (0.166666666666667 - e.b2 * e.c2 / (4 * e.Ac2)) + e.Ac3 * (0.166666666666667 + e.a3 * e.d3 / (4 * e.Ac3))) / e.Ac + (e.E45 * (e.Ac2 * (-e.b2 / (2 * e.Ac2) + 0.166666666666667 * (e.b2 - e.d2) / e.Ac2) + e.Ac3 * (e.d3 / (2 * e.Ac3) + 0.166666666666667 * (e.b3 - e.d3) / e.Ac3) + 0.166666666666667 * e.b1 - 0.166666666666667 * e.d1) + e.E55 * (e.Ac2 * (e.a2 / (2 * e.Ac2) + 0.166666666666667 * (-e.a2 + e.c2) / e.Ac2) + e.Ac3 * (-e.c3 / (2 * e.Ac3) + 0.166666666666667 * (-e.a3 + e.c3) / e.Ac3) - 0.166666666666667 * e.a1 + 0.166666666666667 * e.c1)) * (e.a2 * e.c2 / 4 - e.a3 * e.c3 / 4) / e.Ac),
  (e.i3 * 5 + 2, e.i3 * 5 + 4, (e.E44 * (e.Ac2 * (-e.b2 / (2 * e.Ac2) + 0.166666666666667 * (e.b2 - e.d2) / e.Ac2) + e.Ac3 * (e.d3 / (2 * e.Ac3) + 0.166666666666667 * (e.b3 - e.d3) / e.Ac3) + 0.166666666666667 * e.b1 - 0.166666666666667 * e.d1) + e.E45 * (e.Ac2 * (e.a2 / (2 * e.Ac2) + 0.166666666666667 * (-e.a2 + e.c2) / e.Ac2) + e.Ac3 * (-e.c3 / (2 * e.Ac3) + 0.166666666666667 * (-e.a3 + e.c3) / e.Ac3) - 0.166666666666667 * e.a1 + 0.166666666666667 * e.c1)) * (-e.b2 * e.d2 / 4 + e.b3 * e.d3 / 4) / e.Ac + (e.E45 * (e.Ac2 * (-e.b2 / (2 * e.Ac2) + 0.166666666666667 * (e.b2 - e.d2) / e.Ac2) + e.Ac3 * (e.d3 / (2 * e.Ac3) + 0.166666666666667 * (e.b3 - e.d3) / e.Ac3) + 0.166666666666667 * e.b1 - 0.166666666666667 * e.d1) + e.E55 * (e.Ac2 * (e.a2 / (2 * e.Ac2) + 0.166666666666667 * (-e.a2 + e.c2) / e.Ac2) + e.Ac3 * (-e.c3 / (2 * e.Ac3) + 0.166666666666667 * (-e.a3 + e.c3) / e.Ac3) - 0.166666666666667 * e.a1 + 0.166666666666667 * e.c1)) * (0.166666666666667 * e.Ac1 + e.Ac2 * (0.166666666666667 + e.a2 * e.d2 / (4 * e.Ac2)) + e.Ac3 * (0.166666666666667 - e.b3 * e.c3 / (4 * e.Ac3))) / e.Ac)]

/-- meshless/espim/plate2d_add_k0s_cell_based.py:157-165 -/
def cellS_i3_3 (e : CellSEnv K) : List (ℤ × ℤ × K) := [
  (e.i3 * 5 + 3, e.i1 * 5 + 2, (e.E44 * (0.166666666666667 * e.Ac1 + e.Ac2 * (0.166666666666667 - e.b2 * e.c2 / (4 * e.Ac2)) + e.Ac3 * (0.166666666666667 + e.a3 * e.d3 / (4 * e.Ac3))) + e.E45 * (e.a2 * e.c2 / 4 - e.a3 * e.c3 / 4)) * (e.Ac1 * (e.d1 / (2 * e.Ac1) + 0.166666666666667 * (e.b1 - e.d1) / e.Ac1) + e.Ac3 * (-e.b3 / (2 * e.Ac3) + 0.166666666666667 * (e.b3 - e.d3) / e.Ac3) + 0.166666666666667 * e.b2 - 0.166666666666667 * e.d2) / e.Ac + (e.E45 * (0.166666666666667 * e.Ac1 + e.Ac2 * (0.166666666666667 - e.b2 * e.c2 / (4 * e.Ac2)) + e.Ac3 * (0.166666666666667 + e.a3 * e.d3 / (4 * e.Ac3))) + e.E55 * (e.a2 * e.c2 / 4 - e.a3 * e.c3 / 4)) * (e.Ac1 * (-e.c1 / (2 * e.Ac1) + 0.166666666666667 * (-e.a1 + e.c1) / e.Ac1) + e.Ac3 * (e.a3 / (2 * e.Ac3) + 0.166666666666667 * (-e.a3 + e.c3) / e.Ac3) - 0.166666666666667 * e.a2 + 0.166666666666667 * e.c2) / e.Ac),
  (e.i3 * 5 + 3, e.i1 * 5 + 3, (e.E44 * (0.166666666666667 * e.Ac1 + e.Ac2 * (0.166666666666667 - e.b2 * e.c2 / (4 * e.Ac2)) + e.Ac3 * (0.166666666666667 + e.a3 * e.d3 / (4 * e.Ac3))) + e.E45 * (e.a2 * e.c2 / 4 - e.a3 * e.c3 / 4)) * (e.Ac1 * (0.166666666666667 + e.a1 * e.d1 / (4 * e.Ac1)) + 0.166666666666667 * e.Ac2 + e.Ac3 * (0.166666666666667 - e.b3 * e.c3 / (4 * e.Ac3))) / e.Ac + (e.E45 * (0.166666666666667 * e.Ac1 + e.Ac2 * (0.166666666666667 - e.b2 * e.c2 / (4 * e.Ac2)) + e.Ac3 * (0.166666666666667 + e.a3 * e.d3 / (4 * e.Ac3))) + e.E55 * (e.a2 * e.c2 / 4 - e.a3 * e.c3 / 4)) * (-e.a1 * e.c1 / 4 + e.a3 * e.c3 / 4) / e.Ac),
  (e.i3 * 5 + 3, e.i1 * 5 + 4, (e.E44 * (0.166666666666667 * e.Ac1 + e.Ac2 * (0.166666666666667 - e.b2 * e.c2 / (4 * e.Ac2)) + e.Ac3 * (0.166666666666667 + e.a3 * e.d3 / (4 * e.Ac3))) + e.E45 * (e.a2 * e.c2 / 4 - e.a3 * e.c3 / 4)) * (e.b1 * e.d1 / 4 - e.b3 * e.d3 / 4) / e.Ac + (e.E45 * (0.166666666666667 * e.Ac1 + e.Ac2 * (0.166666666666667 - e.b2 * e.c2 / (4 * e.Ac2)) + e.Ac3 * (0.166666666666667 + e.a3 * e.d3 / (4 * e.Ac3))) + e.E55 * (e.a2 * e.c2 / 4 - e.a3 * e.c3 / 4)) * (e.Ac1 * (0.166666666666667 - e.b1 * e.c1 / (4 * e.Ac1)) + 0.166666666666667 * e.Ac2 + e.Ac3 * (0.166666666666667 + e.a3 * e.d3 / (4 * e.Ac3))) / e.Ac),
  (e.i3 * 5 + 3, e.i2 * 5 + 2, (e.E44 * (0.166666666666667 * e.Ac1 + e.Ac2 * (0.166666666666667 - e.b2 * e.c2 / (4 * e.Ac2)) + e.Ac3 * (0.166666666666667 + e.a3 * e.d3 / (4 * e.Ac3))) + e.E45 * (e.a2 * e.c2 / 4 - e.a3 * e.c3 / 4)) * (e.Ac1 * (-e.b1 / (2 * e.Ac1) + 0.166666666666667 * (e.b1 - e.d1) / e.Ac1) + e.Ac2 * (e.d2 / (2 * e.Ac2) + 0.166666666666667 * (e.b2 - e.d2) / e.Ac2) + 0.166666666666667 * e.b3 - 0.166666666666667 * e.d3) / e.Ac + (e.E45 * (0.166666666666667 * e.Ac1 + e.Ac2 * (0.166666666666667 - e.b2 * e.c2 / (4 * e.Ac2)) + e.Ac3 * (0.166666666666667 + e.a3 * e.d3 / (4 * e.Ac3))) + e.E55 * (e.a2 * e.c2 / 4 - e.a3 * e.c3 / 4)) * (e.Ac1 * (e.a1 / (2 * e.Ac1) + 0.166666666666667 * (-e.a1 + e.c1) / e.Ac1) + e.Ac2 * (-e.c2 / (2 * e.Ac2) + 0.166666666666667 * (-e.a2 + e.c2) / e.Ac2) - 0.166666666666667 * e.a3 + 0.166666666666667 * e.c3) / e.Ac),
  (e.i3 * 5 + 3, e.i2 * 5 + 3, (e.E44 * (0.166666666666667 * e.Ac1 + e.Ac2 * (0.166666666666667 - e.b2 * e.c2 / (4 * e.Ac2)) + e.Ac3 * (0.166666666666667 + e.a3 * e.d3 / (4 * e.Ac3))) + e.E45 * (e.a2 * e.c2 / 4 - e.a3 * e.c3 / 4)) * (e.Ac1 * (0.166666666666667 - e.b1 * e.c1 / (4 * e.Ac1)) + e.Ac2 * (0.166666666666667 + e.a2 * e.d2 / (4 * e.Ac2)) + 0.166666666666667 * e.Ac3) / e.Ac + (e.E45 * (0.166666666666667 * e.Ac1 + e.Ac2 * (0.166666666666667 - e.b2 * e.c2 / (4 * e.Ac2)) + e.Ac3 * (0.166666666666667 + e.a3 * e.d3 / (4 * e.Ac3))) + e.E55 * (e.a2 * e.c2 / 4 - e.a3 * e.c3 / 4)) * (e.a1 * e.c1 / 4 - e.a2 * e.c2 / 4) / e.Ac),
  (e.i3 * 5 + 3, e.i2 * 5 + 4, (e.E44 * (0.166666666666667 * e.Ac1 + e.Ac2 * (0.166666666666667 - e.b2 * e.c2 / (4 * e.Ac2)) + e.Ac3 * (0.166666666666667 + e.a3 * e.d3 / (4 * e.Ac3))) + e.E45 * (e.a2 * e.c2 / 4 - e.a3 * e.c3 / 4)) * (-e.b1 * e.d1 / 4 + e.b2 * e.d2 / 4) / e.Ac + (e.E45 * (0.166666666666667 * e.Ac1 + e.Ac2 * (0.166666666666667 - e.b2 * e.c2 / (4 * e.Ac2)) + e.Ac3 * (0.166666666666667 + e.a3 * e.d3 / (4 * e.Ac3))) + e.E55 * (e.a2 * e.c2 / 4 - e.a3 * e.c3 / 4)) * (e.Ac1 * (0.166666666666667 + e.a1 * e.d1 / (4 * e.Ac1)) + e.Ac2 * (0.166666666666667 - e.b2 * e.c2 / (4 * e.Ac2)) + 0.166666666666667 * e.Ac3) / e.Ac),
  (e.i3 * 5 + 3, e.i3 * 5 + 2, (e.E44 * (0.166666666666667 * e.Ac1 + e.Ac2 * (0.166666666666667 - e.b2 * e.c2 / (4 * e.Ac2)) + e.Ac3 * (0.166666666666667 + e.a3 * e.d3 / (4 * e.Ac3))) + e.E45 * (e.a2 * e.c2 / 4 - e.a3 * e.c3 / 4)) * (e.Ac2 * (-e.b2 / (2 * e.Ac2) + 0.166666666666667 * (e.b2 - e.d2) / e.Ac2) + e.Ac3 * (e.d3 / (2 * e.Ac3) + 0.166666666666667 * (e.b3 - e.d3) / e.Ac3) + 0.166666666666667 * e.b1 - 0.166666666666667 * e.d1) / e.Ac + (e.E45 * (0.166666666666667 * e.Ac1 + e.Ac2 * (0.166666666666667 - e.b2 * e.c2 / (4 * e.Ac2)) + e.Ac3 * (0.166666666666667 + e.a3 * e.d3 / (4 * e.Ac3))) + e.E55 * (e.a2 * e.c2 / 4 - e.a3 * e.c3 / 4)) * (e.Ac2 * (e.a2 / (2 * e.Ac2) + 0.166666666666667 * (-e.a2 + e.c2) / e.Ac2) + e.Ac3 * (-e.c3 / (2 * e.Ac3) + 0.166666666666667 * (-e.a3 + e.c3) / e.Ac3) - 0.166666666666667 * e.a1 + 0.166666666666667 * e.c1) / e.Ac),
  (e.i3 * 5 + 3, e.i3 * 5 + 3, (e.E44 * (0.166666666666667 * e.Ac1 + e.Ac2 * (0.166666666666667 - e.b2 * e.c2 / (4 * e.Ac2)) + e.Ac3 * (0.166666666666667 + e.a3 * e.d3 / (4 * e.Ac3))) + e.E45 * (e.a2 * e.c2 / 4 - e.a3 * e.c3 / 4)) * (0.166666666666667 * e.Ac1 + e.Ac2 * (0.166666666666667 - e.b2 * e.c2 / (4 * e.Ac2)) + e.Ac3 * (0.166666666666667 + e.a3 * e.d3 / (4 * e.Ac3))) / e.Ac + (e.E45 * (0.166666666666667 * e.Ac1 + e.Ac2 * (0.166666666666667 - e.b2 * e.c2 / (4 * e.Ac2)) + e.Ac3 * (0.166666666666667 + e.a3 * e.d3 / (4 * e.Ac3))) + e.E55 * (e.a2 * e.c2 / 4 - e.a3 * e.c3 / 4)) * (e.a2 * e.c2 / 4 - e.a3 * e.c3 / 4) / e.Ac),
  (e.i3 * 5 + 3, e.i3 * 5 + 4, (e.E44 * (0.166666666666667 * e.Ac1 + e.Ac2 * (0.166666666666667 - e.b2 * e.c2 / (4 * e.Ac2)) + e.Ac3 * (0.166666666666667 + e.a3 * e.d3 / (4 * e.Ac3))) + e.E45 * (e.a2 * e.c2 / 4 - e.a3 * e.c3 / 4)) * (-e.b2 * e.d2 / 4 + e.b3 * e.d3 / 4) / e.Ac + (e.E45 * (0.166666666666667 * e.Ac1 + e.Ac2 * (0.166666666666667 - e.b2 * e.c2 / (4 * e.Ac2)) + e.Ac3 * (0.166666666666667 + e.a3 * e.d3 / (4 * e.Ac3))) + e.E55 * (e.a2 * e.c2 / 4 - e.a3 * e.c3 / 4)) * (0.166666666666667 * e.Ac1 + e.Ac2 * (0.166666666666667 + e.a2 * e.d2 / (4 * e.Ac2)) + e.Ac3 * (0.166666666666667 - e.b3 * e.c3 / (4 * e.Ac3))) / e.Ac)]

/-- meshless/espim/plate2d_add_k0s_cell_based.py:166-174 -/
def cellS_i3_4 (e : CellSEnv K) : List (ℤ × ℤ × K) := [
  (e.i3 * 5 + 4, e.i1 * 5 + 2, (e.E44 * (-e.b2 * e.d2 / 4 + e.b3 * e.d3 / 4) + e.E45 * (0.166666666666667 * e.Ac1 + e.Ac2 * (0.166666666666667 + e.a2 * e.d2 / (4 * e.Ac2)) + e.Ac3 * (0.166666666666667 - e.b3 * e.c3 / (4 * e.Ac3)))) * (e.Ac1 * (e.d1 / (2 * e.Ac1) + 0.166666666666667 * (e.b1 - e.d1) / e.Ac1) + e.Ac3 * (-e.b3 / (2 * e.Ac3) + 0.166666666666667 * (e.b3 - e.d3) / e.Ac3) + 0.166666666666667 * e.b2 - 0.166666666666667 * e.d2) / e.Ac + (e.E45 * (-e.b2 * e.d2 / 4 + e.b3 * e.d3 / 4) + e.E55 * (0.166666666666667 * e.Ac1 + e.Ac2 * (0.166666666666667 + e.a2 * e.d2 / (4 * e.Ac2)) + e.Ac3 * (0.166666666666667 - e.b3 * e.c3 / (4 * e.Ac3)))) * (e.Ac1 * (-e.c1 / (2 * e.Ac1) + 0.166666666666667 * (-e.a1 + e.c1) / e.Ac1) + e.Ac3 * (e.a3 / (2 * e.Ac3) + 0.166666666666667 * (-e.a3 + e.c3) / e.Ac3) - 0.166666666666667 * e.a2 + 0.166666666666667 * e.c2) / e.Ac),
  (e.i3 * 5 + 4, e.i1 * 5 + 3, (e.E44 * (-e.b2 * e.d2 / 4 + e.b3 * e.d3 / 4) + e.E45 * (0.166666666666667 * e.Ac1 + e.Ac2 * (0.166666666666667 + e.a2 * e.d2 / (4 * e.Ac2)) + e.Ac3 * (0.166666666666667 - e.b3 * e.c3 / (4 * e.Ac3)))) * (e.Ac1 * (0.166666666666667 + e.a1 * e.d1 / (4 * e.Ac1)) + 0.166666666666667 * e.Ac2 + e.Ac3 * (0.166666666666667 - e.b3 * e.c3 / (4 * e.Ac3))) / e.Ac + (e.E45 * (-e.b2 * e.d2 / 4 + e.b3 * e.d3 / 4) + e.E55 * (0.166666666666667 * e.Ac1 + e.Ac2 * (0.166666666666667 + e.a2 * e.d2 / (4 * e.Ac2)) + e.Ac3 * (0.166666666666667 - e.b3 * e.c3 / (4 * e.Ac3)))) * (-e.a1 * e.c1 / 4 + e.a3 * e.c3 / 4) / e.Ac),
  (e.i3 * 5 + 4, e.i1 * 5 + 4, (e.E44 * (-e.b2 * e.d2 / 4 + e.b3 * e.d3 / 4) + e.E45 * (0.166666666666667 * e.Ac1 + e.Ac2 * (0.166666666666667 + e.a2 * e.d2 / (4 * e.Ac2)) + e.Ac3 * (0.166666666666667 - e.b3 * e.c3 / (4 * e.Ac3)))) * (e.b1 * e.d1 / 4 - e.b3 * e.d3 / 4) / e.Ac + (e.E45 * (-e.b2 * e.d2 / 4 + e.b3 * e.d3 / 4) + e.E55 * (0.166666666666667 * e.Ac1 + e.Ac2 * (0.166666666666667 + e.a2 * e.d2 / (4 * e.Ac2)) + e.Ac3 * (0.166666666666667 - e.b3 * e.c3 / (4 * e.Ac3)))) * (e.Ac1 * (0.166666666666667 - e.b1 * e.c1 / (4 * e.Ac1)) + 0.166666666666667 * e.Ac2 + e.Ac3 * (0.166666666666667 + e.a3 * e.d3 / (4 * e.Ac3))) / e.Ac),
  (e.i3 * 5 + 4, e.i2 * 5 + 2, (e.E44 * (-e.b2 * e.d2 / 4 + e.b3 * e.d3 / 4) + e.E45 * (0.166666666666667 * e.Ac1 + e.Ac2 * (0.166666666666667 + e.a2 * e.d2 / (4 * e.Ac2)) + e.Ac3 * (0.166666666666667 - e.b3 * e.c3 / (4 * e.Ac3)))) * (e.Ac1 * (-e.b1 / (2 * e.Ac1) + 0.166666666666667 * (e.b1 - e.d1) / e.Ac1) + e.Ac2 * (e.d2 / (2 * e.Ac2) + 0.166666666666667 * (e.b2 - e.d2) / e.Ac2) + 0.166666666666667 * e.b3 - 0.166666666666667 * e.d3) / e.Ac + (e.E45 * (-e.b2 * e.d2 / 4 + e.b3 * e.d3 / 4) + e.E55 * (0.166666666666667 * e.Ac1 + e.Ac2 * (0.166666666666667 + e.a2 * e.d2 / (4 * e.Ac2)) + e.Ac3 * (0.166666666666667 - e.b3 * e.c3 / (4 * e.Ac3)))) * (e.Ac1 * (e.a1 / (2 * e.Ac1) + 0.166666666666667 * (-e.a1 + e.c1) / e.Ac1) + e.Ac2 * (-e.c2 / (2 * e.Ac2) + 0.166666666666667 * (-e.a2 + e.c2) / e.Ac2) - 0.166666666666667 * e.a3 + 0.166666666666667 * e.c3) / e.Ac),
  (e.i3 * 5 + 4, e.i2 * 5 + 3, (e.E44 * (-e.b2 * e.d2 / 4 + e.b3 * e.d3 / 4) + e.E45 * (0.166666666666667 * e.Ac1 + e.Ac2 * (0.166666666666667 + e.a2 * e.d2 / (4 * e.Ac2)) + e.Ac3 * (0.166666666666667 - e.b3 * e.c3 / (4 * e.Ac3)))) * (e.Ac1 * (0.166666666666667 - e.b1 * e.c1 / (4 * e.Ac1)) + e.Ac2 * (0.166666666666667 + e.a2 * e.d2 / (4 * e.Ac2)) + 0.166666666666667 * e.Ac3) / e.Ac + (e.E45 * (-e.b2 * e.d2 / 4 + e.b3 * e.d3 / 4) + e.E55 * (0.166666666666667 * e.Ac1 + e.Ac2 * (0.166666666666667 + e.a2 * e.d2 / (4 * e.Ac2)) + e.Ac3 * (0.166666666666667 - e.b3 * e.c3 / (4 * e.Ac3)))) * (e.a1 * e.c1 / 4 - e.a2 * e.c2 / 4) / e.Ac),
  (e.i3 * 5 + 4, e.i2 * 5 + 4, (e.E44 * (-e.b2 * e.d2 / 4 + e.b3 * e.d3 / 4) + e.E45 * (0.166666666666667 * e.Ac1 + e.Ac2 * (0.166666666666667 + e.a2 * e.d2 / (4 * e.Ac2)) + e.Ac3 * (0.166666666666667 - e.b3 * e.c3 / (4 * e.Ac3)))) * (-e.b1 * e.d1 / 4 + e.b2 * e.d2 / 4) / e.Ac + (e.E45 * (-e.b2 * e.d2 / 4 + e.b3 * e.d3 / 4) + e.E55 * (0.166666666666667 * e.Ac1 + e.Ac2 * (0.166666666666667 + e.a2 * e.d2 / (4 * e.Ac2)) + e.Ac3 * (0.166666666666667 - e.b3 * e.c3 / (4 * e.Ac3)))) * (e.Ac1 * (0.166666666666667 + e.a1 * e.d1 / (4 * e.Ac1)) + e.Ac2 * (0.166666666666667 - e.b2 * e.c2 / (4 * e.Ac2)) + 0.166666666666667 * e.Ac3) / e.Ac),
  (e.i3 * 5 + 4, e.i3 * 5 + 2, (e.E44 * (-e.b2 * e.d2 / 4 + e.b3 * e.d3 / 4) + e.E45 * (0.166666666666667 * e.Ac1 + e.Ac2 * (0.166666666666667 + e.a2 * e.d2 / (4 * e.Ac2)) + e.Ac3 * (0.166666666666667 - e.b3 * e.c3 / (4 * e.Ac3)))) * (e.Ac2 * (-e.b2 / (2 * e.Ac2) + 0.166666666666667 * (e.b2 - e.d2) / e.Ac2) + e.Ac3 * (e.d3 / (2 * e.Ac3) + 0.166666666666667 * (e.b3 - e.d3) / e.Ac3) + 0.166666666666667 * e.b1 - 0.166666666666667 * e.d1) / e.Ac + (e.E45 * (-e.b2 * e.d2 / 4 + e.b3 * e.d3 / 4) + e.E55 * (0.166666666666667 * e.Ac1 + e.Ac2 * (0.166666666666667 + e.a2 * e.d2 / (4 * e.Ac2)) + e.Ac3 * (0.166666666666667 - e.b3 * e.c3 / (4 * e.Ac3)))) * (e.Ac2 * (e.a2 / (2 * e.Ac2) + 0.166666666666667 * (-e.a2 + e.c2) / e.Ac2) + e.Ac3 * (-e.c3 / (2 * e.Ac3) + 0.166666666666667 * (-e.a3 + e.c3) / e.Ac3) - 0.166666666666667 * e.a1 + 0.166666666666667 * e.c1) / e.Ac),
  (e.i3 * 5 + 4, e.i3 * 5 + 3, (e.E44 * (-e.b2 * e.d2 / 4 + e.b3 * e.d3 / 4) + e.E45 * (0.166666666666667 * e.Ac1 + e.Ac2 * (0.166666666666667 + e.a2 * e.d2 / (4 * e.Ac2)) + e.Ac3 * (0.166666666666667 - e.b3 * e.c3 / (4 * e.Ac3)))) * (0.166666666666667 * e.Ac1 + e.Ac2 * (0.166666666666667 - e.b2 * e.c2 / (4 * e.Ac2)) + e.Ac3 * (0.166666666666667 + e.a3 * e.d3 / (4 * e.Ac3))) / e.Ac + (e.E45 * (-e.b2 * e.d2 / 4 + e.b3 * e.d3 / 4) + e.E55 * (0.166666666666667 * e.Ac1 + e.Ac2 * (0.166666666666667 + e.a2 * e.d2 / (4 * e.Ac2)) + e.Ac3 * (0.166666666666667 - e.b3 * e.c3 / (4 * e.Ac3)))) * (e.a2 * e.c2 / 4 - e.a3 * e.c3 / 4) / e.Ac),
  (e.i3 * 5 + 4, e.i3 * 5 + 4, (e.E44 * (-e.b2 * e.d2 / 4 + e.b3 * e.d3 / 4) + e.E45 * (0.166666666666667 * e.Ac1 + e.Ac2 * (0.166666666666667 + e.a2 * e.d2 / (4 * e.Ac2)) + e.Ac3 * (0.166666666666667 - e.b3 * e.c3 / (4 * e.Ac3)))) * (-e.b2 * e.d2 / 4 + e.b3 * e.d3 / 4) / e.Ac + (e.E45 * (-e.b2 * e.d2 / 4 + e.b3 * e.d3 / 4) + e.E55 * (0.166666666666667 * e.Ac1 + e.Ac2 * (0.166666666666667 + e.a2 * e.d2 / (4 * e.Ac2)) + e.Ac3 * (0.166666666666667 - e.b3 * e.c3 / (4 * e.Ac3)))) * (0.166666666666667 * e.Ac1 + e.Ac2 * (0.166666666666667 + e.a2 * e.d2 / (4 * e.Ac2)) + e.Ac3 * (0.166666666666667 - e.b3 * e.c3 / (4 * e.Ac3))) / e.Ac)]

/-- All increments, in program order. meshless/espim/plate2d_add_k0s_cell_based.py:94-174 -/
def cellSEntries (e : CellSEnv K) : List (ℤ × ℤ × K) :=
  cellS_i1_2 e ++ cellS_i1_3 e ++ cellS_i1_4 e ++ cellS_i2_2 e ++ cellS_i2_3 e ++ cellS_i2_4 e ++ cellS_i3_2 e ++ cellS_i3_3 e ++ cellS_i3_4 e

end Meshless
