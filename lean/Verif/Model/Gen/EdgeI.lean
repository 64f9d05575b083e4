import Mathlib.Algebra.Field.Defs
import Mathlib.Data.Rat.Cast.Defs

/-! GENERATED by /verif/tools/gen.py from meshless/espim/plate2d_add_k0s_edge_based.py, function `interior_edge`, lines 209-352.
Do not edit: re-run the generator. -/

namespace Meshless

/-- The local variables read by `interior_edge` in meshless/espim/plate2d_add_k0s_edge_based.py:209-352. -/
structure EdgeIEnv (K : Type*) where
  (i1 i2 i3 i4 : ℤ)
  (Ac Ac1 Ac2 E44 E45 E55 a1 b1 c1 d1 a2 b2 c2 d2 : K)

variable {K : Type*} [Add K] [Sub K] [Mul K] [Div K] [Neg K] [OfNat K 1] [OfNat K 2] [OfNat K 4] [OfScientific K]

/-- meshless/espim/plate2d_add_k0s_edge_based.py:209-220 -/
def edgeI_i1_2 (e : EdgeIEnv K) : List (ℤ × ℤ × K) := [
  (e.i1 * 5 + 2, e.i1 * 5 + 2, (e.Ac1 * (-e.c1 / (2 * e.Ac1) + 0.166666666666667 * (-e.a1 + e.c1) / e.Ac1) + e.Ac2 * (-0.166666666666667 * e.c2 / e.Ac2 + (-e.a2 + e.c2) / (2 * e.Ac2))) * (e.E45 * (e.Ac1 * (e.d1 / (2 * e.Ac1) + 0.166666666666667 * (e.b1 - e.d1) / e.Ac1) + e.Ac2 * (0.166666666666667 * e.d2 / e.Ac2 + (e.b2 - e.d2) / (2 * e.Ac2))) + e.E55 * (e.Ac1 * (-e.c1 / (2 * e.Ac1) + 0.166666666666667 * (-e.a1 + e.c1) / e.Ac1) + e.Ac2 * (-0.166666666666667 * e.c2 / e.Ac2 + (-e.a2 + e.c2) / (2 * e.Ac2)))) / e.Ac + (e.Ac1 * (e.d1 / (2 * e.Ac1) + 0.166666666666667 * (e.b1 - e.d1) / e.Ac1) + e.Ac2 * (0.166666666666667 * e.d2 / e.Ac2 + (e.b2 - e.d2) / (2 * e.Ac2))) * (e.E44 * (e.Ac1 * (e.d1 / (2 * e.Ac1) + 0.166666666666667 * (e.b1 - e.d1) / e.Ac1) + e.Ac2 * (0.166666666666667 * e.d2 / e.Ac2 + (e.b2 - e.d2) / (2 * e.Ac2))) + e.E45 * (e.Ac1 * (-e.c1 / (2 * e.Ac1) + 0.166666666666667 * (-e.a1 + e.c1) / e.Ac1) + e.Ac2 * (-0.166666666666667 * e.c2 / e.Ac2 + (-e.a2 + e.c2) / (2 * e.Ac2)))) / e.Ac),
  (e.i1 * 5 + 2, e.i1 * 5 + 3, (e.Ac1 * (0.166666666666667 + e.a1 * e.d1 / (4 * e.Ac1)) + e.Ac2 * (1 / 2 + 0.0833333333333333 * e.a2 * e.d2 / e.Ac2)) * (e.E44 * (e.Ac1 * (e.d1 / (2 * e.Ac1) + 0.166666666666667 * (e.b1 - e.d1) / e.Ac1) + e.Ac2 * (0.166666666666667 * e.d2 / e.Ac2 + (e.b2 - e.d2) / (2 * e.Ac2))) + e.E45 * (e.Ac1 * (-e.c1 / (2 * e.Ac1) + 0.166666666666667 * (-e.a1 + e.c1) / e.Ac1) + e.Ac2 * (-0.166666666666667 * e.c2 / e.Ac2 + (-e.a2 + e.c2) / (2 * e.Ac2)))) / e.Ac + (e.E45 * (e.Ac1 * (e.d1 / (2 * e.Ac1) + 0.166666666666667 * (e.b1 - e.d1) / e.Ac1) + e.Ac2 * (0.166666666666667 * e.d2 / e.Ac2 + (e.b2 - e.d2) / (2 * e.Ac2))) + e.E55 * (e.Ac1 * (-e.c1 / (2 * e.Ac1) + 0.166666666666667 * (-e.a1 + e.c1) / e.Ac1) + e.Ac2 * (-0.166666666666667 * e.c2 / e.Ac2 + (-e.a2 + e.c2) / (2 * e.Ac2)))) * (-e.a1 * e.c1 / 4 - 0.0833333333333333 * e.a2 * e.c2) / e.Ac),
  (e.i1 * 5 + 2, e.i1 * 5 + 4, (e.Ac1 * (0.166666666666667 - e.b1 * e.c1 / (4 * e.Ac1)) + e.Ac2 * (1 / 2 - 0.0833333333333333 * e.b2 * e.c2 / e.Ac2)) * (e.E45 * (e.Ac1 * (e.d1 / (2 * e.Ac1) + 0.166666666666667 * (e.b1 - e.d1) / e.Ac1) + e.Ac2 * (0.166666666666667 * e.d2 / e.Ac2 + (e.b2 - e.d2) / (2 * e.Ac2))) + e.E55 * (e.Ac1 * (-e.c1 / (2 * e.Ac1) + 0.166666666666667 * (-e.a1 + e.c1) / e.Ac1) + e.Ac2 * (-0.166666666666667 * e.c2 / e.Ac2 + (-e.a2 + e.c2) / (2 * e.Ac2)))) / e.Ac + (e.E44 * (e.Ac1 * (e.d1 / (2 * e.Ac1) + 0.166666666666667 * (e.b1 - e.d1) / e.Ac1) + e.Ac2 * (0.166666666666667 * e.d2 / e.Ac2 + (e.b2 - e.d2) / (2 * e.Ac2))) + e.E45 * (e.Ac1 * (-e.c1 / (2 * e.Ac1) + 0.166666666666667 * (-e.a1 + e.c1) / e.Ac1) + e.Ac2 * (-0.166666666666667 * e.c2 / e.Ac2 + (-e.a2 + e.c2) / (2 * e.Ac2)))) * (e.b1 * e.d1 / 4 + 0.0833333333333333 * e.b2 * e.d2) / e.Ac),
  (e.i1 * 5 + 2, e.i2 * 5 + 2, (e.Ac1 * (e.a1 / (2 * e.Ac1) + 0.166666666666667 * (-e.a1 + e.c1) / e.Ac1) + e.Ac2 * (e.a2 / (2 * e.Ac2) - 0.166666666666667 * e.c2 / e.Ac2)) * (e.E45 * (e.Ac1 * (e.d1 / (2 * e.Ac1) + 0.166666666666667 * (e.b1 - e.d1) / e.Ac1) + e.Ac2 * (0.166666666666667 * e.d2 / e.Ac2 + (e.b2 - e.d2) / (2 * e.Ac2))) + e.E55 * (e.Ac1 * (-e.c1 / (2 * e.Ac1) + 0.166666666666667 * (-e.a1 + e.c1) / e.Ac1) + e.Ac2 * (-0.166666666666667 * e.c2 / e.Ac2 + (-e.a2 + e.c2) / (2 * e.Ac2)))) / e.Ac + (e.Ac1 * (-e.b1 / (2 * e.Ac1) + 0.166666666666667 * (e.b1 - e.d1) / e.Ac1) + e.Ac2 * (-e.b2 / (2 * e.Ac2) + 0.166666666666667 * e.d2 / e.Ac2)) * (e.E44 * (e.Ac1 * (e.d1 / (2 * e.Ac1) + 0.166666666666667 * (e.b1 - e.d1) / e.Ac1) + e.Ac2 * (0.166666666666667 * e.d2 / e.Ac2 + (e.b2 - e.d2) / (2 * e.Ac2))) + e.E45 * (e.Ac1 * (-e.c1 / (2 * e.Ac1) + 0.166666666666667 * (-e.a1 + e.c1) / e.Ac1) + e.Ac2 * (-0.166666666666667 * e.c2 / e.Ac2 + (-e.a2 + e.c2) / (2 * e.Ac2)))) / e.Ac),
  (e.i1 * 5 + 2, e.i2 * 5 + 3, (e.Ac1 * (0.166666666666667 - e.b1 * e.c1 / (4 * e.Ac1)) + e.Ac2 * (0.0833333333333333 * e.a2 * e.d2 / e.Ac2 - e.b2 * e.c2 / (4 * e.Ac2))) * (e.E44 * (e.Ac1 * (e.d1 / (2 * e.Ac1) + 0.166666666666667 * (e.b1 - e.d1) / e.Ac1) + e.Ac2 * (0.166666666666667 * e.d2 / e.Ac2 + (e.b2 - e.d2) / (2 * e.Ac2))) + e.E45 * (e.Ac1 * (-e.c1 / (2 * e.Ac1) + 0.166666666666667 * (-e.a1 + e.c1) / e.Ac1) + e.Ac2 * (-0.166666666666667 * e.c2 / e.Ac2 + (-e.a2 + e.c2) / (2 * e.Ac2)))) / e.Ac + (e.E45 * (e.Ac1 * (e.d1 / (2 * e.Ac1) + 0.166666666666667 * (e.b1 - e.d1) / e.Ac1) + e.Ac2 * (0.166666666666667 * e.d2 / e.Ac2 + (e.b2 - e.d2) / (2 * e.Ac2))) + e.E55 * (e.Ac1 * (-e.c1 / (2 * e.Ac1) + 0.166666666666667 * (-e.a1 + e.c1) / e.Ac1) + e.Ac2 * (-0.166666666666667 * e.c2 / e.Ac2 + (-e.a2 + e.c2) / (2 * e.Ac2)))) * (e.a1 * e.c1 / 4 + 0.166666666666667 * e.a2 * e.c2) / e.Ac),
  (e.i1 * 5 + 2, e.i2 * 5 + 4, (e.Ac1 * (0.166666666666667 + e.a1 * e.d1 / (4 * e.Ac1)) + e.Ac2 * (e.a2 * e.d2 / (4 * e.Ac2) - 0.0833333333333333 * e.b2 * e.c2 / e.Ac2)) * (e.E45 * (e.Ac1 * (e.d1 / (2 * e.Ac1) + 0.166666666666667 * (e.b1 - e.d1) / e.Ac1) + e.Ac2 * (0.166666666666667 * e.d2 / e.Ac2 + (e.b2 - e.d2) / (2 * e.Ac2))) + e.E55 * (e.Ac1 * (-e.c1 / (2 * e.Ac1) + 0.166666666666667 * (-e.a1 + e.c1) / e.Ac1) + e.Ac2 * (-0.166666666666667 * e.c2 / e.Ac2 + (-e.a2 + e.c2) / (2 * e.Ac2)))) / e.Ac + (e.E44 * (e.Ac1 * (e.d1 / (2 * e.Ac1) + 0.166666666666667 * (e.b1 - e.d1) / e.Ac1) + e.Ac2 * (0.166666666666667 * e.d2 / e.Ac2 + (e.b2 - e.d2) / (2 * e.Ac2))) + e.E45 * (e.Ac1 * (-e.c1 / (2 * e.Ac1) + 0.166666666666667 * (-e.a1 + e.c1) / e.Ac1) + e.Ac2 * (-0.166666666666667 * e.c2 / e.Ac2 + (-e.a2 + e.c2) / (2 * e.Ac2)))) * (-e.b1 * e.d1 / 4 - 0.166666666666667 * e.b2 * e.d2) / e.Ac),
  (e.i1 * 5 + 2, e.i3 * 5 + 2, (-0.166666666666667 * e.a1 + 0.166666666666667 * e.c1) * (e.E45 * (e.Ac1 * (e.d1 / (2 * e.Ac1) + 0.166666666666667 * (e.b1 - e.d1) / e.Ac1) + e.Ac2 * (0.166666666666667 * e.d2 / e.Ac2 + (e.b2 - e.d2) / (2 * e.Ac2))) + e.E55 * (e.Ac1 * (-e.c1 / (2 * e.Ac1) + 0.166666666666667 * (-e.a1 + e.c1) / e.Ac1) + e.Ac2 * (-0.166666666666667 * e.c2 / e.Ac2 + (-e.a2 + e.c2) / (2 * e.Ac2)))) / e.Ac + (0.166666666666667 * e.b1 - 0.166666666666667 * e.d1) * (e.E44 * (e.Ac1 * (e.d1 / (2 * e.Ac1) + 0.166666666666667 * (e.b1 - e.d1) / e.Ac1) + e.Ac2 * (0.166666666666667 * e.d2 / e.Ac2 + (e.b2 - e.d2) / (2 * e.Ac2))) + e.E45 * (e.Ac1 * (-e.c1 / (2 * e.Ac1) + 0.166666666666667 * (-e.a1 + e.c1) / e.Ac1) + e.Ac2 * (-0.166666666666667 * e.c2 / e.Ac2 + (-e.a2 + e.c2) / (2 * e.Ac2)))) / e.Ac),
  (e.i1 * 5 + 2, e.i3 * 5 + 3, 0.166666666666667 * e.Ac1 * (e.E44 * (e.Ac1 * (e.d1 / (2 * e.Ac1) + 0.166666666666667 * (e.b1 - e.d1) / e.Ac1) + e.Ac2 * (0.166666666666667 * e.d2 / e.Ac2 + (e.b2 - e.d2) / (2 * e.Ac2))) + e.E45 * (e.Ac1 * (-e.c1 / (2 * e.Ac1) + 0.166666666666667 * (-e.a1 + e.c1) / e.Ac1) + e.Ac2 * (-0.166666666666667 * e.c2 / e.Ac2 + (-e.a2 + e.c2) / (2 * e.Ac2)))) / e.Ac),
  (e.i1 * 5 + 2, e.i3 * 5 + 4, 0.166666666666667 * e.Ac1 * (e.E45 * (e.Ac1 * (e.d1 / (2 * e.Ac1) + 0.166666666666667 * (e.b1 - e.d1) / e.Ac1) + e.Ac2 * (0.166666666666667 * e.d2 / e.Ac2 + (e.b2 - e.d2) / (2 * e.Ac2))) + e.E55 * (e.Ac1 * (-e.c1 / (2 * e.Ac1) + 0.166666666666667 * (-e.a1 + e.c1) / e.Ac1) + e.Ac2 * (-0.166666666666667 * e.c2 / e.Ac2 + (-e.a2 + e.c2) / (2 * e.Ac2)))) / e.Ac),
  (e.i1 * 5 + 2, e.i4 * 5 + 2, -0.166666666666667 * e.c2 * (e.E45 * (e.Ac1 * (e.d1 / (2 * e.Ac1) + 0.166666666666667 * (e.b1 - e.d1) / e.Ac1) + e.Ac2 * (0.166666666666667 * e.d2 / e.Ac2 + (e.b2 - e.d2) / (2 * e.Ac2))) + e.E55 * (e.Ac1 * (-e.c1 / (2 * e.Ac1) + 0.166666666666667 * (-e.a1 + e.c1) / e.Ac1) + e.Ac2 * (-0.166666666666667 * e.c2 / e.Ac2 + (-e.a2 + e.c2) / (2 * e.Ac2)))) / e.Ac + 0.166666666666667 * e.d2 * (e.E44 * (e.Ac1 * (e.d1 / (2 * e.Ac1) + 0.166666666666667 * (e.b1 - e.d1) / e.Ac1) + e.Ac2 * (0.166666666666667 * e.d2 / e.Ac2 + (e.b2 - e.d2) / (2 * e.Ac2))) + e.E45 * (e.Ac1 * (-e.c1 / (2 * e.Ac1) + 0.166666666666667 * (-e.a1 + e.c1) / e.Ac1) + e.Ac2 * (-0.166666666666667 * e.c2 / e.Ac2 + (-e.a2 + e.c2) / (2 * e.Ac2)))) / e.Ac),
  (e.i1 * 5 + 2, e.i4 * 5 + 3, -0.0833333333333333 * e.a2 * e.c2 * (e.E45 * (e.Ac1 * (e.d1 / (2 * e.Ac1) + 0.166666666666667 * (e.b1 - e.d1) / e.Ac1) + e.Ac2 * (0.166666666666667 * e.d2 / e.Ac2 + (e.b2 - e.d2) / (2 * e.Ac2))) + e.E55 * (e.Ac1 * (-e.c1 / (2 * e.Ac1) + 0.166666666666667 * (-e.a1 + e.c1) / e.Ac1) + e.Ac2 * (-0.166666666666667 * e.c2 / e.Ac2 + (-e.a2 + e.c2) / (2 * e.Ac2)))) / e.Ac + 0.0833333333333333 * e.a2 * e.d2 * (e.E44 * (e.Ac1 * (e.d1 / (2 * e.Ac1) + 0.166666666666667 * (e.b1 - e.d1) / e.Ac1) + e.Ac2 * (0.166666666666667 * e.d2 / e.Ac2 + (e.b2 - e.d2) / (2 * e.Ac2))) + e.E45 * (e.Ac1 * (-e.c1 / (2 * e.Ac1) + 0.166666666666667 * (-e.a1 + e.c1) / e.Ac1) + e.Ac2 * (-0.166666666666667 * e.c2 / e.Ac2 + (-e.a2 + e.c2) / (2 * e.Ac2)))) / e.Ac),
  (e.i1 * 5 + 2, e.i4 * 5 + 4, -0.0833333333333333 * e.b2 * e.c2 * (e.E45 * (e.Ac1 * (e.d1 / (2 * e.Ac1) + 0.166666666666667 * (e.b1 - e.d1) / e.Ac1) + e.Ac2 * (0.166666666666667 * e.d2 / e.Ac2 + (e.b2 - e.d2) / (2 * e.Ac2))) + e.E55 * (e.Ac1 * (-e.c1 / (2 * e.Ac1) + 0.166666666666667 * (-e.a1 + e.c1) / e.Ac1) + e.Ac2 * (-0.166666666666667 * e.c2 / e.Ac2 + (-e.a2 + e.c2) / (2 * e.Ac2)))) / e.Ac + 0.0833333333333333 * e.b2 * e.d2 * (e.E44 * (e.Ac1 * (e.d1 / (2 * e.Ac1) + 0.166666666666667 * (e.b1 - e.d1) / e.Ac1) + e.Ac2 * (0.166666666666667 * e.d2 / e.Ac2 + (e.b2 - e.d2) / (2 * e.Ac2))) + e.E45 * (e.Ac1 * (-e.c1 / (2 * e.Ac1) + 0.166666666666667 * (-e.a1 + e.c1) / e.Ac1) + e.Ac2 * (-0.166666666666667 * e.c2 / e.Ac2 + (-e.a2 + e.c2) / (2 * e.Ac2)))) / e.Ac)]

/-- meshless/espim/plate2d_add_k0s_edge_based.py:221-232 -/
def edgeI_i1_3 (e : EdgeIEnv K) : List (ℤ × ℤ × K) := [
  (e.i1 * 5 + 3, e.i1 * 5 + 2, (e.Ac1 * (-e.c1 / (2 * e.Ac1) + 0.166666666666667 * (-e.a1 + e.c1) / e.Ac1) + e.Ac2 * (-0.166666666666667 * e.c2 / e.Ac2 + (-e.a2 + e.c2) / (2 * e.Ac2))) * (e.E45 * (e.Ac1 * (0.166666666666667 + e.a1 * e.d1 / (4 * e.Ac1)) + e.Ac2 * (1 / 2 + 0.0833333333333333 * e.a2 * e.d2 / e.Ac2)) + e.E55 * (-e.a1 * e.c1 / 4 - 0.0833333333333333 * e.a2 * e.c2)) / e.Ac + (e.Ac1 * (e.d1 / (2 * e.Ac1) + 0.166666666666667 * (e.b1 - e.d1) / e.Ac1) + e.Ac2 * (0.166666666666667 * e.d2 / e.Ac2 + (e.b2 - e.d2) / (2 * e.Ac2))) * (e.E44 * (e.Ac1 * (0.166666666666667 + e.a1 * e.d1 / (4 * e.Ac1)) + e.Ac2 * (1 / 2 + 0.0833333333333333 * e.a2 * e.d2 / e.Ac2)) + e.E45 * (-e.a1 * e.c1 / 4 - 0.0833333333333333 * e.a2 * e.c2)) / e.Ac),
  (e.i1 * 5 + 3, e.i1 * 5 + 3, (e.Ac1 * (0.166666666666667 + e.a1 * e.d1 / (4 * e.Ac1)) + e.Ac2 * (1 / 2 + 0.0833333333333333 * e.a2 * e.d2 / e.Ac2)) * (e.E44 * (e.Ac1 * (0.166666666666667 + e.a1 * e.d1 / (4 * e.Ac1)) + e.Ac2 * (1 / 2 + 0.0833333333333333 * e.a2 * e.d2 / e.Ac2)) + e.E45 * (-e.a1 * e.c1 / 4 - 0.0833333333333333 * e.a2 * e.c2)) / e.Ac + (e.E45 * (e.Ac1 * (0.166666666666667 + e.a1 * e.d1 / (4 * e.Ac1)) + e.Ac2 * (1 / 2 + 0.0833333333333333 * e.a2 * e.d2 / e.Ac2)) + e.E55 * (-e.a1 * e.c1 / 4 - 0.0833333333333333 * e.a2 * e.c2)) * (-e.a1 * e.c1 / 4 - 0.0833333333333333 * e.a2 * e.c2) / e.Ac),
  (e.i1 * 5 + 3, e.i1 * 5 + 4, (e.Ac1 * (0.166666666666667 - e.b1 * e.c1 / (4 * e.Ac1)) + e.Ac2 * (1 / 2 - 0.0833333333333333 * e.b2 * e.c2 / e.Ac2)) * (e.E45 * (e.Ac1 * (0.166666666666667 + e.a1 * e.d1 / (4 * e.Ac1)) + e.Ac2 * (1 / 2 + 0.0833333333333333 * e.a2 * e.d2 / e.Ac2)) + e.E55 * (-e.a1 * e.c1 / 4 - 0.0833333333333333 * e.a2 * e.c2)) / e.Ac + (e.E44 * (e.Ac1 * (0.166666666666667 + e.a1 * e.d1 / (4 * e.Ac1)) + e.Ac2 * (1 / 2 + 0.0833333333333333 * e.a2 * e.d2 / e.Ac2)) + e.E45 * (-e.a1 * e.c1 / 4 - 0.0833333333333333 * e.a2 * e.c2)) * (e.b1 * e.d1 / 4 + 0.0833333333333333 * e.b2 * e.d2) / e.Ac),
  (e.i1 * 5 + 3, e.i2 * 5 + 2, (e.Ac1 * (e.a1 / (2 * e.Ac1) + 0.166666666666667 * (-e.a1 + e.c1) / e.Ac1) + e.Ac2 * (e.a2 / (2 * e.Ac2) - 0.166666666666667 * e.c2 / e.Ac2)) * (e.E45 * (e.Ac1 * (0.166666666666667 + e.a1 * e.d1 / (4 * e.Ac1)) + e.Ac2 * (1 / 2 + 0.0833333333333333 * e.a2 * e.d2 / e.Ac2)) + e.E55 * (-e.a1 * e.c1 / 4 - 0.0833333333333333 * e.a2 * e.c2)) / e.Ac + (e.Ac1 * (-e.b1 / (2 * e.Ac1) + 0.166666666666667 * (e.b1 - e.d1) / e.Ac1) + e.Ac2 * (-e.b2 / (2 * e.Ac2) + 0.166666666666667 * e.d2 / e.Ac2)) * (e.E44 * (e.Ac1 * (0.166666666666667 + e.a1 * e.d1 / (4 * e.Ac1)) + e.Ac2 * (1 / 2 + 0.0833333333333333 * e.a2 * e.d2 / e.Ac2)) + e.E45 * (-e.a1 * e.c1 / 4 - 0.0833333333333333 * e.a2 * e.c2)) / e.Ac),
  (e.i1 * 5 + 3, e.i2 * 5 + 3, (e.Ac1 * (0.166666666666667 - e.b1 * e.c1 / (4 * e.Ac1)) + e.Ac2 * (0.0833333333333333 * e.a2 * e.d2 / e.Ac2 - e.b2 * e.c2 / (4 * e.Ac2))) * (e.E44 * (e.Ac1 * (0.166666666666667 + e.a1 * e.d1 / (4 * e.Ac1)) + e.Ac2 * (1 / 2 + 0.0833333333333333 * e.a2 * e.d2 / e.Ac2)) + e.E45 * (-e.a1 * e.c1 / 4 - 0.0833333333333333 * e.a2 * e.c2)) / e.Ac + (e.E45 * (e.Ac1 * (0.166666666666667 + e.a1 * e.d1 / (4 * e.Ac1)) + e.Ac2 * (1 / 2 + 0.0833333333333333 * e.a2 * e.d2 / e.Ac2)) + e.E55 * (-e.a1 * e.c1 / 4 - 0.0833333333333333 * e.a2 * e.c2)) * (e.a1 * e.c1 / 4 + 0.166666666666667 * e.a2 * e.c2) / e.Ac),
  (e.i1 * 5 + 3, e.i2 * 5 + 4, (e.Ac1 * (0.166666666666667 + e.a1 * e.d1 / (4 * e.Ac1)) + e.Ac2 * (e.a2 * e.d2 / (4 * e.Ac2) - 0.0833333333333333 * e.b2 * e.c2 / e.Ac2)) * (e.E45 * (e.Ac1 * (0.166666666666667 + e.a1 * e.d1 / (4 * e.Ac1)) + e.Ac2 * (1 / 2 + 0.0833333333333333 * e.a2 * e.d2 / e.Ac2)) + e.E55 * (-e.a1 * e.c1 / 4 - 0.0833333333333333 * e.a2 * e.c2)) / e.Ac + (e.E44 * (e.Ac1 * (0.166666666666667 + e.a1 * e.d1 / (4 * e.Ac1)) + e.Ac2 * (1 / 2 + 0.0833333333333333 * e.a2 * e.d2 / e.Ac2)) + e.E45 * (-e.a1 * e.c1 / 4 - 0.0833333333333333 * e.a2 * e.c2)) * (-e.b1 * e.d1 / 4 - 0.166666666666667 * e.b2 * e.d2) / e.Ac),
  (e.i1 * 5 + 3, e.i3 * 5 + 2, (-0.166666666666667 * e.a1 + 0.166666666666667 * e.c1) * (e.E45 * (e.Ac1 * (0.166666666666667 + e.a1 * e.d1 / (4 * e.Ac1)) + e.Ac2 * (1 / 2 + 0.0833333333333333 * e.a2 * e.d2 / e.Ac2)) + e.E55 * (-e.a1 * e.c1 / 4 - 0.0833333333333333 * e.a2 * e.c2)) / e.Ac + (0.166666666666667 * e.b1 - 0.166666666666667 * e.d1) * (e.E44 * (e.Ac1 * (0.166666666666667 + e.a1 * e.d1 / (4 * e.Ac1)) + e.Ac2 * (1 / 2 + 0.0833333333333333 * e.a2 * e.d2 / e.Ac2)) + e.E45 * (-e.a1 * e.c1 / 4 - 0.0833333333333333 * e.a2 * e.c2)) / e.Ac),
  (e.i1 * 5 + 3, e.i3 * 5 + 3, 0.166666666666667 * e.Ac1 * (e.E44 * (e.Ac1 * (0.166666666666667 + e.a1 * e.d1 / (4 * e.Ac1)) + e.Ac2 * (1 / 2 + 0.0833333333333333 * e.a2 * e.d2 / e.Ac2)) + e.E45 * (-e.a1 * e.c1 / 4 - 0.0833333333333333 * e.a2 * e.c2)) / e.Ac),
  (e.i1 * 5 + 3, e.i3 * 5 + 4, 0.166666666666667 * e.Ac1 * (e.E45 * (e.Ac1 * (0.166666666666667 + e.a1 * e.d1 / (4 * e.Ac1)) + e.Ac2 * (1 / 2 + 0.0833333333333333 * e.a2 * e.d2 / e.Ac2)) + e.E55 * (-e.a1 * e.c1 / 4 - 0.0833333333333333 * e.a2 * e.c2)) / e.Ac),
  (e.i1 * 5 + 3, e.i4 * 5 + 2, -0.166666666666667 * e.c2 * (e.E45 * (e.Ac1 * (0.166666666666667 + e.a1 * e.d1 / (4 * e.Ac1)) + e.Ac2 * (1 / 2 + 0.0833333333333333 * e.a2 * e.d2 / e.Ac2)) + e.E55 * (-e.a1 * e.c1 / 4 - 0.0833333333333333 * e.a2 * e.c2)) / e.Ac + 0.166666666666667 * e.d2 * (e.E44 * (e.Ac1 * (0.166666666666667 + e.a1 * e.d1 / (4 * e.Ac1)) + e.Ac2 * (1 / 2 + 0.0833333333333333 * e.a2 * e.d2 / e.Ac2)) + e.E45 * (-e.a1 * e.c1 / 4 - 0.0833333333333333 * e.a2 * e.c2)) / e.Ac),
  (e.i1 * 5 + 3, e.i4 * 5 + 3, -0.0833333333333333 * e.a2 * e.c2 * (e.E45 * (e.Ac1 * (0.166666666666667 + e.a1 * e.d1 / (4 * e.Ac1)) + e.Ac2 * (1 / 2 + 0.0833333333333333 * e.a2 * e.d2 / e.Ac2)) + e.E55 * (-e.a1 * e.c1 / 4 - 0.0833333333333333 * e.a2 * e.c2)) / e.Ac + 0.0833333333333333 * e.a2 * e.d2 * (e.E44 * (e.Ac1 * (0.166666666666667 + e.a1 * e.d1 / (4 * e.Ac1)) + e.Ac2 * (1 / 2 + 0.0833333333333333 * e.a2 * e.d2 / e.Ac2)) + e.E45 * (-e.a1 * e.c1 / 4 - 0.0833333333333333 * e.a2 * e.c2)) / e.Ac),
  (e.i1 * 5 + 3, e.i4 * 5 + 4, -0.0833333333333333 * e.b2 * e.c2 * (e.E45 * (e.Ac1 * (0.166666666666667 + e.a1 * e.d1 / (4 * e.Ac1)) + e.Ac2 * (1 / 2 + 0.0833333333333333 * e.a2 * e.d2 / e.Ac2)) + e.E55 * (-e.a1 * e.c1 / 4 - 0.0833333333333333 * e.a2 * e.c2)) / e.Ac + 0.0833333333333333 * e.b2 * e.d2 * (e.E44 * (e.Ac1 * (0.166666666666667 + e.a1 * e.d1 / (4 * e.Ac1)) + e.Ac2 * (1 / 2 + 0.0833333333333333 * e.a2 * e.d2 / e.Ac2)) + e.E45 * (-e.a1 * e.c1 / 4 - 0.0833333333333333 * e.a2 * e.c2)) / e.Ac)]

/-- meshless/espim/plate2d_add_k0s_edge_based.py:233-244 -/
def edgeI_i1_4 (e : EdgeIEnv K) : List (ℤ × ℤ × K) := [
  (e.i1 * 5 + 4, e.i1 * 5 + 2, (e.Ac1 * (-e.c1 / (2 * e.Ac1) + 0.166666666666667 * (-e.a1 + e.c1) / e.Ac1) + e.Ac2 * (-0.166666666666667 * e.c2 / e.Ac2 + (-e.a2 + e.c2) / (2 * e.Ac2))) * (e.E45 * (e.b1 * e.d1 / 4 + 0.0833333333333333 * e.b2 * e.d2) + e.E55 * (e.Ac1 * (0.166666666666667 - e.b1 * e.c1 / (4 * e.Ac1)) + e.Ac2 * (1 / 2 - 0.0833333333333333 * e.b2 * e.c2 / e.Ac2))) / e.Ac + (e.Ac1 * (e.d1 / (2 * e.Ac1) + 0.166666666666667 * (e.b1 - e.d1) / e.Ac1) + e.Ac2 * (0.166666666666667 * e.d2 / e.Ac2 + (e.b2 - e.d2) / (2 * e.Ac2))) * (e.E44 * (e.b1 * e.d1 / 4 + 0.0833333333333333 * e.b2 * e.d2) + e.E45 * (e.Ac1 * (0.166666666666667 - e.b1 * e.c1 / (4 * e.Ac1)) + e.Ac2 * (1 / 2 - 0.0833333333333333 * e.b2 * e.c2 / e.Ac2))) / e.Ac),
  (e.i1 * 5 + 4, e.i1 * 5 + 3, (e.Ac1 * (0.166666666666667 + e.a1 * e.d1 / (4 * e.Ac1)) + e.Ac2 * (1 / 2 + 0.0833333333333333 * e.a2 * e.d2 / e.Ac2)) * (e.E44 * (e.b1 * e.d1 / 4 + 0.0833333333333333 * e.b2 * e.d2) + e.E45 * (e.Ac1 * (0.166666666666667 - e.b1 * e.c1 / (4 * e.Ac1)) + e.Ac2 * (1 / 2 - 0.0833333333333333 * e.b2 * e.c2 / e.Ac2))) / e.Ac + (e.E45 * (e.b1 * e.d1 / 4 + 0.0833333333333333 * e.b2 * e.d2) + e.E55 * (e.Ac1 * (0.166666666666667 - e.b1 * e.c1 / (4 * e.Ac1)) + e.Ac2 * (1 / 2 - 0.0833333333333333 * e.b2 * e.c2 / e.Ac2))) * (-e.a1 * e.c1 / 4 - 0.0833333333333333 * e.a2 * e.c2) / e.Ac),
  (e.i1 * 5 + 4, e.i1 * 5 + 4, (e.Ac1 * (0.166666666666667 - e.b1 * e.c1 / (4 * e.Ac1)) + e.Ac2 * (1 / 2 - 0.0833333333333333 * e.b2 * e.c2 / e.Ac2)) * (e.E45 * (e.b1 * e.d1 / 4 + 0.0833333333333333 * e.b2 * e.d2) + e.E55 * (e.Ac1 * (0.166666666666667 - e.b1 * e.c1 / (4 * e.Ac1)) + e.Ac2 * (1 / 2 - 0.0833333333333333 * e.b2 * e.c2 / e.Ac2))) / e.Ac + (e.E44 * (e.b1 * e.d1 / 4 + 0.0833333333333333 * e.b2 * e.d2) + e.E45 * (e.Ac1 * (0.166666666666667 - e.b1 * e.c1 / (4 * e.Ac1)) + e.Ac2 * (1 / 2 - 0.0833333333333333 * e.b2 * e.c2 / e.Ac2))) * (e.b1 * e.d1 / 4 + 0.0833333333333333 * e.b2 * e.d2) / e.Ac),
  (e.i1 * 5 + 4, e.i2 * 5 + 2, (e.Ac1 * (e.a1 / (2 * e.Ac1) + 0.166666666666667 * (-e.a1 + e.c1) / e.Ac1) + e.Ac2 * (e.a2 / (2 * e.Ac2) - 0.166666666666667 * e.c2 / e.Ac2)) * (e.E45 * (e.b1 * e.d1 / 4 + 0.0833333333333333 * e.b2 * e.d2) + e.E55 * (e.Ac1 * (0.166666666666667 - e.b1 * e.c1 / (4 * e.Ac1)) + e.Ac2 * (1 / 2 - 0.0833333333333333 * e.b2 * e.c2 / e.Ac2))) / e.Ac + (e.Ac1 * (-e.b1 / (2 * e.Ac1) + 0.166666666666667 * (e.b1 - e.d1) / e.Ac1) + e.Ac2 * (-e.b2 / (2 * e.Ac2) + 0.166666666666667 * e.d2 / e.Ac2)) * (e.E44 * (e.b1 * e.d1 / 4 + 0.0833333333333333 * e.b2 * e.d2) + e.E45 * (e.Ac1 * (0.166666666666667 - e.b1 * e.c1 / (4 * e.Ac1)) + e.Ac2 * (1 / 2 - 0.0833333333333333 * e.b2 * e.c2 / e.Ac2))) / e.Ac),
  (e.i1 * 5 + 4, e.i2 * 5 + 3, (e.Ac1 * (0.166666666666667 - e.b1 * e.c1 / (4 * e.Ac1)) + e.Ac2 * (0.0833333333333333 * e.a2 * e.d2 / e.Ac2 - e.b2 * e.c2 / (4 * e.Ac2))) * (e.E44 * (e.b1 * e.d1 / 4 + 0.0833333333333333 * e.b2 * e.d2) + e.E45 * (e.Ac1 * (0.166666666666667 - e.b1 * e.c1 / (4 * e.Ac1)) + e.Ac2 * (1 / 2 - 0.0833333333333333 * e.b2 * e.c2 / e.Ac2))) / e.Ac + (e.E45 * (e.b1 * e.d1 / 4 + 0.0833333333333333 * e.b2 * e.d2) + e.E55 * (e.Ac1 * (0.166666666666667 - e.b1 * e.c1 / (4 * e.Ac1)) + e.Ac2 * (1 / 2 - 0.0833333333333333 * e.b2 * e.c2 / e.Ac2))) * (e.a1 * e.c1 / 4 + 0.166666666666667 * e.a2 * e.c2) / e.Ac),
  (e.i1 * 5 + 4, e.i2 * 5 + 4, (e.Ac1 * (0.166666666666667 + e.a1 * e.d1 / (4 * e.Ac1)) + e.Ac2 * (e.a2 * e.d2 / (4 * e.Ac2) - 0.0833333333333333 * e.b2 * e.c2 / e.Ac2)) * (e.E45 * (e.b1 * e.d1 / 4 + 0.0833333333333333 * e.b2 * e.d2) + e.E55 * (e.Ac1 * (0.166666666666667 - e.b1 * e.c1 / (4 * e.Ac1)) + e.Ac2 * (1 / 2 - 0.0833333333333333 * e.b2 * e.c2 / e.Ac2))) / e.Ac + (e.E44 * (e.b1 * e.d1 / 4 + 0.0833333333333333 * e.b2 * e.d2) + e.E45 * (e.Ac1 * (0.166666666666667 - e.b1 * e.c1 / (4 * e.Ac1)) + e.Ac2 * (1 / 2 - 0.0833333333333333 * e.b2 * e.c2 / e.Ac2))) * (-e.b1 * e.d1 / 4 - 0.166666666666667 * e.b2 * e.d2) / e.Ac),
  (e.i1 * 5 + 4, e.i3 * 5 + 2, (-0.166666666666667 * e.a1 + 0.166666666666667 * e.c1) * (e.E45 * (e.b1 * e.d1 / 4 + 0.0833333333333333 * e.b2 * e.d2) + e.E55 * (e.Ac1 * (0.166666666666667 - e.b1 * e.c1 / (4 * e.Ac1)) + e.Ac2 * (1 / 2 - 0.0833333333333333 * e.b2 * e.c2 / e.Ac2))) / e.Ac + (0.166666666666667 * e.b1 - 0.166666666666667 * e.d1) * (e.E44 * (e.b1 * e.d1 / 4 + 0.0833333333333333 * e.b2 * e.d2) + e.E45 * (e.Ac1 * (0.166666666666667 - e.b1 * e.c1 / (4 * e.Ac1)) + e.Ac2 * (1 / 2 - 0.0833333333333333 * e.b2 * e.c2 / e.Ac2))) / e.Ac),
  (e.i1 * 5 + 4, e.i3 * 5 + 3, 0.166666666666667 * e.Ac1 * (e.E44 * (e.b1 * e.d1 / 4 + 0.0833333333333333 * e.b2 * e.d2) + e.E45 * (e.Ac1 * (0.166666666666667 - e.b1 * e.c1 / (4 * e.Ac1)) + e.Ac2 * (1 / 2 - 0.0833333333333333 * e.b2 * e.c2 / e.Ac2))) / e.Ac),
  (e.i1 * 5 + 4, e.i3 * 5 + 4, 0.166666666666667 * e.Ac1 * (e.E45 * (e.b1 * e.d1 / 4 + 0.0833333333333333 * e.b2 * e.d2) + e.E55 * (e.Ac1 * (0.166666666666667 - e.b1 * e.c1 / (4 * e.Ac1)) + e.Ac2 * (1 / 2 - 0.0833333333333333 * e.b2 * e.c2 / e.Ac2))) / e.Ac),
  (e.i1 * 5 + 4, e.i4 * 5 + 2, -0.166666666666667 * e.c2 * (e.E45 * (e.b1 * e.d1 / 4 + 0.0833333333333333 * e.b2 * e.d2) + e.E55 * (e.Ac1 * (0.166666666666667 - e.b1 * e.c1 / (4 * e.Ac1)) + e.Ac2 * (1 / 2 - 0.0833333333333333 * e.b2 * e.c2 / e.Ac2))) / e.Ac + 0.166666666666667 * e.d2 * (e.E44 * (e.b1 * e.d1 / 4 + 0.0833333333333333 * e.b2 * e.d2) + e.E45 * (e.Ac1 * (0.166666666666667 - e.b1 * e.c1 / (4 * e.Ac1)) + e.Ac2 * (1 / 2 - 0.0833333333333333 * e.b2 * e.c2 / e.Ac2))) / e.Ac),
  (e.i1 * 5 + 4, e.i4 * 5 + 3, -0.0833333333333333 * e.a2 * e.c2 * (e.E45 * (e.b1 * e.d1 / 4 + 0.0833333333333333 * e.b2 * e.d2) + e.E55 * (e.Ac1 * (0.166666666666667 - e.b1 * e.c1 / (4 * e.Ac1)) + e.Ac2 * (1 / 2 - 0.0833333333333333 * e.b2 * e.c2 / e.Ac2))) / e.Ac + 0.0833333333333333 * e.a2 * e.d2 * (e.E44 * (e.b1 * e.d1 / 4 + 0.0833333333333333 * e.b2 * e.d2) + e.E45 * (e.Ac1 * (0.166666666666667 - e.b1 * e.c1 / (4 * e.Ac1)) + e.Ac2 * (1 / 2 - 0.0833333333333333 * e.b2 * e.c2 / e.Ac2))) / e.Ac),
  (e.i1 * 5 + 4, e.i4 * 5 + 4, -0.0833333333333333 * e.b2 * e.c2 * (e.E45 * (e.b1 * e.d1 / 4 + 0.0833333333333333 * e.b2 * e.d2) + e.E55 * (e.Ac1 * (0.166666666666667 - e.b1 * e.c1 / (4 * e.Ac1)) + e.Ac2 * (1 / 2 - 0.0833333333333333 * e.b2 * e.c2 / e.Ac2))) / e.Ac + 0.0833333333333333 * e.b2 * e.d2 * (e.E44 * (e.b1 * e.d1 / 4 + 0.0833333333333333 * e.b2 * e.d2) + e.E45 * (e.Ac1 * (0.166666666666667 - e.b1 * e.c1 / (4 * e.Ac1)) + e.Ac2 * (1 / 2 - 0.0833333333333333 * e.b2 * e.c2 / e.Ac2))) / e.Ac)]

/-- meshless/espim/plate2d_add_k0s_edge_based.py:245-256 -/
def edgeI_i2_2 (e : EdgeIEnv K) : List (ℤ × ℤ × K) := [
  (e.i2 * 5 + 2, e.i1 * 5 + 2, (e.Ac1 * (-e.c1 / (2 * e.Ac1) + 0.166666666666667 * (-e.a1 + e.c1) / e.Ac1) + e.Ac2 * (-0.166666666666667 * e.c2 / e.Ac2 + (-e.a2 + e.c2) / (2 * e.Ac2))) * (e.E45 * (e.Ac1 * (-e.b1 / (2 * e.Ac1) + 0.166666666666667 * (e.b1 - e.d1) / e.Ac1) + e.Ac2 * (-e.b2 / (2 * e.Ac2) + 0.166666666666667 * e.d2 / e.Ac2)) + e.E55 * (e.Ac1 * (e.a1 / (2 * e.Ac1) + 0.166666666666667 * (-e.a1 + e.c1) / e.Ac1) + e.Ac2 * (e.a2 / (2 * e.Ac2) - 0.166666666666667 * e.c2 / e.Ac2))) / e.Ac + (e.Ac1 * (e.d1 / (2 * e.Ac1) + 0.166666666666667 * (e.b1 - e.d1) / e.Ac1) + e.Ac2 * (0.166666666666667 * e.d2 / e.Ac2 + (e.b2 - e.d2) / (2 * e.Ac2))) * (e.E44 * (e.Ac1 * (-e.b1 / (2 * e.Ac1) + 0.166666666666667 * (e.b1 - e.d1) / e.Ac1) + e.Ac2 * (-e.b2 / (2 * e.Ac2) + 0.166666666666667 * e.d2 / e.Ac2)) + e.E45 * (e.Ac1 * (e.a1 / (2 * e.Ac1) + 0.166666666666667 * (-e.a1 + e.c1) / e.Ac1) + e.Ac2 * (e.a2 / (2 * e.Ac2) - 0.166666666666667 * e.c2 / e.Ac2))) / e.Ac),
  (e.i2 * 5 + 2, e.i1 * 5 + 3, (e.Ac1 * (0.166666666666667 + e.a1 * e.d1 / (4 * e.Ac1)) + e.Ac2 * (1 / 2 + 0.0833333333333333 * e.a2 * e.d2 / e.Ac2)) * (e.E44 * (e.Ac1 * (-e.b1 / (2 * e.Ac1) + 0.166666666666667 * (e.b1 - e.d1) / e.Ac1) + e.Ac2 * (-e.b2 / (2 * e.Ac2) + 0.166666666666667 * e.d2 / e.Ac2)) + e.E45 * (e.Ac1 * (e.a1 / (2 * e.Ac1) + 0.166666666666667 * (-e.a1 + e.c1) / e.Ac1) + e.Ac2 * (e.a2 / (2 * e.Ac2) - 0.166666666666667 * e.c2 / e.Ac2))) / e.Ac + (e.E45 * (e.Ac1 * (-e.b1 / (2 * e.Ac1) + 0.166666666666667 * (e.b1 - e.d1) / e.Ac1) + e.Ac2 * (-e.b2 / (2 * e.Ac2) + 0.166666666666667 * e.d2 / e.Ac2)) + e.E55 * (e.Ac1 * (e.a1 / (2 * e.Ac1) + 0.166666666666667 * (-e.a1 + e.c1) / e.Ac1) + e.Ac2 * (e.a2 / (2 * e.Ac2) - 0.166666666666667 * e.c2 / e.Ac2))) * (-e.a1 * e.c1 / 4 - 0.0833333333333333 * e.a2 * e.c2) / e.Ac),
  (e.i2 * 5 + 2, e.i1 * 5 + 4, (e.Ac1 * (0.166666666666667 - e.b1 * e.c1 / (4 * e.Ac1)) + e.Ac2 * (1 / 2 - 0.0833333333333333 * e.b2 * e.c2 / e.Ac2)) * (e.E45 * (e.Ac1 * (-e.b1 / (2 * e.Ac1) + 0.166666666666667 * (e.b1 - e.d1) / e.Ac1) + e.Ac2 * (-e.b2 / (2 * e.Ac2) + 0.166666666666667 * e.d2 / e.Ac2)) + e.E55 * (e.Ac1 * (e.a1 / (2 * e.Ac1) + 0.166666666666667 * (-e.a1 + e.c1) / e.Ac1) + e.Ac2 * (e.a2 / (2 * e.Ac2) - 0.166666666666667 * e.c2 / e.Ac2))) / e.Ac + (e.E44 * (e.Ac1 * (-e.b1 / (2 * e.Ac1) + 0.166666666666667 * (e.b1 - e.d1) / e.Ac1) + e.Ac2 * (-e.b2 / (2 * e.Ac2) + 0.166666666666667 * e.d2 / e.Ac2)) + e.E45 * (e.Ac1 * (e.a1 / (2 * e.Ac1) + 0.166666666666667 * (-e.a1 + e.c1) / e.Ac1) + e.Ac2 * (e.a2 / (2 * e.Ac2) - 0.166666666666667 * e.c2 / e.Ac2))) * (e.b1 * e.d1 / 4 + 0.0833333333333333 * e.b2 * e.d2) / e.Ac),
  (e.i2 * 5 + 2, e.i2 * 5 + 2, (e.Ac1 * (e.a1 / (2 * e.Ac1) + 0.166666666666667 * (-e.a1 + e.c1) / e.Ac1) + e.Ac2 * (e.a2 / (2 * e.Ac2) - 0.166666666666667 * e.c2 / e.Ac2)) * (e.E45 * (e.Ac1 * (-e.b1 / (2 * e.Ac1) + 0.166666666666667 * (e.b1 - e.d1) / e.Ac1) + e.Ac2 * (-e.b2 / (2 * e.Ac2) + 0.166666666666667 * e.d2 / e.Ac2)) + e.E55 * (e.Ac1 * (e.a1 / (2 * e.Ac1) + 0.166666666666667 * (-e.a1 + e.c1) / e.Ac1) + e.Ac2 * (e.a2 / (2 * e.Ac2) - 0.166666666666667 * e.c2 / e.Ac2))) / e.Ac + (e.Ac1 * (-e.b1 / (2 * e.Ac1) + 0.166666666666667 * (e.b1 - e.d1) / e.Ac1) + e.Ac2 * (-e.b2 / (2 * e.Ac2) + 0.166666666666667 * e.d2 / e.Ac2)) * (e.E44 * (e.Ac1 * (-e.b1 / (2 * e.Ac1) + 0.166666666666667 * (e.b1 - e.d1) / e.Ac1) + e.Ac2 * (-e.b2 / (2 * e.Ac2) + 0.166666666666667 * e.d2 / e.Ac2)) + e.E45 * (e.Ac1 * (e.a1 / (2 * e.Ac1) + 0.166666666666667 * (-e.a1 + e.c1) / e.Ac1) + e.Ac2 * (e.a2 / (2 * e.Ac2) - 0.166666666666667 * e.c2 / e.Ac2))) / e.Ac),
  (e.i2 * 5 + 2, e.i2 * 5 + 3, (e.Ac1 * (0.166666666666667 - e.b1 * e.c1 / (4 * e.Ac1)) + e.Ac2 * (0.0833333333333333 * e.a2 * e.d2 / e.Ac2 - e.b2 * e.c2 / (4 * e.Ac2))) * (e.E44 * (e.Ac1 * (-e.b1 / (2 * e.Ac1) + 0.166666666666667 * (e.b1 - e.d1) / e.Ac1) + e.Ac2 * (-e.b2 / (2 * e.Ac2) + 0.166666666666667 * e.d2 / e.Ac2)) + e.E45 * (e.Ac1 * (e.a1 / (2 * e.Ac1) + 0.166666666666667 * (-e.a1 + e.c1) / e.Ac1) + e.Ac2 * (e.a2 / (2 * e.Ac2) - 0.166666666666667 * e.c2 / e.Ac2))) / e.Ac + (e.E45 * (e.Ac1 * (-e.b1 / (2 * e.Ac1) + 0.166666666666667 * (e.b1 - e.d1) / e.Ac1) + e.Ac2 * (-e.b2 / (2 * e.Ac2) + 0.166666666666667 * e.d2 / e.Ac2)) + e.E55 * (e.Ac1 * (e.a1 / (2 * e.Ac1) + 0.166666666666667 * (-e.a1 + e.c1) / e.Ac1) + e.Ac2 * (e.a2 / (2 * e.Ac2) - 0.166666666666667 * e.c2 / e.Ac2))) * (e.a1 * e.c1 / 4 + 0.166666666666667 * e.a2 * e.c2) / e.Ac),
  (e.i2 * 5 + 2, e.i2 * 5 + 4, (e.Ac1 * (0.166666666666667 + e.a1 * e.d1 / (4 * e.Ac1)) + e.Ac2 * (e.a2 * e.d2 / (4 * e.Ac2) - 0.0833333333333333 * e.b2 * e.c2 / e.Ac2)) * (e.E45 * (e.Ac1 * (-e.b1 / (2 * e.Ac1) + 0.166666666666667 * (e.b1 - e.d1) / e.Ac1) + e.Ac2 * (-e.b2 / (2 * e.Ac2) + 0.166666666666667 * e.d2 / e.Ac2)) + e.E55 * (e.Ac1 * (e.a1 / (2 * e.Ac1) + 0.166666666666667 * (-e.a1 + e.c1) / e.Ac1) + e.Ac2 * (e.a2 / (2 * e.Ac2) - 0.166666666666667 * e.c2 / e.Ac2))) / e.Ac + (e.E44 * (e.Ac1 * (-e.b1 / (2 * e.Ac1) + 0.166666666666667 * (e.b1 - e.d1) / e.Ac1) + e.Ac2 * (-e.b2 / (2 * e.Ac2) + 0.166666666666667 * e.d2 / e.Ac2)) + e.E45 * (e.Ac1 * (e.a1 / (2 * e.Ac1) + 0.166666666666667 * (-e.a1 + e.c1) / e.Ac1) + e.Ac2 * (e.a2 / (2 * e.Ac2) - 0.166666666666667 * e.c2 / e.Ac2))) * (-e.b1 * e.d1 / 4 - 0.166666666666667 * e.b2 * e.d2) / e.Ac),
  (e.i2 * 5 + 2, e.i3 * 5 + 2, (-0.166666666666667 * e.a1 + 0.166666666666667 * e.c1) * (e.E45 * (e.Ac1 * (-e.b1 / (2 * e.Ac1) + 0.166666666666667 * (e.b1 - e.d1) / e.Ac1) + e.Ac2 * (-e.b2 / (2 * e.Ac2) + 0.166666666666667 * e.d2 / e.Ac2)) + e.E55 * (e.Ac1 * (e.a1 / (2 * e.Ac1) + 0.166666666666667 * (-e.a1 + e.c1) / e.Ac1) + e.Ac2 * (e.a2 / (2 * e.Ac2) - 0.166666666666667 * e.c2 / e.Ac2))) / e.Ac + (0.166666666666667 * e.b1 - 0.166666666666667 * e.d1) * (e.E44 * (e.Ac1 * (-e.b1 / (2 * e.Ac1) + 0.166666666666667 * (e.b1 - e.d1) / e.Ac1) + e.Ac2 * (-e.b2 / (2 * e.Ac2) + 0.166666666666667 * e.d2 / e.Ac2)) + e.E45 * (e.Ac1 * (e.a1 / (2 * e.Ac1) + 0.166666666666667 * (-e.a1 + e.c1) / e.Ac1) + e.Ac2 * (e.a2 / (2 * e.Ac2) - 0.166666666666667 * e.c2 / e.Ac2))) / e.Ac),
  (e.i2 * 5 + 2, e.i3 * 5 + 3, 0.166666666666667 * e.Ac1 * (e.E44 * (e.Ac1 * (-e.b1 / (2 * e.Ac1) + 0.166666666666667 * (e.b1 - e.d1) / e.Ac1) + e.Ac2 * (-e.b2 / (2 * e.Ac2) + 0.166666666666667 * e.d2 / e.Ac2)) + e.E45 * (e.Ac1 * (e.a1 / (2 * e.Ac1) + 0.166666666666667 * (-e.a1 + e.c1) / e.Ac1) + e.Ac2 * (e.a2 / (2 * e.Ac2) - 0.166666666666667 * e.c2 / e.Ac2))) / e.Ac),
  (e.i2 * 5 + 2, e.i3 * 5 + 4, 0.166666666666667 * e.Ac1 * (e.E45 * (e.Ac1 * (-e.b1 / (2 * e.Ac1) + 0.166666666666667 * (e.b1 - e.d1) / e.Ac1) + e.Ac2 * (-e.b2 / (2 * e.Ac2) + 0.166666666666667 * e.d2 / e.Ac2)) + e.E55 * (e.Ac1 * (e.a1 / (2 * e.Ac1) + 0.166666666666667 * (-e.a1 + e.c1) / e.Ac1) + e.Ac2 * (e.a2 / (2 * e.Ac2) - 0.166666666666667 * e.c2 / e.Ac2))) / e.Ac),
  (e.i2 * 5 + 2, e.i4 * 5 + 2, -0.166666666666667 * e.c2 * (e.E45 * (e.Ac1 * (-e.b1 / (2 * e.Ac1) + 0.166666666666667 * (e.b1 - e.d1) / e.Ac1) + e.Ac2 * (-e.b2 / (2 * e.Ac2) + 0.166666666666667 * e.d2 / e.Ac2)) + e.E55 * (e.Ac1 * (e.a1 / (2 * e.Ac1) + 0.166666666666667 * (-e.a1 + e.c1) / e.Ac1) + e.Ac2 * (e.a2 / (2 * e.Ac2) - 0.166666666666667 * e.c2 / e.Ac2))) / e.Ac + 0.166666666666667 * e.d2 * (e.E44 * (e.Ac1 * (-e.b1 / (2 * e.Ac1) + 0.166666666666667 * (e.b1 - e.d1) / e.Ac1) + e.Ac2 * (-e.b2 / (2 * e.Ac2) + 0.166666666666667 * e.d2 / e.Ac2)) + e.E45 * (e.Ac1 * (e.a1 / (2 * e.Ac1) + 0.166666666666667 * (-e.a1 + e.c1) / e.Ac1) + e.Ac2 * (e.a2 / (2 * e.Ac2) - 0.166666666666667 * e.c2 / e.Ac2))) / e.Ac),
  (e.i2 * 5 + 2, e.i4 * 5 + 3, -0.0833333333333333 * e.a2 * e.c2 * (e.E45 * (e.Ac1 * (-e.b1 / (2 * e.Ac1) + 0.166666666666667 * (e.b1 - e.d1) / e.Ac1) + e.Ac2 * (-e.b2 / (2 * e.Ac2) + 0.166666666666667 * e.d2 / e.Ac2)) + e.E55 * (e.Ac1 * (e.a1 / (2 * e.Ac1) + 0.166666666666667 * (-e.a1 + e.c1) / e.Ac1) + e.Ac2 * (e.a2 / (2 * e.Ac2) - 0.166666666666667 * e.c2 / e.Ac2))) / e.Ac + 0.0833333333333333 * e.a2 * e.d2 * (e.E44 * (e.Ac1 * (-e.b1 / (2 * e.Ac1) + 0.166666666666667 * (e.b1 - e.d1) / e.Ac1) + e.Ac2 * (-e.b2 / (2 * e.Ac2) + 0.166666666666667 * e.d2 / e.Ac2)) + e.E45 * (e.Ac1 * (e.a1 / (2 * e.Ac1) + 0.166666666666667 * (-e.a1 + e.c1) / e.Ac1) + e.Ac2 * (e.a2 / (2 * e.Ac2) - 0.166666666666667 * e.c2 / e.Ac2))) / e.Ac),
  (e.i2 * 5 + 2, e.i4 * 5 + 4, -0.0833333333333333 * e.b2 * e.c2 * (e.E45 * (e.Ac1 * (-e.b1 / (2 * e.Ac1) + 0.166666666666667 * (e.b1 - e.d1) / e.Ac1) + e.Ac2 * (-e.b2 / (2 * e.Ac2) + 0.166666666666667 * e.d2 / e.Ac2)) + e.E55 * (e.Ac1 * (e.a1 / (2 * e.Ac1) + 0.166666666666667 * (-e.a1 + e.c1) / e.Ac1) + e.Ac2 * (e.a2 / (2 * e.Ac2) - 0.166666666666667 * e.c2 / e.Ac2))) / e.Ac + 0.0833333333333333 * e.b2 * e.d2 * (e.E44 * (e.Ac1 * (-e.b1 / (2 * e.Ac1) + 0.166666666666667 * (e.b1 - e.d1) / e.Ac1) + e.Ac2 * (-e.b2 / (2 * e.Ac2) + 0.166666666666667 * e.d2 / e.Ac2)) + e.E45 * (e.Ac1 * (e.a1 / (2 * e.Ac1) + 0.166666666666667 * (-e.a1 + e.c1) / e.Ac1) + e.Ac2 * (e.a2 / (2 * e.Ac2) - 0.166666666666667 * e.c2 / e.Ac2))) / e.Ac)]

/-- meshless/espim/plate2d_add_k0s_edge_based.py:257-268 -/
def edgeI_i2_3 (e : EdgeIEnv K) : List (ℤ × ℤ × K) := [
  (e.i2 * 5 + 3, e.i1 * 5 + 2, (e.Ac1 * (-e.c1 / (2 * e.Ac1) + 0.166666666666667 * (-e.a1 + e.c1) / e.Ac1) + e.Ac2 * (-0.166666666666667 * e.c2 / e.Ac2 + (-e.a2 + e.c2) / (2 * e.Ac2))) * (e.E45 * (e.Ac1 * (0.166666666666667 - e.b1 * e.c1 / (4 * e.Ac1)) + e.Ac2 * (0.0833333333333333 * e.a2 * e.d2 / e.Ac2 - e.b2 * e.c2 / (4 * e.Ac2))) + e.E55 * (e.a1 * e.c1 / 4 + 0.166666666666667 * e.a2 * e.c2)) / e.Ac + (e.Ac1 * (e.d1 / (2 * e.Ac1) + 0.166666666666667 * (e.b1 - e.d1) / e.Ac1) + e.Ac2 * (0.166666666666667 * e.d2 / e.Ac2 + (e.b2 - e.d2) / (2 * e.Ac2))) * (e.E44 * (e.Ac1 * (0.166666666666667 - e.b1 * e.c1 / (4 * e.Ac1)) + e.Ac2 * (0.0833333333333333 * e.a2 * e.d2 / e.Ac2 - e.b2 * e.c2 / (4 * e.Ac2))) + e.E45 * (e.a1 * e.c1 / 4 + 0.166666666666667 * e.a2 * e.c2)) / e.Ac),
  (e.i2 * 5 + 3, e.i1 * 5 + 3, (e.Ac1 * (0.166666666666667 + e.a1 * e.d1 / (4 * e.Ac1)) + e.Ac2 * (1 / 2 + 0.0833333333333333 * e.a2 * e.d2 / e.Ac2)) * (e.E44 * (e.Ac1 * (0.166666666666667 - e.b1 * e.c1 / (4 * e.Ac1)) + e.Ac2 * (0.0833333333333333 * e.a2 * e.d2 / e.Ac2 - e.b2 * e.c2 / (4 * e.Ac2))) + e.E45 * (e.a1 * e.c1 / 4 + 0.166666666666667 * e.a2 * e.c2)) / e.Ac + (e.E45 * (e.Ac1 * (0.166666666666667 - e.b1 * e.c1 / (4 * e.Ac1)) + e.Ac2 * (0.0833333333333333 * e.a2 * e.d2 / e.Ac2 - e.b2 * e.c2 / (4 * e.Ac2))) + e.E55 * (e.a1 * e.c1 / 4 + 0.166666666666667 * e.a2 * e.c2)) * (-e.a1 * e.c1 / 4 - 0.0833333333333333 * e.a2 * e.c2) / e.Ac),
  (e.i2 * 5 + 3, e.i1 * 5 + 4, (e.Ac1 * (0.166666666666667 - e.b1 * e.c1 / (4 * e.Ac1)) + e.Ac2 * (1 / 2 - 0.0833333333333333 * e.b2 * e.c2 / e.Ac2)) * (e.E45 * (e.Ac1 * (0.166666666666667 - e.b1 * e.c1 / (4 * e.Ac1)) + e.Ac2 * (0.0833333333333333 * e.a2 * e.d2 / e.Ac2 - e.b2 * e.c2 / (4 * e.Ac2))) + e.E55 * (e.a1 * e.c1 / 4 + 0.166666666666667 * e.a2 * e.c2)) / e.Ac + (e.E44 * (e.Ac1 * (0.166666666666667 - e.b1 * e.c1 / (4 * e.Ac1)) + e.Ac2 * (0.0833333333333333 * e.a2 * e.d2 / e.Ac2 - e.b2 * e.c2 / (4 * e.Ac2))) + e.E45 * (e.a1 * e.c1 / 4 + 0.166666666666667 * e.a2 * e.c2)) * (e.b1 * e.d1 / 4 + 0.0833333333333333 * e.b2 * e.d2) / e.Ac),
  (e.i2 * 5 + 3, e.i2 * 5 + 2, (e.Ac1 * (e.a1 / (2 * e.Ac1) + 0.166666666666667 * (-e.a1 + e.c1) / e.Ac1) + e.Ac2 * (e.a2 / (2 * e.Ac2) - 0.166666666666667 * e.c2 / e.Ac2)) * (e.E45 * (e.Ac1 * (0.166666666666667 - e.b1 * e.c1 / (4 * e.Ac1)) + e.Ac2 * (0.0833333333333333 * e.a2 * e.d2 / e.Ac2 - e.b2 * e.c2 / (4 * e.Ac2))) + e.E55 * (e.a1 * e.c1 / 4 + 0.166666666666667 * e.a2 * e.c2)) / e.Ac + (e.Ac1 * (-e.b1 / (2 * e.Ac1) + 0.166666666666667 * (e.b1 - e.d1) / e.Ac1) + e.Ac2 * (-e.b2 / (2 * e.Ac2) + 0.166666666666667 * e.d2 / e.Ac2)) * (e.E44 * (e.Ac1 * (0.166666666666667 - e.b1 * e.c1 / (4 * e.Ac1)) + e.Ac2 * (0.0833333333333333 * e.a2 * e.d2 / e.Ac2 - e.b2 * e.c2 / (4 * e.Ac2))) + e.E45 * (e.a1 * e.c1 / 4 + 0.166666666666667 * e.a2 * e.c2)) / e.Ac),
  (e.i2 * 5 + 3, e.i2 * 5 + 3, (e.Ac1 * (0.166666666666667 - e.b1 * e.c1 / (4 * e.Ac1)) + e.Ac2 * (0.0833333333333333 * e.a2 * e.d2 / e.Ac2 - e.b2 * e.c2 / (4 * e.Ac2))) * (e.E44 * (e.Ac1 * (0.166666666666667 - e.b1 * e.c1 / (4 * e.Ac1)) + e.Ac2 * (0.0833333333333333 * e.a2 * e.d2 / e.Ac2 - e.b2 * e.c2 / (4 * e.Ac2))) + e.E45 * (e.a1 * e.c1 / 4 + 0.166666666666667 * e.a2 * e.c2)) / e.Ac + (e.E45 * (e.Ac1 * (0.166666666666667 - e.b1 * e.c1 / (4 * e.Ac1)) + e.Ac2 * (0.0833333333333333 * e.a2 * e.d2 / e.Ac2 - e.b2 * e.c2 / (4 * e.Ac2))) + e.E55 * (e.a1 * e.c1 / 4 + 0.166666666666667 * e.a2 * e.c2)) * (e.a1 * e.c1 / 4 + 0.166666666666667 * e.a2 * e.c2) / e.Ac),
  (e.i2 * 5 + 3, e.i2 * 5 + 4, (e.Ac1 * (0.166666666666667 + e.a1 * e.d1 / (4 * e.Ac1)) + e.Ac2 * (e.a2 * e.d2 / (4 * e.Ac2) - 0.0833333333333333 * e.b2 * e.c2 / e.Ac2)) * (e.E45 * (e.Ac1 * (0.166666666666667 - e.b1 * e.c1 / (4 * e.Ac1)) + e.Ac2 * (0.0833333333333333 * e.a2 * e.d2 / e.Ac2 - e.b2 * e.c2 / (4 * e.Ac2))) + e.E55 * (e.a1 * e.c1 / 4 + 0.166666666666667 * e.a2 * e.c2)) / e.Ac + (e.E44 * (e.Ac1 * (0.166666666666667 - e.b1 * e.c1 / (4 * e.Ac1)) + e.Ac2 * (0.0833333333333333 * e.a2 * e.d2 / e.Ac2 - e.b2 * e.c2 / (4 * e.Ac2))) + e.E45 * (e.a1 * e.c1 / 4 + 0.166666666666667 * e.a2 * e.c2)) * (-e.b1 * e.d1 / 4 - 0.166666666666667 * e.b2 * e.d2) / e.Ac),
  (e.i2 * 5 + 3, e.i3 * 5 + 2, (-0.166666666666667 * e.a1 + 0.166666666666667 * e.c1) * (e.E45 * (e.Ac1 * (0.166666666666667 - e.b1 * e.c1 / (4 * e.Ac1)) + e.Ac2 * (0.0833333333333333 * e.a2 * e.d2 / e.Ac2 - e.b2 * e.c2 / (4 * e.Ac2))) + e.E55 * (e.a1 * e.c1 / 4 + 0.166666666666667 * e.a2 * e.c2)) / e.Ac + (0.166666666666667 * e.b1 - 0.166666666666667 * e.d1) * (e.E44 * (e.Ac1 * (0.166666666666667 - e.b1 * e.c1 / (4 * e.Ac1)) + e.Ac2 * (0.0833333333333333 * e.a2 * e.d2 / e.Ac2 - e.b2 * e.c2 / (4 * e.Ac2))) + e.E45 * (e.a1 * e.c1 / 4 + 0.166666666666667 * e.a2 * e.c2)) / e.Ac),
  (e.i2 * 5 + 3, e.i3 * 5 + 3, 0.166666666666667 * e.Ac1 * (e.E44 * (e.Ac1 * (0.166666666666667 - e.b1 * e.c1 / (4 * e.Ac1)) + e.Ac2 * (0.0833333333333333 * e.a2 * e.d2 / e.Ac2 - e.b2 * e.c2 / (4 * e.Ac2))) + e.E45 * (e.a1 * e.c1 / 4 + 0.166666666666667 * e.a2 * e.c2)) / e.Ac),
  (e.i2 * 5 + 3, e.i3 * 5 + 4, 0.166666666666667 * e.Ac1 * (e.E45 * (e.Ac1 * (0.166666666666667 - e.b1 * e.c1 / (4 * e.Ac1)) + e.Ac2 * (0.0833333333333333 * e.a2 * e.d2 / e.Ac2 - e.b2 * e.c2 / (4 * e.Ac2))) + e.E55 * (e.a1 * e.c1 / 4 + 0.166666666666667 * e.a2 * e.c2)) / e.Ac),
  (e.i2 * 5 + 3, e.i4 * 5 + 2, -0.166666666666667 * e.c2 * (e.E45 * (e.Ac1 * (0.166666666666667 - e.b1 * e.c1 / (4 * e.Ac1)) + e.Ac2 * (0.0833333333333333 * e.a2 * e.d2 / e.Ac2 - e.b2 * e.c2 / (4 * e.Ac2))) + e.E55 * (e.a1 * e.c1 / 4 + 0.166666666666667 * e.a2 * e.c2)) / e.Ac + 0.166666666666667 * e.d2 * (e.E44 * (e.Ac1 * (0.166666666666667 - e.b1 * e.c1 / (4 * e.Ac1)) + e.Ac2 * (0.0833333333333333 * e.a2 * e.d2 / e.Ac2 - e.b2 * e.c2 / (4 * e.Ac2))) + e.E45 * (e.a1 * e.c1 / 4 + 0.166666666666667 * e.a2 * e.c2)) / e.Ac),
  (e.i2 * 5 + 3, e.i4 * 5 + 3, -0.0833333333333333 * e.a2 * e.c2 * (e.E45 * (e.Ac1 * (0.166666666666667 - e.b1 * e.c1 / (4 * e.Ac1)) + e.Ac2 * (0.0833333333333333 * e.a2 * e.d2 / e.Ac2 - e.b2 * e.c2 / (4 * e.Ac2))) + e.E55 * (e.a1 * e.c1 / 4 + 0.166666666666667 * e.a2 * e.c2)) / e.Ac + 0.0833333333333333 * e.a2 * e.d2 * (e.E44 * (e.Ac1 * (0.166666666666667 - e.b1 * e.c1 / (4 * e.Ac1)) + e.Ac2 * (0.0833333333333333 * e.a2 * e.d2 / e.Ac2 - e.b2 * e.c2 / (4 * e.Ac2))) + e.E45 * (e.a1 * e.c1 / 4 + 0.166666666666667 * e.a2 * e.c2)) / e.Ac),
  (e.i2 * 5 + 3, e.i4 * 5 + 4, -0.0833333333333333 * e.b2 * e.c2 * (e.E45 * (e.Ac1 * (0.166666666666667 - e.b1 * e.c1 / (4 * e.Ac1)) + e.Ac2 * (0.0833333333333333 * e.a2 * e.d2 / e.Ac2 - e.b2 * e.c2 / (4 * e.Ac2))) + e.E55 * (e.a1 * e.c1 / 4 + 0.166666666666667 * e.a2 * e.c2)) / e.Ac + 0.0833333333333333 * e.b2 * e.d2 * (e.E44 * (e.Ac1 * (0.166666666666667 - e.b1 * e.c1 / (4 * e.Ac1)) + e.Ac2 * (0.0833333333333333 * e.a2 * e.d2 / e.Ac2 - e.b2 * e.c2 / (4 * e.Ac2))) + e.E45 * (e.a1 * e.c1 / 4 + 0.166666666666667 * e.a2 * e.c2)) / e.Ac)]

/-- meshless/espim/plate2d_add_k0s_edge_based.py:269-280 -/
def edgeI_i2_4 (e : EdgeIEnv K) : List (ℤ × ℤ × K) := [
  (e.i2 * 5 + 4, e.i1 * 5 + 2, (e.Ac1 * (-e.c1 / (2 * e.Ac1) + 0.166666666666667 * (-e.a1 + e.c1) / e.Ac1) + e.Ac2 * (-0.166666666666667 * e.c2 / e.Ac2 + (-e.a2 + e.c2) / (2 * e.Ac2))) * (e.E45 * (-e.b1 * e.d1 / 4 - 0.166666666666667 * e.b2 * e.d2) + e.E55 * (e.Ac1 * (0.166666666666667 + e.a1 * e.d1 / (4 * e.Ac1)) + e.Ac2 * (e.a2 * e.d2 / (4 * e.Ac2) - 0.0833333333333333 * e.b2 * e.c2 / e.Ac2))) / e.Ac + (e.Ac1 * (e.d1 / (2 * e.Ac1) + 0.166666666666667 * (e.b1 - e.d1) / e.Ac1) + e.Ac2 * (0.166666666666667 * e.d2 / e.Ac2 + (e.b2 - e.d2) / (2 * e.Ac2))) * (e.E44 * (-e.b1 * e.d1 / 4 - 0.166666666666667 * e.b2 * e.d2) + e.E45 * (e.Ac1 * (0.166666666666667 + e.a1 * e.d1 / (4 * e.Ac1)) + e.Ac2 * (e.a2 * e.d2 / (4 * e.Ac2) - 0.0833333333333333 * e.b2 * e.c2 / e.Ac2))) / e.Ac),
  (e.i2 * 5 + 4, e.i1 * 5 + 3, (e.Ac1 * (0.166666666666667 + e.a1 * e.d1 / (4 * e.Ac1)) + e.Ac2 * (1 / 2 + 0.0833333333333333 * e.a2 * e.d2 / e.Ac2)) * (e.E44 * (-e.b1 * e.d1 / 4 - 0.166666666666667 * e.b2 * e.d2) + e.E45 * (e.Ac1 * (0.166666666666667 + e.a1 * e.d1 / (4 * e.Ac1)) + e.Ac2 * (e.a2 * e.d2 / (4 * e.Ac2) - 0.0833333333333333 * e.b2 * e.c2 / e.Ac2))) / e.Ac + (e.E45 * (-e.b1 * e.d1 / 4 - 0.166666666666667 * e.b2 * e.d2) + e.E55 * (e.Ac1 * (0.166666666666667 + e.a1 * e.d1 / (4 * e.Ac1)) + e.Ac2 * (e.a2 * e.d2 / (4 * e.Ac2) - 0.0833333333333333 * e.b2 * e.c2 / e.Ac2))) * (-e.a1 * e.c1 / 4 - 0.0833333333333333 * e.a2 * e.c2) / e.Ac),
  (e.i2 * 5 + 4, e.i1 * 5 + 4, (e.Ac1 * (0.166666666666667 - e.b1 * e.c1 / (4 * e.Ac1)) + e.Ac2 * (1 / 2 - 0.0833333333333333 * e.b2 * e.c2 / e.Ac2)) * (e.E45 * (-e.b1 * e.d1 / 4 - 0.166666666666667 * e.b2 * e.d2) + e.E55 * (e.Ac1 * (0.166666666666667 + e.a1 * e.d1 / (4 * e.Ac1)) + e.Ac2 * (e.a2 * e.d2 / (4 * e.Ac2) - 0.0833333333333333 * e.b2 * e.c2 / e.Ac2))) / e.Ac + (e.E44 * (-e.b1 * e.d1 / 4 - 0.166666666666667 * e.b2 * e.d2) + e.E45 * (e.Ac1 * (0.166666666666667 + e.a1 * e.d1 / (4 * e.Ac1)) + e.Ac2 * (e.a2 * e.d2 / (4 * e.Ac2) - 0.0833333333333333 * e.b2 * e.c2 / e.Ac2))) * (e.b1 * e.d1 / 4 + 0.0833333333333333 * e.b2 * e.d2) / e.Ac),
  (e.i2 * 5 + 4, e.i2 * 5 + 2, (e.Ac1 * (e.a1 / (2 * e.Ac1) + 0.166666666666667 * (-e.a1 + e.c1) / e.Ac1) + e.Ac2 * (e.a2 / (2 * e.Ac2) - 0.166666666666667 * e.c2 / e.Ac2)) * (e.E45 * (-e.b1 * e.d1 / 4 - 0.166666666666667 * e.b2 * e.d2) + e.E55 * (e.Ac1 * (0.166666666666667 + e.a1 * e.d1 / (4 * e.Ac1)) + e.Ac2 * (e.a2 * e.d2 / (4 * e.Ac2) - 0.0833333333333333 * e.b2 * e.c2 / e.Ac2))) / e.Ac + (e.Ac1 * (-e.b1 / (2 * e.Ac1) + 0.166666666666667 * (e.b1 - e.d1) / e.Ac1) + e.Ac2 * (-e.b2 / (2 * e.Ac2) + 0.166666666666667 * e.d2 / e.Ac2)) * (e.E44 * (-e.b1 * e.d1 / 4 - 0.166666666666667 * e.b2 * e.d2) + e.E45 * (e.Ac1 * (0.166666666666667 + e.a1 * e.d1 / (4 * e.Ac1)) + e.Ac2 * (e.a2 * e.d2 / (4 * e.Ac2) - 0.0833333333333333 * e.b2 * e.c2 / e.Ac2))) / e.Ac),
  (e.i2 * 5 + 4, e.i2 * 5 + 3, (e.Ac1 * (0.166666666666667 - e.b1 * e.c1 / (4 * e.Ac1)) + e.Ac2 * (0.0833333333333333 * e.a2 * e.d2 / e.Ac2 - e.b2 * e.c2 / (4 * e.Ac2))) * (e.E44 * (-e.b1 * e.d1 / 4 - 0.166666666666667 * e.b2 * e.d2) + e.E45 * (e.Ac1 * (0.166666666666667 + e.a1 * e.d1 / (4 * e.Ac1)) + e.Ac2 * (e.a2 * e.d2 / (4 * e.Ac2) - 0.0833333333333333 * e.b2 * e.c2 / e.Ac2))) / e.Ac + (e.E45 * (-e.b1 * e.d1 / 4 - 0.166666666666667 * e.b2 * e.d2) + e.E55 * (e.Ac1 * (0.166666666666667 + e.a1 * e.d1 / (4 * e.Ac1)) + e.Ac2 * (e.a2 * e.d2 / (4 * e.Ac2) - 0.0833333333333333 * e.b2 * e.c2 / e.Ac2))) * (e.a1 * e.c1 / 4 + 0.166666666666667 * e.a2 * e.c2) / e.Ac),
  (e.i2 * 5 + 4, e.i2 * 5 + 4, (e.Ac1 * (0.166666666666667 + e.a1 * e.d1 / (4 * e.Ac1)) + e.Ac2 * (e.a2 * e.d2 / (4 * e.Ac2) - 0.0833333333333333 * e.b2 * e.c2 / e.Ac2)) * (e.E45 * (-e.b1 * e.d1 / 4 - 0.166666666666667 * e.b2 * e.d2) + e.E55 * (e.Ac1 * (0.166666666666667 + e.a1 * e.d1 / (4 * e.Ac1)) + e.Ac2 * (e.a2 * e.d2 / (4 * e.Ac2) - 0.0833333333333333 * e.b2 * e.c2 / e.Ac2))) / e.Ac + (e.E44 * (-e.b1 * e.d1 / 4 - 0.166666666666667 * e.b2 * e.d2) + e.E45 * (e.Ac1 * (0.166666666666667 + e.a1 * e.d1 / (4 * e.Ac1)) + e.Ac2 * (e.a2 * e.d2 / (4 * e.Ac2) - 0.0833333333333333 * e.b2 * e.c2 / e.Ac2))) * (-e.b1 * e.d1 / 4 - 0.166666666666667 * e.b2 * e.d2) / e.Ac),
  (e.i2 * 5 + 4, e.i3 * 5 + 2, (-0.166666666666667 * e.a1 + 0.166666666666667 * e.c1) * (e.E45 * (-e.b1 * e.d1 / 4 - 0.166666666666667 * e.b2 * e.d2) + e.E55 * (e.Ac1 * (0.166666666666667 + e.a1 * e.d1 / (4 * e.Ac1)) + e.Ac2 * (e.a2 * e.d2 / (4 * e.Ac2) - 0.0833333333333333 * e.b2 * e.c2 / e.Ac2))) / e.Ac + (0.166666666666667 * e.b1 - 0.166666666666667 * e.d1) * (e.E44 * (-e.b1 * e.d1 / 4 - 0.166666666666667 * e.b2 * e.d2) + e.E45 * (e.Ac1 * (0.166666666666667 + e.a1 * e.d1 / (4 * e.Ac1)) + e.Ac2 * (e.a2 * e.d2 / (4 * e.Ac2) - 0.0833333333333333 * e.b2 * e.c2 / e.Ac2))) / e.Ac),
  (e.i2 * 5 + 4, e.i3 * 5 + 3, 0.166666666666667 * e.Ac1 * (e.E44 * (-e.b1 * e.d1 / 4 - 0.166666666666667 * e.b2 * e.d2) + e.E45 * (e.Ac1 * (0.166666666666667 + e.a1 * e.d1 / (4 * e.Ac1)) + e.Ac2 * (e.a2 * e.d2 / (4 * e.Ac2) - 0.0833333333333333 * e.b2 * e.c2 / e.Ac2))) / e.Ac),
  (e.i2 * 5 + 4, e.i3 * 5 + 4, 0.166666666666667 * e.Ac1 * (e.E45 * (-e.b1 * e.d1 / 4 - 0.166666666666667 * e.b2 * e.d2) + e.E55 * (e.Ac1 * (0.166666666666667 + e.a1 * e.d1 / (4 * e.Ac1)) + e.Ac2 * (e.a2 * e.d2 / (4 * e.Ac2) - 0.0833333333333333 * e.b2 * e.c2 / e.Ac2))) / e.Ac),
  (e.i2 * 5 + 4, e.i4 * 5 + 2, -0.166666666666667 * e.c2 * (e.E45 * (-e.b1 * e.d1 / 4 - 0.166666666666667 * e.b2 * e.d2) + e.E55 * (e.Ac1 * (0.166666666666667 + e.a1 * e.d1 / (4 * e.Ac1)) + e.Ac2 * (e.a2 * e.d2 / (4 * e.Ac2) - 0.0833333333333333 * e.b2 * e.c2 / e.Ac2))) / e.Ac + 0.166666666666667 * e.d2 * (e.E44 * (-e.b1 * e.d1 / 4 - 0.166666666666667 * e.b2 * e.d2) + e.E45 * (e.Ac1 * (0.166666666666667 + e.a1 * e.d1 / (4 * e.Ac1)) + e.Ac2 * (e.a2 * e.d2 / (4 * e.Ac2) - 0.0833333333333333 * e.b2 * e.c2 / e.Ac2))) / e.Ac),
  (e.i2 * 5 + 4, e.i4 * 5 + 3, -0.0833333333333333 * e.a2 * e.c2 * (e.E45 * (-e.b1 * e.d1 / 4 - 0.166666666666667 * e.b2 * e.d2) + e.E55 * (e.Ac1 * (0.166666666666667 + e.a1 * e.d1 / (4 * e.Ac1)) + e.Ac2 * (e.a2 * e.d2 / (4 * e.Ac2) - 0.0833333333333333 * e.b2 * e.c2 / e.Ac2))) / e.Ac + 0.0833333333333333 * e.a2 * e.d2 * (e.E44 * (-e.b1 * e.d1 / 4 - 0.166666666666667 * e.b2 * e.d2) + e.E45 * (e.Ac1 * (0.166666666666667 + e.a1 * e.d1 / (4 * e.Ac1)) + e.Ac2 * (e.a2 * e.d2 / (4 * e.Ac2) - 0.0833333333333333 * e.b2 * e.c2 / e.Ac2))) / e.Ac),
  (e.i2 * 5 + 4, e.i4 * 5 + 4, -0.0833333333333333 * e.b2 * e.c2 * (e.E45 * (-e.b1 * e.d1 / 4 - 0.166666666666667 * e.b2 * e.d2) + e.E55 * (e.Ac1 * (0.166666666666667 + e.a1 * e.d1 / (4 * e.Ac1)) + e.Ac2 * (e.a2 * e.d2 / (4 * e.Ac2) - 0.0833333333333333 * e.b2 * e.c2 / e.Ac2))) / e.Ac + 0.0833333333333333 * e.b2 * e.d2 * (e.E44 * (-e.b1 * e.d1 / 4 - 0.166666666666667 * e.b2 * e.d2) + e.E45 * (e.Ac1 * (0.166666666666667 + e.a1 * e.d1 / (4 * e.Ac1)) + e.Ac2 * (e.a2 * e.d2 / (4 * e.Ac2) - 0.0833333333333333 * e.b2 * e.c2 / e.Ac2))) / e.Ac)]

/-- meshless/espim/plate2d_add_k0s_edge_based.py:281-292 -/
def edgeI_i3_2 (e : EdgeIEnv K) : List (ℤ × ℤ × K) := [
  (e.i3 * 5 + 2, e.i1 * 5 + 2, (e.Ac1 * (-e.c1 / (2 * e.Ac1) + 0.166666666666667 * (-e.a1 + e.c1) / e.Ac1) + e.Ac2 * (-0.166666666666667 * e.c2 / e.Ac2 + (-e.a2 + e.c2) / (2 * e.Ac2))) * (e.E45 * (0.166666666666667 * e.b1 - 0.166666666666667 * e.d1) + e.E55 * (-0.166666666666667 * e.a1 + 0.166666666666667 * e.c1)) / e.Ac + (e.Ac1 * (e.d1 / (2 * e.Ac1) + 0.166666666666667 * (e.b1 - e.d1) / e.Ac1) + e.Ac2 * (0.166666666666667 * e.d2 / e.Ac2 + (e.b2 - e.d2) / (2 * e.Ac2))) * (e.E44 * (0.166666666666667 * e.b1 - 0.166666666666667 * e.d1) + e.E45 * (-0.166666666666667 * e.a1 + 0.166666666666667 * e.c1)) / e.Ac),
  (e.i3 * 5 + 2, e.i1 * 5 + 3, (e.Ac1 * (0.166666666666667 + e.a1 * e.d1 / (4 * e.Ac1)) + e.Ac2 * (1 / 2 + 0.0833333333333333 * e.a2 * e.d2 / e.Ac2)) * (e.E44 * (0.166666666666667 * e.b1 - 0.166666666666667 * e.d1) + e.E45 * (-0.166666666666667 * e.a1 + 0.166666666666667 * e.c1)) / e.Ac + (e.E45 * (0.166666666666667 * e.b1 - 0.166666666666667 * e.d1) + e.E55 * (-0.166666666666667 * e.a1 + 0.166666666666667 * e.c1)) * (-e.a1 * e.c1 / 4 - 0.0833333333333333 * e.a2 * e.c2) / e.Ac),
  (e.i3 * 5 + 2, e.i1 * 5 + 4, (e.Ac1 * (0.166666666666667 - e.b1 * e.c1 / (4 * e.Ac1)) + e.Ac2 * (1 / 2 - 0.0833333333333333 * e.b2 * e.c2 / e.Ac2)) * (e.E45 * (0.166666666666667 * e.b1 - 0.166666666666667 * e.d1) + e.E55 * (-0.166666666666667 * e.a1 + 0.166666666666667 * e.c1)) / e.Ac + (e.E44 * (0.166666666666667 * e.b1 - 0.166666666666667 * e.d1) + e.E45 * (-0.166666666666667 * e.a1 + 0.166666666666667 * e.c1)) * (e.b1 * e.d1 / 4 + 0.0833333333333333 * e.b2 * e.d2) / e.Ac),
  (e.i3 * 5 + 2, e.i2 * 5 + 2, (e.Ac1 * (e.a1 / (2 * e.Ac1) + 0.166666666666667 * (-e.a1 + e.c1) / e.Ac1) + e.Ac2 * (e.a2 / (2 * e.Ac2) - 0.166666666666667 * e.c2 / e.Ac2)) * (e.E45 * (0.166666666666667 * e.b1 - 0.166666666666667 * e.d1) + e.E55 * (-0.166666666666667 * e.a1 + 0.166666666666667 * e.c1)) / e.Ac + (e.Ac1 * (-e.b1 / (2 * e.Ac1) + 0.166666666666667 * (e.b1 - e.d1) / e.Ac1) + e.Ac2 * (-e.b2 / (2 * e.Ac2) + 0.166666666666667 * e.d2 / e.Ac2)) * (e.E44 * (0.166666666666667 * e.b1 - 0.166666666666667 * e.d1) + e.E45 * (-0.166666666666667 * e.a1 + 0.166666666666667 * e.c1)) / e.Ac),
  (e.i3 * 5 + 2, e.i2 * 5 + 3, (e.Ac1 * (0.166666666666667 - e.b1 * e.c1 / (4 * e.Ac1)) + e.Ac2 * (0.0833333333333333 * e.a2 * e.d2 / e.Ac2 - e.b2 * e.c2 / (4 * e.Ac2))) * (e.E44 * (0.166666666666667 * e.b1 - 0.166666666666667 * e.d1) + e.E45 * (-0.166666666666667 * e.a1 + 0.166666666666667 * e.c1)) / e.Ac + (e.E45 * (0.166666666666667 * e.b1 - 0.166666666666667 * e.d1) + e.E55 * (-0.166666666666667 * e.a1 + 0.166666666666667 * e.c1)) * (e.a1 * e.c1 / 4 + 0.166666666666667 * e.a2 * e.c2) / e.Ac),
  (e.i3 * 5 + 2, e.i2 * 5 + 4, (e.Ac1 * (0.166666666666667 + e.a1 * e.d1 / (4 * e.Ac1)) + e.Ac2 * (e.a2 * e.d2 / (4 * e.Ac2) - 0.0833333333333333 * e.b2 * e.c2 / e.Ac2)) * (e.E45 * (0.166666666666667 * e.b1 - 0.166666666666667 * e.d1) + e.E55 * (-0.166666666666667 * e.a1 + 0.166666666666667 * e.c1)) / e.Ac + (e.E44 * (0.166666666666667 * e.b1 - 0.166666666666667 * e.d1) + e.E45 * (-0.166666666666667 * e.a1 + 0.166666666666667 * e.c1)) * (-e.b1 * e.d1 / 4 - 0.166666666666667 * e.b2 * e.d2) / e.Ac),
  (e.i3 * 5 + 2, e.i3 * 5 + 2, (-0.166666666666667 * e.a1 + 0.166666666666667 * e.c1) * (e.E45 * (0.166666666666667 * e.b1 - 0.166666666666667 * e.d1) + e.E55 * (-0.166666666666667 * e.a1 + 0.166666666666667 * e.c1)) / e.Ac + (0.166666666666667 * e.b1 - 0.166666666666667 * e.d1) * (e.E44 * (0.166666666666667 * e.b1 - 0.166666666666667 * e.d1) + e.E45 * (-0.166666666666667 * e.a1 + 0.166666666666667 * e.c1)) / e.Ac),
  (e.i3 * 5 + 2, e.i3 * 5 + 3, 0.166666666666667 * e.Ac1 * (e.E44 * (0.166666666666667 * e.b1 - 0.166666666666667 * e.d1) + e.E45 * (-0.166666666666667 * e.a1 + 0.166666666666667 * e.c1)) / e.Ac),
  (e.i3 * 5 + 2, e.i3 * 5 + 4, 0.166666666666667 * e.Ac1 * (e.E45 * (0.166666666666667 * e.b1 - 0.166666666666667 * e.d1) + e.E55 * (-0.166666666666667 * e.a1 + 0.166666666666667 * e.c1)) / e.Ac),
  (e.i3 * 5 + 2, e.i4 * 5 + 2, -0.166666666666667 * e.c2 * (e.E45 * (0.166666666666667 * e.b1 - 0.166666666666667 * e.d1) + e.E55 * (-0.166666666666667 * e.a1 + 0.166666666666667 * e.c1)) / e.Ac + 0.166666666666667 * e.d2 * (e.E44 * (0.166666666666667 * e.b1 - 0.166666666666667 * e.d1) + e.E45 * (-0.166666666666667 * e.a1 + 0.166666666666667 * e.c1)) / e.Ac),
  (e.i3 * 5 + 2, e.i4 * 5 + 3, -0.0833333333333333 * e.a2 * e.c2 * (e.E45 * (0.166666666666667 * e.b1 - 0.166666666666667 * e.d1) + e.E55 * (-0.166666666666667 * e.a1 + 0.166666666666667 * e.c1)) / e.Ac + 0.0833333333333333 * e.a2 * e.d2 * (e.E44 * (0.166666666666667 * e.b1 - 0.166666666666667 * e.d1) + e.E45 * (-0.166666666666667 * e.a1 + 0.166666666666667 * e.c1)) / e.Ac),
  (e.i3 * 5 + 2, e.i4 * 5 + 4, -0.0833333333333333 * e.b2 * e.c2 * (e.E45 * (0.166666666666667 * e.b1 - 0.166666666666667 * e.d1) + e.E55 * (-0.166666666666667 * e.a1 + 0.166666666666667 * e.c1)) / e.Ac + 0.0833333333333333 * e.b2 * e.d2 * (e.E44 * (0.166666666666667 * e.b1 - 0.166666666666667 * e.d1) + e.E45 * (-0.166666666666667 * e.a1 + 0.166666666666667 * e.c1)) / e.Ac)]

/-- meshless/espim/plate2d_add_k0s_edge_based.py:293-304 -/
def edgeI_i3_3 (e : EdgeIEnv K) : List (ℤ × ℤ × K) := [
  (e.i3 * 5 + 3, e.i1 * 5 + 2, 0.166666666666667 * e.Ac1 * e.E44 * (e.Ac1 * (e.d1 / (2 * e.Ac1) + 0.166666666666667 * (e.b1 - e.d1) / e.Ac1) + e.Ac2 * (0.166666666666667 * e.d2 / e.Ac2 + (e.b2 - e.d2) / (2 * e.Ac2))) / e.Ac + 0.166666666666667 * e.Ac1 * e.E45 * (e.Ac1 * (-e.c1 / (2 * e.Ac1) + 0.166666666666667 * (-e.a1 + e.c1) / e.Ac1) + e.Ac2 * (-0.166666666666667 * e.c2 / e.Ac2 + (-e.a2 + e.c2) / (2 * e.Ac2))) / e.Ac),
  (e.i3 * 5 + 3, e.i1 * 5 + 3, 0.166666666666667 * e.Ac1 * e.E44 * (e.Ac1 * (0.166666666666667 + e.a1 * e.d1 / (4 * e.Ac1)) + e.Ac2 * (1 / 2 + 0.0833333333333333 * e.a2 * e.d2 / e.Ac2)) / e.Ac + 0.166666666666667 * e.Ac1 * e.E45 * (-e.a1 * e.c1 / 4 - 0.0833333333333333 * e.a2 * e.c2) / e.Ac),
  (e.i3 * 5 + 3, e.i1 * 5 + 4, 0.166666666666667 * e.Ac1 * e.E44 * (e.b1 * e.d1 / 4 + 0.0833333333333333 * e.b2 * e.d2) / e.Ac + 0.166666666666667 * e.Ac1 * e.E45 * (e.Ac1 * (0.166666666666667 - e.b1 * e.c1 / (4 * e.Ac1)) + e.Ac2 * (1 / 2 - 0.0833333333333333 * e.b2 * e.c2 / e.Ac2)) / e.Ac),
  (e.i3 * 5 + 3, e.i2 * 5 + 2, 0.166666666666667 * e.Ac1 * e.E44 * (e.Ac1 * (-e.b1 / (2 * e.Ac1) + 0.166666666666667 * (e.b1 - e.d1) / e.Ac1) + e.Ac2 * (-e.b2 / (2 * e.Ac2) + 0.166666666666667 * e.d2 / e.Ac2)) / e.Ac + 0.166666666666667 * e.Ac1 * e.E45 * (e.Ac1 * (e.a1 / (2 * e.Ac1) + 0.166666666666667 * (-e.a1 + e.c1) / e.Ac1) + e.Ac2 * (e.a2 / (2 * e.Ac2) - 0.166666666666667 * e.c2 / e.Ac2)) / e.Ac),
  (e.i3 * 5 + 3, e.i2 * 5 + 3, 0.166666666666667 * e.Ac1 * e.E44 * (e.Ac1 * (0.166666666666667 - e.b1 * e.c1 / (4 * e.Ac1)) + e.Ac2 * (0.0833333333333333 * e.a2 * e.d2 / e.Ac2 - e.b2 * e.c2 / (4 * e.Ac2))) / e.Ac + 0.166666666666667 * e.Ac1 * e.E45 * (e.a1 * e.c1 / 4 + 0.166666666666667 * e.a2 * e.c2) / e.Ac),
  (e.i3 * 5 + 3, e.i2 * 5 + 4, 0.166666666666667 * e.Ac1 * e.E44 * (-e.b1 * e.d1 / 4 - 0.166666666666667 * e.b2 * e.d2) / e.Ac + 0.166666666666667 * e.Ac1 * e.E45 * (e.Ac1 * (0.166666666666667 + e.a1 * e.d1 / (4 * e.Ac1)) + e.Ac2 * (e.a2 * e.d2 / (4 * e.Ac2) - 0.0833333333333333 * e.b2 * e.c2 / e.Ac2)) / e.Ac),
  (e.i3 * 5 + 3, e.i3 * 5 + 2, 0.166666666666667 * e.Ac1 * e.E44 * (0.166666666666667 * e.b1 - 0.166666666666667 * e.d1) / e.Ac + 0.166666666666667 * e.Ac1 * e.E45 * (-0.166666666666667 * e.a1 + 0.166666666666667 * e.c1) / e.Ac),
  (e.i3 * 5 + 3, e.i3 * 5 + 3, 0.0277777777777778 * (e.Ac1 * e.Ac1) * e.E44 / e.Ac),
  (e.i3 * 5 + 3, e.i3 * 5 + 4, 0.0277777777777778 * (e.Ac1 * e.Ac1) * e.E45 / e.Ac),
  (e.i3 * 5 + 3, e.i4 * 5 + 2, 0.0277777777777778 * e.Ac1 * e.E44 * e.d2 / e.Ac - 0.0277777777777778 * e.Ac1 * e.E45 * e.c2 / e.Ac),
  (e.i3 * 5 + 3, e.i4 * 5 + 3, 0.0138888888888889 * e.Ac1 * e.E44 * e.a2 * e.d2 / e.Ac - 0.0138888888888889 * e.Ac1 * e.E45 * e.a2 * e.c2 / e.Ac),
  (e.i3 * 5 + 3, e.i4 * 5 + 4, 0.0138888888888889 * e.Ac1 * e.E44 * e.b2 * e.d2 / e.Ac - 0.0138888888888889 * e.Ac1 * e.E45 * e.b2 * e.c2 / e.Ac)]

/-- meshless/espim/plate2d_add_k0s_edge_based.py:305-316 -/
def edgeI_i3_4 (e : EdgeIEnv K) : List (ℤ × ℤ × K) := [
  (e.i3 * 5 + 4, e.i1 * 5 + 2, 0.166666666666667 * e.Ac1 * e.E45 * (e.Ac1 * (e.d1 / (2 * e.Ac1) + 0.166666666666667 * (e.b1 - e.d1) / e.Ac1) + e.Ac2 * (0.166666666666667 * e.d2 / e.Ac2 + (e.b2 - e.d2) / (2 * e.Ac2))) / e.Ac + 0.166666666666667 * e.Ac1 * e.E55 * (e.Ac1 * (-e.c1 / (2 * e.Ac1) + 0.166666666666667 * (-e.a1 + e.c1) / e.Ac1) + e.Ac2 * (-0.166666666666667 * e.c2 / e.Ac2 + (-e.a2 + e.c2) / (2 * e.Ac2))) / e.Ac),
  (e.i3 * 5 + 4, e.i1 * 5 + 3, 0.166666666666667 * e.Ac1 * e.E45 * (e.Ac1 * (0.166666666666667 + e.a1 * e.d1 / (4 * e.Ac1)) + e.Ac2 * (1 / 2 + 0.0833333333333333 * e.a2 * e.d2 / e.Ac2)) / e.Ac + 0.166666666666667 * e.Ac1 * e.E55 * (-e.a1 * e.c1 / 4 - 0.0833333333333333 * e.a2 * e.c2) / e.Ac),
  (e.i3 * 5 + 4, e.i1 * 5 + 4, 0.166666666666667 * e.Ac1 * e.E45 * (e.b1 * e.d1 / 4 + 0.0833333333333333 * e.b2 * e.d2) / e.Ac + 0.166666666666667 * e.Ac1 * e.E55 * (e.Ac1 * (0.166666666666667 - e.b1 * e.c1 / (4 * e.Ac1)) + e.Ac2 * (1 / 2 - 0.0833333333333333 * e.b2 * e.c2 / e.Ac2)) / e.Ac),
  (e.i3 * 5 + 4, e.i2 * 5 + 2, 0.166666666666667 * e.Ac1 * e.E45 * (e.Ac1 * (-e.b1 / (2 * e.Ac1) + 0.166666666666667 * (e.b1 - e.d1) / e.Ac1) + e.Ac2 * (-e.b2 / (2 * e.Ac2) + 0.166666666666667 * e.d2 / e.Ac2)) / e.Ac + 0.166666666666667 * e.Ac1 * e.E55 * (e.Ac1 * (e.a1 / (2 * e.Ac1) + 0.166666666666667 * (-e.a1 + e.c1) / e.Ac1) + e.Ac2 * (e.a2 / (2 * e.Ac2) - 0.166666666666667 * e.c2 / e.Ac2)) / e.Ac),
  (e.i3 * 5 + 4, e.i2 * 5 + 3, 0.166666666666667 * e.Ac1 * e.E45 * (e.Ac1 * (0.166666666666667 - e.b1 * e.c1 / (4 * e.Ac1)) + e.Ac2 * (0.0833333333333333 * e.a2 * e.d2 / e.Ac2 - e.b2 * e.c2 / (4 * e.Ac2))) / e.Ac + 0.166666666666667 * e.Ac1 * e.E55 * (e.a1 * e.c1 / 4 + 0.166666666666667 * e.a2 * e.c2) / e.Ac),
  (e.i3 * 5 + 4, e.i2 * 5 + 4, 0.166666666666667 * e.Ac1 * e.E45 * (-e.b1 * e.d1 / 4 - 0.166666666666667 * e.b2 * e.d2) / e.Ac + 0.166666666666667 * e.Ac1 * e.E55 * (e.Ac1 * (0.166666666666667 + e.a1 * e.d1 / (4 * e.Ac1)) + e.Ac2 * (e.a2 * e.d2 / (4 * e.Ac2) - 0.0833333333333333 * e.b2 * e.c2 / e.Ac2)) / e.Ac),
  (e.i3 * 5 + 4, e.i3 * 5 + 2, 0.166666666666667 * e.Ac1 * e.E45 * (0.166666666666667 * e.b1 - 0.166666666666667 * e.d1) / e.Ac + 0.166666666666667 * e.Ac1 * e.E55 * (-0.166666666666667 * e.a1 + 0.166666666666667 * e.c1) / e.Ac),
  (e.i3 * 5 + 4, e.i3 * 5 + 3, 0.0277777777777778 * (e.Ac1 * e.Ac1) * e.E45 / e.Ac),
  (e.i3 * 5 + 4, e.i3 * 5 + 4, 0.0277777777777778 * (e.Ac1 * e.Ac1) * e.E55 / e.Ac),
  (e.i3 * 5 + 4, e.i4 * 5 + 2, 0.0277777777777778 * e.Ac1 * e.E45 * e.d2 / e.Ac - 0.0277777777777778 * e.Ac1 * e.E55 * e.c2 / e.Ac),
  (e.i3 * 5 + 4, e.i4 * 5 + 3, 0.0138888888888889 * e.Ac1 * e.E45 * e.a2 * e.d2 / e.Ac - 0.0138888888888889 * e.Ac1 * e.E55 * e.a2 * e.c2 / e.Ac),
  (e.i3 * 5 + 4, e.i4 * 5 + 4, 0.0138888888888889 * e.Ac1 * e.E45 * e.b2 * e.d2 / e.Ac - 0.0138888888888889 * e.Ac1 * e.E55 * e.b2 * e.c2 / e.Ac)]

/-- meshless/espim/plate2d_add_k0s_edge_based.py:317-328 -/
def edgeI_i4_2 (e : EdgeIEnv K) : List (ℤ × ℤ × K) := [
  (e.i4 * 5 + 2, e.i1 * 5 + 2, (e.Ac1 * (-e.c1 / (2 * e.Ac1) + 0.166666666666667 * (-e.a1 + e.c1) / e.Ac1) + e.Ac2 * (-0.166666666666667 * e.c2 / e.Ac2 + (-e.a2 + e.c2) / (2 * e.Ac2))) * (0.166666666666667 * e.E45 * e.d2 - 0.166666666666667 * e.E55 * e.c2) / e.Ac + (e.Ac1 * (e.d1 / (2 * e.Ac1) + 0.166666666666667 * (e.b1 - e.d1) / e.Ac1) + e.Ac2 * (0.166666666666667 * e.d2 / e.Ac2 + (e.b2 - e.d2) / (2 * e.Ac2))) * (0.166666666666667 * e.E44 * e.d2 - 0.166666666666667 * e.E45 * e.c2) / e.Ac),
  (e.i4 * 5 + 2, e.i1 * 5 + 3, (e.Ac1 * (0.166666666666667 + e.a1 * e.d1 / (4 * e.Ac1)) + e.Ac2 * (1 / 2 + 0.0833333333333333 * e.a2 * e.d2 / e.Ac2)) * (0.166666666666667 * e.E44 * e.d2 - 0.166666666666667 * e.E45 * e.c2) / e.Ac + (0.166666666666667 * e.E45 * e.d2 - 0.166666666666667 * e.E55 * e.c2) * (-e.a1 * e.c1 / 4 - 0.0833333333333333 * e.a2 * e.c2) / e.Ac),
  (e.i4 * 5 + 2, e.i1 * 5 + 4, (e.Ac1 * (0.166666666666667 - e.b1 * e.c1 / (4 * e.Ac1)) + e.Ac2 * (1 / 2 - 0.0833333333333333 * e.b2 * e.c2 / e.Ac2)) * (0.166666666666667 * e.E45 * e.d2 - 0.166666666666667 * e.E55 * e.c2) / e.Ac + (0.166666666666667 * e.E44 * e.d2 - 0.166666666666667 * e.E45 * e.c2) * (e.b1 * e.d1 / 4 + 0.0833333333333333 * e.b2 * e.d2) / e.Ac),
  (e.i4 * 5 + 2, e.i2 * 5 + 2, (e.Ac1 * (e.a1 / (2 * e.Ac1) + 0.166666666666667 * (-e.a1 + e.c1) / e.Ac1) + e.Ac2 * (e.a2 / (2 * e.Ac2) - 0.166666666666667 * e.c2 / e.Ac2)) * (0.166666666666667 * e.E45 * e.d2 - 0.166666666666667 * e.E55 * e.c2) / e.Ac + (e.Ac1 * (-e.b1 / (2 * e.Ac1) + 0.166666666666667 * (e.b1 - e.d1) / e.Ac1) + e.Ac2 * (-e.b2 / (2 * e.Ac2) + 0.166666666666667 * e.d2 / e.Ac2)) * (0.166666666666667 * e.E44 * e.d2 - 0.166666666666667 * e.E45 * e.c2) / e.Ac),
  (e.i4 * 5 + 2, e.i2 * 5 + 3, (e.Ac1 * (0.166666666666667 - e.b1 * e.c1 / (4 * e.Ac1)) + e.Ac2 * (0.0833333333333333 * e.a2 * e.d2 / e.Ac2 - e.b2 * e.c2 / (4 * e.Ac2))) * (0.166666666666667 * e.E44 * e.d2 - 0.166666666666667 * e.E45 * e.c2) / e.Ac + (0.166666666666667 * e.E45 * e.d2 - 0.166666666666667 * e.E55 * e.c2) * (e.a1 * e.c1 / 4 + 0.166666666666667 * e.a2 * e.c2) / e.Ac),
  (e.i4 * 5 + 2, e.i2 * 5 + 4, (e.Ac1 * (0.166666666666667 + e.a1 * e.d1 / (4 * e.Ac1)) + e.Ac2 * (e.a2 * e.d2 / (4 * e.Ac2) - 0.0833333333333333 * e.b2 * e.c2 / e.Ac2)) * (0.166666666666667 * e.E45 * e.d2 - 0.166666666666667 * e.E55 * e.c2) / e.Ac + (0.166666666666667 * e.E44 * e.d2 - 0.166666666666667 * e.E45 * e.c2) * (-e.b1 * e.d1 / 4 - 0.166666666666667 * e.b2 * e.d2) / e.Ac),
  (e.i4 * 5 + 2, e.i3 * 5 + 2, (-0.166666666666667 * e.a1 + 0.166666666666667 * e.c1) * (0.166666666666667 * e.E45 * e.d2 - 0.166666666666667 * e.E55 * e.c2) / e.Ac + (0.166666666666667 * e.b1 - 0.166666666666667 * e.d1) * (0.166666666666667 * e.E44 * e.d2 - 0.166666666666667 * e.E45 * e.c2) / e.Ac),
  (e.i4 * 5 + 2, e.i3 * 5 + 3, 0.166666666666667 * e.Ac1 * (0.166666666666667 * e.E44 * e.d2 - 0.166666666666667 * e.E45 * e.c2) / e.Ac),
  (e.i4 * 5 + 2, e.i3 * 5 + 4, 0.166666666666667 * e.Ac1 * (0.166666666666667 * e.E45 * e.d2 - 0.166666666666667 * e.E55 * e.c2) / e.Ac),
  (e.i4 * 5 + 2, e.i4 * 5 + 2, -0.166666666666667 * e.c2 * (0.166666666666667 * e.E45 * e.d2 - 0.166666666666667 * e.E55 * e.c2) / e.Ac + 0.166666666666667 * e.d2 * (0.166666666666667 * e.E44 * e.d2 - 0.166666666666667 * e.E45 * e.c2) / e.Ac),
  (e.i4 * 5 + 2, e.i4 * 5 + 3, -0.0833333333333333 * e.a2 * e.c2 * (0.166666666666667 * e.E45 * e.d2 - 0.166666666666667 * e.E55 * e.c2) / e.Ac + 0.0833333333333333 * e.a2 * e.d2 * (0.166666666666667 * e.E44 * e.d2 - 0.166666666666667 * e.E45 * e.c2) / e.Ac),
  (e.i4 * 5 + 2, e.i4 * 5 + 4, -0.0833333333333333 * e.b2 * e.c2 * (0.166666666666667 * e.E45 * e.d2 - 0.166666666666667 * e.E55 * e.c2) / e.Ac + 0.0833333333333333 * e.b2 * e.d2 * (0.166666666666667 * e.E44 * e.d2 - 0.166666666666667 * e.E45 * e.c2) / e.Ac)]

/-- meshless/espim/plate2d_add_k0s_edge_based.py:329-340 -/
def edgeI_i4_3 (e : EdgeIEnv K) : List (ℤ × ℤ × K) := [
  (e.i4 * 5 + 3, e.i1 * 5 + 2, (e.Ac1 * (-e.c1 / (2 * e.Ac1) + 0.166666666666667 * (-e.a1 + e.c1) / e.Ac1) + e.Ac2 * (-0.166666666666667 * e.c2 / e.Ac2 + (-e.a2 + e.c2) / (2 * e.Ac2))) * (0.0833333333333333 * e.E45 * e.a2 * e.d2 - 0.0833333333333333 * e.E55 * e.a2 * e.c2) / e.Ac + (e.Ac1 * (e.d1 / (2 * e.Ac1) + 0.166666666666667 * (e.b1 - e.d1) / e.Ac1) + e.Ac2 * (0.166666666666667 * e.d2 / e.Ac2 + (e.b2 - e.d2) / (2 * e.Ac2))) * (0.0833333333333333 * e.E44 * e.a2 * e.d2 - 0.0833333333333333 * e.E45 * e.a2 * e.c2) / e.Ac),
  (e.i4 * 5 + 3, e.i1 * 5 + 3, (e.Ac1 * (0.166666666666667 + e.a1 * e.d1 / (4 * e.Ac1)) + e.Ac2 * (1 / 2 + 0.0833333333333333 * e.a2 * e.d2 / e.Ac2)) * (0.0833333333333333 * e.E44 * e.a2 * e.d2 - 0.0833333333333333 * e.E45 * e.a2 * e.c2) / e.Ac + (-e.a1 * e.c1 / 4 - 0.0833333333333333 * e.a2 * e.c2) * (0.0833333333333333 * e.E45 * e.a2 * e.d2 - 0.0833333333333333 * e.E55 * e.a2 * e.c2) / e.Ac),
  (e.i4 * 5 + 3, e.i1 * 5 + 4, (e.Ac1 * (0.166666666666667 - e.b1 * e.c1 / (4 * e.Ac1)) + e.Ac2 * (1 / 2 - 0.0833333333333333 * e.b2 * e.c2 / e.Ac2)) * (0.0833333333333333 * e.E45 * e.a2 * e.d2 - 0.0833333333333333 * e.E55 * e.a2 * e.c2) / e.Ac + (e.b1 * e.d1 / 4 + 0.0833333333333333 * e.b2 * e.d2) * (0.0833333333333333 * e.E44 * e.a2 * e.d2 - 0.0833333333333333 * e.E45 * e.a2 * e.c2) / e.Ac),
  (e.i4 * 5 + 3, e.i2 * 5 + 2, (e.Ac1 * (e.a1 / (2 * e.Ac1) + 0.166666666666667 * (-e.a1 + e.c1) / e.Ac1) + e.Ac2 * (e.a2 / (2 * e.Ac2) - 0.166666666666667 * e.c2 / e.Ac2)) * (0.0833333333333333 * e.E45 * e.a2 * e.d2 - 0.0833333333333333 * e.E55 * e.a2 * e.c2) / e.Ac + (e.Ac1 * (-e.b1 / (2 * e.Ac1) + 0.166666666666667 * (e.b1 - e.d1) / e.Ac1) + e.Ac2 * (-e.b2 / (2 * e.Ac2) + 0.166666666666667 * e.d2 / e.Ac2)) * (0.0833333333333333 * e.E44 * e.a2 * e.d2 - 0.0833333333333333 * e.E45 * e.a2 * e.c2) / e.Ac),
  (e.i4 * 5 + 3, e.i2 * 5 + 3, (e.Ac1 * (0.166666666666667 - e.b1 * e.c1 / (4 * e.Ac1)) + e.Ac2 * (0.0833333333333333 * e.a2 * e.d2 / e.Ac2 - e.b2 * e.c2 / (4 * e.Ac2))) * (0.0833333333333333 * e.E44 * e.a2 * e.d2 - 0.0833333333333333 * e.E45 * e.a2 * e.c2) / e.Ac + (e.a1 * e.c1 / 4 + 0.166666666666667 * e.a2 * e.c2) * (0.0833333333333333 * e.E45 * e.a2 * e.d2 - 0.0833333333333333 * e.E55 * e.a2 * e.c2) / e.Ac),
  (e.i4 * 5 + 3, e.i2 * 5 + 4, (e.Ac1 * (0.166666666666667 + e.a1 * e.d1 / (4 * e.Ac1)) + e.Ac2 * (e.a2 * e.d2 / (4 * e.Ac2) - 0.0833333333333333 * e.b2 * e.c2 / e.Ac2)) * (0.0833333333333333 * e.E45 * e.a2 * e.d2 - 0.0833333333333333 * e.E55 * e.a2 * e.c2) / e.Ac + (-e.b1 * e.d1 / 4 - 0.166666666666667 * e.b2 * e.d2) * (0.0833333333333333 * e.E44 * e.a2 * e.d2 - 0.0833333333333333 * e.E45 * e.a2 * e.c2) / e.Ac),
  (e.i4 * 5 + 3, e.i3 * 5 + 2, (-0.166666666666667 * e.a1 + 0.166666666666667 * e.c1) * (0.0833333333333333 * e.E45 * e.a2 * e.d2 - 0.0833333333333333 * e.E55 * e.a2 * e.c2) / e.Ac + (0.166666666666667 * e.b1 - 0.166666666666667 * e.d1) * (0.0833333333333333 * e.E44 * e.a2 * e.d2 - 0.0833333333333333 * e.E45 * e.a2 * e.c2) / e.Ac),
  (e.i4 * 5 + 3, e.i3 * 5 + 3, 0.166666666666667 * e.Ac1 * (0.0833333333333333 * e.E44 * e.a2 * e.d2 - 0.0833333333333333 * e.E45 * e.a2 * e.c2) / e.Ac),
  (e.i4 * 5 + 3, e.i3 * 5 + 4, 0.166666666666667 * e.Ac1 * (0.0833333333333333 * e.E45 * e.a2 * e.d2 - 0.0833333333333333 * e.E55 * e.a2 * e.c2) / e.Ac),
  (e.i4 * 5 + 3, e.i4 * 5 + 2, -0.166666666666667 * e.c2 * (0.0833333333333333 * e.E45 * e.a2 * e.d2 - 0.0833333333333333 * e.E55 * e.a2 * e.c2) / e.Ac + 0.166666666666667 * e.d2 * (0.0833333333333333 * e.E44 * e.a2 * e.d2 - 0.0833333333333333 * e.E45 * e.a2 * e.c2) / e.Ac),
  (e.i4 * 5 + 3, e.i4 * 5 + 3, -0.0833333333333333 * e.a2 * e.c2 * (0.0833333333333333 * e.E45 * e.a2 * e.d2 - 0.0833333333333333 * e.E55 * e.a2 * e.c2) / e.Ac + 0.0833333333333333 * e.a2 * e.d2 * (0.0833333333333333 * e.E44 * e.a2 * e.d2 - 0.0833333333333333 * e.E45 * e.a2 * e.c2) / e.Ac),
  (e.i4 * 5 + 3, e.i4 * 5 + 4, -0.0833333333333333 * e.b2 * e.c2 * (0.0833333333333333 * e.E45 * e.a2 * e.d2 - 0.0833333333333333 * e.E55 * e.a2 * e.c2) / e.Ac + 0.0833333333333333 * e.b2 * e.d2 * (0.0833333333333333 * e.E44 * e.a2 * e.d2 - 0.0833333333333333 * e.E45 * e.a2 * e.c2) / e.Ac)]

/-- meshless/espim/plate2d_add_k0s_edge_based.py:341-352 -/
def edgeI_i4_4 (e : EdgeIEnv K) : List (ℤ × ℤ × K) := [
  (e.i4 * 5 + 4, e.i1 * 5 + 2, (e.Ac1 * (-e.c1 / (2 * e.Ac1) + 0.166666666666667 * (-e.a1 + e.c1) / e.Ac1) + e.Ac2 * (-0.166666666666667 * e.c2 / e.Ac2 + (-e.a2 + e.c2) / (2 * e.Ac2))) * (0.0833333333333333 * e.E45 * e.b2 * e.d2 - 0.0833333333333333 * e.E55 * e.b2 * e.c2) / e.Ac + (e.Ac1 * (e.d1 / (2 * e.Ac1) + 0.166666666666667 * (e.b1 - e.d1) / e.Ac1) + e.Ac2 * (0.166666666666667 * e.d2 / e.Ac2 + (e.b2 - e.d2) / (2 * e.Ac2))) * (0.0833333333333333 * e.E44 * e.b2 * e.d2 - 0.0833333333333333 * e.E45 * e.b2 * e.c2) / e.Ac),
  (e.i4 * 5 + 4, e.i1 * 5 + 3, (e.Ac1 * (0.166666666666667 + e.a1 * e.d1 / (4 * e.Ac1)) + e.Ac2 * (1 / 2 + 0.0833333333333333 * e.a2 * e.d2 / e.Ac2)) * (0.0833333333333333 * e.E44 * e.b2 * e.d2 - 0.0833333333333333 * e.E45 * e.b2 * e.c2) / e.Ac + (-e.a1 * e.c1 / 4 - 0.0833333333333333 * e.a2 * e.c2) * (0.0833333333333333 * e.E45 * e.b2 * e.d2 - 0.0833333333333333 * e.E55 * e.b2 * e.c2) / e.Ac),
  (e.i4 * 5 + 4, e.i1 * 5 + 4, (e.Ac1 * (0.166666666666667 - e.b1 * e.c1 / (4 * e.Ac1)) + e.Ac2 * (1 / 2 - 0.0833333333333333 * e.b2 * e.c2 / e.Ac2)) * (0.0833333333333333 * e.E45 * e.b2 * e.d2 - 0.0833333333333333 * e.E55 * e.b2 * e.c2) / e.Ac + (e.b1 * e.d1 / 4 + 0.0833333333333333 * e.b2 * e.d2) * (0.0833333333333333 * e.E44 * e.b2 * e.d2 - 0.0833333333333333 * e.E45 * e.b2 * e.c2) / e.Ac),
  (e.i4 * 5 + 4, e.i2 * 5 + 2, (e.Ac1 * (e.a1 / (2 * e.Ac1) + 0.166666666666667 * (-e.a1 + e.c1) / e.Ac1) + e.Ac2 * (e.a2 / (2 * e.Ac2) - 0.166666666666667 * e.c2 / e.Ac2)) * (0.0833333333333333 * e.E45 * e.b2 * e.d2 - 0.0833333333333333 * e.E55 * e.b2 * e.c2) / e.Ac + (e.Ac1 * (-e.b1 / (2 * e.Ac1) + 0.166666666666667 * (e.b1 - e.d1) / e.Ac1) + e.Ac2 * (-e.b2 / (2 * e.Ac2) + 0.166666666666667 * e.d2 / e.Ac2)) * (0.0833333333333333 * e.E44 * e.b2 * e.d2 - 0.0833333333333333 * e.E45 * e.b2 * e.c2) / e.Ac),
  (e.i4 * 5 + 4, e.i2 * 5 + 3, (e.Ac1 * (0.166666666666667 - e.b1 * e.c1 / (4 * e.Ac1)) + e.Ac2 * (0.0833333333333333 * e.a2 * e.d2 / e.Ac2 - e.b2 * e.c2 / (4 * e.Ac2))) * (0.0833333333333333 * e.E44 * e.b2 * e.d2 - 0.0833333333333333 * e.E45 * e.b2 * e.c2) / e.Ac + (e.a1 * e.c1 / 4 + 0.166666666666667 * e.a2 * e.c2) * (0.0833333333333333 * e.E45 * e.b2 * e.d2 - 0.0833333333333333 * e.E55 * e.b2 * e.c2) / e.Ac),
  (e.i4 * 5 + 4, e.i2 * 5 + 4, (e.Ac1 * (0.166666666666667 + e.a1 * e.d1 / (4 * e.Ac1)) + e.Ac2 * (e.a2 * e.d2 / (4 * e.Ac2) - 0.0833333333333333 * e.b2 * e.c2 / e.Ac2)) * (0.0833333333333333 * e.E45 * e.b2 * e.d2 - 0.0833333333333333 * e.E55 * e.b2 * e.c2) / e.Ac + (-e.b1 * e.d1 / 4 - 0.166666666666667 * e.b2 * e.d2) * (0.0833333333333333 * e.E44 * e.b2 * e.d2 - 0.0833333333333333 * e.E45 * e.b2 * e.c2) / e.Ac),
  (e.i4 * 5 + 4, e.i3 * 5 + 2, (-0.166666666666667 * e.a1 + 0.166666666666667 * e.c1) * (0.0833333333333333 * e.E45 * e.b2 * e.d2 - 0.0833333333333333 * e.E55 * e.b2 * e.c2) / e.Ac + (0.166666666666667 * e.b1 - 0.166666666666667 * e.d1) * (0.0833333333333333 * e.E44 * e.b2 * e.d2 - 0.0833333333333333 * e.E45 * e.b2 * e.c2) / e.Ac),
  (e.i4 * 5 + 4, e.i3 * 5 + 3, 0.166666666666667 * e.Ac1 * (0.0833333333333333 * e.E44 * e.b2 * e.d2 - 0.0833333333333333 * e.E45 * e.b2 * e.c2) / e.Ac),
  (e.i4 * 5 + 4, e.i3 * 5 + 4, 0.166666666666667 * e.Ac1 * (0.0833333333333333 * e.E45 * e.b2 * e.d2 - 0.0833333333333333 * e.E55 * e.b2 * e.c2) / e.Ac),
  (e.i4 * 5 + 4, e.i4 * 5 + 2, -0.166666666666667 * e.c2 * (0.0833333333333333 * e.E45 * e.b2 * e.d2 - 0.0833333333333333 * e.E55 * e.b2 * e.c2) / e.Ac + 0.166666666666667 * e.d2 * (0.0833333333333333 * e.E44 * e.b2 * e.d2 - 0.0833333333333333 * e.E45 * e.b2 * e.c2) / e.Ac),
  (e.i4 * 5 + 4, e.i4 * 5 + 3, -0.0833333333333333 * e.a2 * e.c2 * (0.0833333333333333 * e.E45 * e.b2 * e.d2 - 0.0833333333333333 * e.E55 * e.b2 * e.c2) / e.Ac + 0.0833333333333333 * e.a2 * e.d2 * (0.0833333333333333 * e.E44 * e.b2 * e.d2 - 0.0833333333333333 * e.E45 * e.b2 * e.c2) / e.Ac),
  (e.i4 * 5 + 4, e.i4 * 5 + 4, -0.0833333333333333 * e.b2 * e.c2 * (0.0833333333333333 * e.E45 * e.b2 * e.d2 - 0.0833333333333333 * e.E55 * e.b2 * e.c2) / e.Ac + 0.0833333333333333 * e.b2 * e.d2 * (0.0833333333333333 * e.E44 * e.b2 * e.d2 - 0.0833333333333333 * e.E45 * e.b2 * e.c2) / e.Ac)]

/-- All increments, in program order. meshless/espim/plate2d_add_k0s_edge_based.py:209-352 -/
def edgeIEntries (e : EdgeIEnv K) : List (ℤ × ℤ × K) :=
  edgeI_i1_2 e ++ edgeI_i1_3 e ++ edgeI_i1_4 e ++ edgeI_i2_2 e ++ edgeI_i2_3 e ++ edgeI_i2_4 e ++ edgeI_i3_2 e ++ edgeI_i3_3 e ++ edgeI_i3_4 e ++ edgeI_i4_2 e ++ edgeI_i4_3 e ++ edgeI_i4_4 e

end Meshless
