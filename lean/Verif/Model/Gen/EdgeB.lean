import Mathlib.Algebra.Field.Defs
import Mathlib.Data.Rat.Cast.Defs

/-! GENERATED by /verif/tools/gen.py from meshless/espim/plate2d_add_k0s_edge_based.py, function `boundary_edge`, lines 59-139.
Do not edit: re-run the generator. -/

namespace Meshless

/-- The local variables read by `boundary_edge` in meshless/espim/plate2d_add_k0s_edge_based.py:59-139. -/
structure EdgeBEnv (K : Type*) where
  (i1 i2 i3 : ℤ)
  (Ac E44 E45 E55 a1 b1 c1 d1 : K)

variable {K : Type*} [Add K] [Sub K] [Mul K] [Div K] [Neg K] [OfNat K 2] [OfNat K 4] [OfScientific K]

/-- meshless/espim/plate2d_add_k0s_edge_based.py:59-67 -/
def edgeB_i1_2 (e : EdgeBEnv K) : List (ℤ × ℤ × K) := [
  (e.i1 * 5 + 2, e.i1 * 5 + 2, (-e.c1 / (2 * e.Ac) + 0.166666666666667 * (-e.a1 + e.c1) / e.Ac) * (e.Ac * e.E45 * (e.d1 / (2 * e.Ac) + 0.166666666666667 * (e.b1 - e.d1) / e.Ac) + e.Ac * e.E55 * (-e.c1 / (2 * e.Ac) + 0.166666666666667 * (-e.a1 + e.c1) / e.Ac)) + (e.d1 / (2 * e.Ac) + 0.166666666666667 * (e.b1 - e.d1) / e.Ac) * (e.Ac * e.E44 * (e.d1 / (2 * e.Ac) + 0.166666666666667 * (e.b1 - e.d1) / e.Ac) + e.Ac * e.E45 * (-e.c1 / (2 * e.Ac) + 0.166666666666667 * (-e.a1 + e.c1) / e.Ac))),
  (e.i1 * 5 + 2, e.i1 * 5 + 3, (0.166666666666667 + e.a1 * e.d1 / (4 * e.Ac)) * (e.Ac * e.E44 * (e.d1 / (2 * e.Ac) + 0.166666666666667 * (e.b1 - e.d1) / e.Ac) + e.Ac * e.E45 * (-e.c1 / (2 * e.Ac) + 0.166666666666667 * (-e.a1 + e.c1) / e.Ac)) - e.a1 * e.c1 * (e.Ac * e.E45 * (e.d1 / (2 * e.Ac) + 0.166666666666667 * (e.b1 - e.d1) / e.Ac) + e.Ac * e.E55 * (-e.c1 / (2 * e.Ac) + 0.166666666666667 * (-e.a1 + e.c1) / e.Ac)) / (4 * e.Ac)),
  (e.i1 * 5 + 2, e.i1 * 5 + 4, (0.166666666666667 - e.b1 * e.c1 / (4 * e.Ac)) * (e.Ac * e.E45 * (e.d1 / (2 * e.Ac) + 0.166666666666667 * (e.b1 - e.d1) / e.Ac) + e.Ac * e.E55 * (-e.c1 / (2 * e.Ac) + 0.166666666666667 * (-e.a1 + e.c1) / e.Ac)) + e.b1 * e.d1 * (e.Ac * e.E44 * (e.d1 / (2 * e.Ac) + 0.166666666666667 * (e.b1 - e.d1) / e.Ac) + e.Ac * e.E45 * (-e.c1 / (2 * e.Ac) + 0.166666666666667 * (-e.a1 + e.c1) / e.Ac)) / (4 * e.Ac)),
  (e.i1 * 5 + 2, e.i2 * 5 + 2, (e.a1 / (2 * e.Ac) + 0.166666666666667 * (-e.a1 + e.c1) / e.Ac) * (e.Ac * e.E45 * (e.d1 / (2 * e.Ac) + 0.166666666666667 * (e.b1 - e.d1) / e.Ac) + e.Ac * e.E55 * (-e.c1 / (2 * e.Ac) + 0.166666666666667 * (-e.a1 + e.c1) / e.Ac)) + (-e.b1 / (2 * e.Ac) + 0.166666666666667 * (e.b1 - e.d1) / e.Ac) * (e.Ac * e.E44 * (e.d1 / (2 * e.Ac) + 0.166666666666667 * (e.b1 - e.d1) / e.Ac) + e.Ac * e.E45 * (-e.c1 / (2 * e.Ac) + 0.166666666666667 * (-e.a1 + e.c1) / e.Ac))),
  (e.i1 * 5 + 2, e.i2 * 5 + 3, (0.166666666666667 - e.b1 * e.c1 / (4 * e.Ac)) * (e.Ac * e.E44 * (e.d1 / (2 * e.Ac) + 0.166666666666667 * (e.b1 - e.d1) / e.Ac) + e.Ac * e.E45 * (-e.c1 / (2 * e.Ac) + 0.166666666666667 * (-e.a1 + e.c1) / e.Ac)) + e.a1 * e.c1 * (e.Ac * e.E45 * (e.d1 / (2 * e.Ac) + 0.166666666666667 * (e.b1 - e.d1) / e.Ac) + e.Ac * e.E55 * (-e.c1 / (2 * e.Ac) + 0.166666666666667 * (-e.a1 + e.c1) / e.Ac)) / (4 * e.Ac)),
  (e.i1 * 5 + 2, e.i2 * 5 + 4, (0.166666666666667 + e.a1 * e.d1 / (4 * e.Ac)) * (e.Ac * e.E45 * (e.d1 / (2 * e.Ac) + 0.166666666666667 * (e.b1 - e.d1) / e.Ac) + e.Ac * e.E55 * (-e.c1 / (2 * e.Ac) + 0.166666666666667 * (-e.a1 + e.c1) / e.Ac)) - e.b1 * e.d1 * (e.Ac * e.E44 * (e.d1 / (2 * e.Ac) + 0.166666666666667 * (e.b1 - e.d1) / e.Ac) + e.Ac * e.E45 * (-e.c1 / (2 * e.Ac) + 0.166666666666667 * (-e.a1 + e.c1) / e.Ac)) / (4 * e.Ac)),
  (e.i1 * 5 + 2, e.i3 * 5 + 2, 0.166666666666667 * (-e.a1 + e.c1) * (e.Ac * e.E45 * (e.d1 / (2 * e.Ac) + 0.166666666666667 * (e.b1 - e.d1) / e.Ac) + e.Ac * e.E55 * (-e.c1 / (2 * e.Ac) + 0.166666666666667 * (-e.a1 + e.c1) / e.Ac)) / e.Ac + 0.166666666666667 * (e.b1 - e.d1) * (e.Ac * e.E44 * (e.d1 / (2 * e.Ac) + 0.166666666666667 * (e.b1 - e.d1) / e.Ac) + e.Ac * e.E45 * (-e.c1 / (2 * e.Ac) + 0.166666666666667 * (-e.a1 + e.c1) / e.Ac)) / e.Ac),
  (e.i1 * 5 + 2, e.i3 * 5 + 3, 0.166666666666667 * e.Ac * e.E44 * (e.d1 / (2 * e.Ac) + 0.166666666666667 * (e.b1 - e.d1) / e.Ac) + 0.166666666666667 * e.Ac * e.E45 * (-e.c1 / (2 * e.Ac) + 0.166666666666667 * (-e.a1 + e.c1) / e.Ac)),
  (e.i1 * 5 + 2, e.i3 * 5 + 4, 0.166666666666667 * e.Ac * e.E45 * (e.d1 / (2 * e.Ac) + 0.166666666666667 * (e.b1 - e.d1) / e.Ac) + 0.166666666666667 * e.Ac * e.E55 * (-e.c1 / (2 * e.Ac) + 0.166666666666667 * (-e.a1 + e.c1) / e.Ac))]

/-- meshless/espim/plate2d_add_k0s_edge_based.py:68-76 -/
def edgeB_i1_3 (e : EdgeBEnv K) : List (ℤ × ℤ × K) := [
  (e.i1 * 5 + 3, e.i1 * 5 + 2, (-e.c1 / (2 * e.Ac) + 0.166666666666667 * (-e.a1 + e.c1) / e.Ac) * (e.Ac * e.E45 * (0.166666666666667 + e.a1 * e.d1 / (4 * e.Ac)) - e.E55 * e.a1 * e.c1 / 4) + (e.d1 / (2 * e.Ac) + 0.166666666666667 * (e.b1 - e.d1) / e.Ac) * (e.Ac * e.E44 * (0.166666666666667 + e.a1 * e.d1 / (4 * e.Ac)) - e.E45 * e.a1 * e.c1 / 4)),
  (e.i1 * 5 + 3, e.i1 * 5 + 3, (0.166666666666667 + e.a1 * e.d1 / (4 * e.Ac)) * (e.Ac * e.E44 * (0.166666666666667 + e.a1 * e.d1 / (4 * e.Ac)) - e.E45 * e.a1 * e.c1 / 4) - e.a1 * e.c1 * (e.Ac * e.E45 * (0.166666666666667 + e.a1 * e.d1 / (4 * e.Ac)) - e.E55 * e.a1 * e.c1 / 4) / (4 * e.Ac)),
  (e.i1 * 5 + 3, e.i1 * 5 + 4, (0.166666666666667 - e.b1 * e.c1 / (4 * e.Ac)) * (e.Ac * e.E45 * (0.166666666666667 + e.a1 * e.d1 / (4 * e.Ac)) - e.E55 * e.a1 * e.c1 / 4) + e.b1 * e.d1 * (e.Ac * e.E44 * (0.166666666666667 + e.a1 * e.d1 / (4 * e.Ac)) - e.E45 * e.a1 * e.c1 / 4) / (4 * e.Ac)),
  (e.i1 * 5 + 3, e.i2 * 5 + 2, (e.a1 / (2 * e.Ac) + 0.166666666666667 * (-e.a1 + e.c1) / e.Ac) * (e.Ac * e.E45 * (0.166666666666667 + e.a1 * e.d1 / (4 * e.Ac)) - e.E55 * e.a1 * e.c1 / 4) + (-e.b1 / (2 * e.Ac) + 0.166666666666667 * (e.b1 - e.d1) / e.Ac) * (e.Ac * e.E44 * (0.166666666666667 + e.a1 * e.d1 / (4 * e.Ac)) - e.E45 * e.a1 * e.c1 / 4)),
  (e.i1 * 5 + 3, e.i2 * 5 + 3, (0.166666666666667 - e.b1 * e.c1 / (4 * e.Ac)) * (e.Ac * e.E44 * (0.166666666666667 + e.a1 * e.d1 / (4 * e.Ac)) - e.E45 * e.a1 * e.c1 / 4) + e.a1 * e.c1 * (e.Ac * e.E45 * (0.166666666666667 + e.a1 * e.d1 / (4 * e.Ac)) - e.E55 * e.a1 * e.c1 / 4) / (4 * e.Ac)),
  (e.i1 * 5 + 3, e.i2 * 5 + 4, (0.166666666666667 + e.a1 * e.d1 / (4 * e.Ac)) * (e.Ac * e.E45 * (0.166666666666667 + e.a1 * e.d1 / (4 * e.Ac)) - e.E55 * e.a1 * e.c1 / 4) - e.b1 * e.d1 * (e.Ac * e.E44 * (0.166666666666667 + e.a1 * e.d1 / (4 * e.Ac)) - e.E45 * e.a1 * e.c1 / 4) / (4 * e.Ac)),
  (e.i1 * 5 + 3, e.i3 * 5 + 2, 0.166666666666667 * (-e.a1 + e.c1) * (e.Ac * e.E45 * (0.166666666666667 + e.a1 * e.d1 / (4 * e.Ac)) - e.E55 * e.a1 * e.c1 / 4) / e.Ac + 0.166666666666667 * (e.b1 - e.d1) * (e.Ac * e.E44 * (0.166666666666667 + e.a1 * e.d1 / (4 * e.Ac)) - e.E45 * e.a1 * e.c1 / 4) / e.Ac),
  (e.i1 * 5 + 3, e.i3 * 5 + 3, 0.166666666666667 * e.Ac * e.E44 * (0.166666666666667 + e.a1 * e.d1 / (4 * e.Ac)) - 0.0416666666666667 * e.E45 * e.a1 * e.c1),
  (e.i1 * 5 + 3, e.i3 * 5 + 4, 0.166666666666667 * e.Ac * e.E45 * (0.166666666666667 + e.a1 * e.d1 / (4 * e.Ac)) - 0.0416666666666667 * e.E55 * e.a1 * e.c1)]

/-- meshless/espim/plate2d_add_k0s_edge_based.py:77-85 -/
def edgeB_i1_4 (e : EdgeBEnv K) : List (ℤ × ℤ × K) := [
  (e.i1 * 5 + 4, e.i1 * 5 + 2, (-e.c1 / (2 * e.Ac) + 0.166666666666667 * (-e.a1 + e.c1) / e.Ac) * (e.Ac * e.E55 * (0.166666666666667 - e.b1 * e.c1 / (4 * e.Ac)) + e.E45 * e.b1 * e.d1 / 4) + (e.d1 / (2 * e.Ac) + 0.166666666666667 * (e.b1 - e.d1) / e.Ac) * (e.Ac * e.E45 * (0.166666666666667 - e.b1 * e.c1 / (4 * e.Ac)) + e.E44 * e.b1 * e.d1 / 4)),
  (e.i1 * 5 + 4, e.i1 * 5 + 3, (0.166666666666667 + e.a1 * e.d1 / (4 * e.Ac)) * (e.Ac * e.E45 * (0.166666666666667 - e.b1 * e.c1 / (4 * e.Ac)) + e.E44 * e.b1 * e.d1 / 4) - e.a1 * e.c1 * (e.Ac * e.E55 * (0.166666666666667 - e.b1 * e.c1 / (4 * e.Ac)) + e.E45 * e.b1 * e.d1 / 4) / (4 * e.Ac)),
  (e.i1 * 5 + 4, e.i1 * 5 + 4, (0.166666666666667 - e.b1 * e.c1 / (4 * e.Ac)) * (e.Ac * e.E55 * (0.166666666666667 - e.b1 * e.c1 / (4 * e.Ac)) + e.E45 * e.b1 * e.d1 / 4) + e.b1 * e.d1 * (e.Ac * e.E45 * (0.166666666666667 - e.b1 * e.c1 / (4 * e.Ac)) + e.E44 * e.b1 * e.d1 / 4) / (4 * e.Ac)),
  (e.i1 * 5 + 4, e.i2 * 5 + 2, (e.a1 / (2 * e.Ac) + 0.166666666666667 * (-e.a1 + e.c1) / e.Ac) * (e.Ac * e.E55 * (0.166666666666667 - e.b1 * e.c1 / (4 * e.Ac)) + e.E45 * e.b1 * e.d1 / 4) + (-e.b1 / (2 * e.Ac) + 0.166666666666667 * (e.b1 - e.d1) / e.Ac) * (e.Ac * e.E45 * (0.166666666666667 - e.b1 * e.c1 / (4 * e.Ac)) + e.E44 * e.b1 * e.d1 / 4)),
  (e.i1 * 5 + 4, e.i2 * 5 + 3, (0.166666666666667 - e.b1 * e.c1 / (4 * e.Ac)) * (e.Ac * e.E45 * (0.166666666666667 - e.b1 * e.c1 / (4 * e.Ac)) + e.E44 * e.b1 * e.d1 / 4) + e.a1 * e.c1 * (e.Ac * e.E55 * (0.166666666666667 - e.b1 * e.c1 / (4 * e.Ac)) + e.E45 * e.b1 * e.d1 / 4) / (4 * e.Ac)),
  (e.i1 * 5 + 4, e.i2 * 5 + 4, (0.166666666666667 + e.a1 * e.d1 / (4 * e.Ac)) * (e.Ac * e.E55 * (0.166666666666667 - e.b1 * e.c1 / (4 * e.Ac)) + e.E45 * e.b1 * e.d1 / 4) - e.b1 * e.d1 * (e.Ac * e.E45 * (0.166666666666667 - e.b1 * e.c1 / (4 * e.Ac)) + e.E44 * e.b1 * e.d1 / 4) / (4 * e.Ac)),
  (e.i1 * 5 + 4, e.i3 * 5 + 2, 0.166666666666667 * (-e.a1 + e.c1) * (e.Ac * e.E55 * (0.166666666666667 - e.b1 * e.c1 / (4 * e.Ac)) + e.E45 * e.b1 * e.d1 / 4) / e.Ac + 0.166666666666667 * (e.b1 - e.d1) * (e.Ac * e.E45 * (0.166666666666667 - e.b1 * e.c1 / (4 * e.Ac)) + e.E44 * e.b1 * e.d1 / 4) / e.Ac),
  (e.i1 * 5 + 4, e.i3 * 5 + 3, 0.166666666666667 * e.Ac * e.E45 * (0.166666666666667 - e.b1 * e.c1 / (4 * e.Ac)) + 0.0416666666666667 * e.E44 * e.b1 * e.d1),
  (e.i1 * 5 + 4, e.i3 * 5 + 4, 0.166666666666667 * e.Ac * e.E55 * (0.166666666666667 - e.b1 * e.c1 / (4 * e.Ac)) + 0.0416666666666667 * e.E45 * e.b1 * e.d1)]

/-- meshless/espim/plate2d_add_k0s_edge_based.py:86-94 -/
def edgeB_i2_2 (e : EdgeBEnv K) : List (ℤ × ℤ × K) := [
  (e.i2 * 5 + 2, e.i1 * 5 + 2, (-e.c1 / (2 * e.Ac) + 0.166666666666667 * (-e.a1 + e.c1) / e.Ac) * (e.Ac * e.E45 * (-e.b1 / (2 * e.Ac) + 0.166666666666667 * (e.b1 - e.d1) / e.Ac) + e.Ac * e.E55 * (e.a1 / (2 * e.Ac) + 0.166666666666667 * (-e.a1 + e.c1) / e.Ac)) + (e.d1 / (2 * e.Ac) + 0.166666666666667 * (e.b1 - e.d1) / e.Ac) * (e.Ac * e.E44 * (-e.b1 / (2 * e.Ac) + 0.166666666666667 * (e.b1 - e.d1) / e.Ac) + e.Ac * e.E45 * (e.a1 / (2 * e.Ac) + 0.166666666666667 * (-e.a1 + e.c1) / e.Ac))),
  (e.i2 * 5 + 2, e.i1 * 5 + 3, (0.166666666666667 + e.a1 * e.d1 / (4 * e.Ac)) * (e.Ac * e.E44 * (-e.b1 / (2 * e.Ac) + 0.166666666666667 * (e.b1 - e.d1) / e.Ac) + e.Ac * e.E45 * (e.a1 / (2 * e.Ac) + 0.166666666666667 * (-e.a1 + e.c1) / e.Ac)) - e.a1 * e.c1 * (e.Ac * e.E45 * (-e.b1 / (2 * e.Ac) + 0.166666666666667 * (e.b1 - e.d1) / e.Ac) + e.Ac * e.E55 * (e.a1 / (2 * e.Ac) + 0.166666666666667 * (-e.a1 + e.c1) / e.Ac)) / (4 * e.Ac)),
  (e.i2 * 5 + 2, e.i1 * 5 + 4, (0.166666666666667 - e.b1 * e.c1 / (4 * e.Ac)) * (e.Ac * e.E45 * (-e.b1 / (2 * e.Ac) + 0.166666666666667 * (e.b1 - e.d1) / e.Ac) + e.Ac * e.E55 * (e.a1 / (2 * e.Ac) + 0.166666666666667 * (-e.a1 + e.c1) / e.Ac)) + e.b1 * e.d1 * (e.Ac * e.E44 * (-e.b1 / (2 * e.Ac) + 0.166666666666667 * (e.b1 - e.d1) / e.Ac) + e.Ac * e.E45 * (e.a1 / (2 * e.Ac) + 0.166666666666667 * (-e.a1 + e.c1) / e.Ac)) / (4 * e.Ac)),
  (e.i2 * 5 + 2, e.i2 * 5 + 2, (e.a1 / (2 * e.Ac) + 0.166666666666667 * (-e.a1 + e.c1) / e.Ac) * (e.Ac * e.E45 * (-e.b1 / (2 * e.Ac) + 0.166666666666667 * (e.b1 - e.d1) / e.Ac) + e.Ac * e.E55 * (e.a1 / (2 * e.Ac) + 0.166666666666667 * (-e.a1 + e.c1) / e.Ac)) + (-e.b1 / (2 * e.Ac) + 0.166666666666667 * (e.b1 - e.d1) / e.Ac) * (e.Ac * e.E44 * (-e.b1 / (2 * e.Ac) + 0.166666666666667 * (e.b1 - e.d1) / e.Ac) + e.Ac * e.E45 * (e.a1 / (2 * e.Ac) + 0.166666666666667 * (-e.a1 + e.c1) / e.Ac))),
  (e.i2 * 5 + 2, e.i2 * 5 + 3, (0.166666666666667 - e.b1 * e.c1 / (4 * e.Ac)) * (e.Ac * e.E44 * (-e.b1 / (2 * e.Ac) + 0.166666666666667 * (e.b1 - e.d1) / e.Ac) + e.Ac * e.E45 * (e.a1 / (2 * e.Ac) + 0.166666666666667 * (-e.a1 + e.c1) / e.Ac)) + e.a1 * e.c1 * (e.Ac * e.E45 * (-e.b1 / (2 * e.Ac) + 0.166666666666667 * (e.b1 - e.d1) / e.Ac) + e.Ac * e.E55 * (e.a1 / (2 * e.Ac) + 0.166666666666667 * (-e.a1 + e.c1) / e.Ac)) / (4 * e.Ac)),
  (e.i2 * 5 + 2, e.i2 * 5 + 4, (0.166666666666667 + e.a1 * e.d1 / (4 * e.Ac)) * (e.Ac * e.E45 * (-e.b1 / (2 * e.Ac) + 0.166666666666667 * (e.b1 - e.d1) / e.Ac) + e.Ac * e.E55 * (e.a1 / (2 * e.Ac) + 0.166666666666667 * (-e.a1 + e.c1) / e.Ac)) - e.b1 * e.d1 * (e.Ac * e.E44 * (-e.b1 / (2 * e.Ac) + 0.166666666666667 * (e.b1 - e.d1) / e.Ac) + e.Ac * e.E45 * (e.a1 / (2 * e.Ac) + 0.166666666666667 * (-e.a1 + e.c1) / e.Ac)) / (4 * e.Ac)),
  (e.i2 * 5 + 2, e.i3 * 5 + 2, 0.166666666666667 * (-e.a1 + e.c1) * (e.Ac * e.E45 * (-e.b1 / (2 * e.Ac) + 0.166666666666667 * (e.b1 - e.d1) / e.Ac) + e.Ac * e.E55 * (e.a1 / (2 * e.Ac) + 0.166666666666667 * (-e.a1 + e.c1) / e.Ac)) / e.Ac + 0.166666666666667 * (e.b1 - e.d1) * (e.Ac * e.E44 * (-e.b1 / (2 * e.Ac) + 0.166666666666667 * (e.b1 - e.d1) / e.Ac) + e.Ac * e.E45 * (e.a1 / (2 * e.Ac) + 0.166666666666667 * (-e.a1 + e.c1) / e.Ac)) / e.Ac),
  (e.i2 * 5 + 2, e.i3 * 5 + 3, 0.166666666666667 * e.Ac * e.E44 * (-e.b1 / (2 * e.Ac) + 0.166666666666667 * (e.b1 - e.d1) / e.Ac) + 0.166666666666667 * e.Ac * e.E45 * (e.a1 / (2 * e.Ac) + 0.166666666666667 * (-e.a1 + e.c1) / e.Ac)),
  (e.i2 * 5 + 2, e.i3 * 5 + 4, 0.166666666666667 * e.Ac * e.E45 * (-e.b1 / (2 * e.Ac) + 0.166666666666667 * (e.b1 - e.d1) / e.Ac) + 0.166666666666667 * e.Ac * e.E55 * (e.a1 / (2 * e.Ac) + 0.166666666666667 * (-e.a1 + e.c1) / e.Ac))]

/-- meshless/espim/plate2d_add_k0s_edge_based.py:95-103 -/
def edgeB_i2_3 (e : EdgeBEnv K) : List (ℤ × ℤ × K) := [
  (e.i2 * 5 + 3, e.i1 * 5 + 2, (-e.c1 / (2 * e.Ac) + 0.166666666666667 * (-e.a1 + e.c1) / e.Ac) * (e.Ac * e.E45 * (0.166666666666667 - e.b1 * e.c1 / (4 * e.Ac)) + e.E55 * e.a1 * e.c1 / 4) + (e.d1 / (2 * e.Ac) + 0.166666666666667 * (e.b1 - e.d1) / e.Ac) * (e.Ac * e.E44 * (0.166666666666667 - e.b1 * e.c1 / (4 * e.Ac)) + e.E45 * e.a1 * e.c1 / 4)),
  (e.i2 * 5 + 3, e.i1 * 5 + 3, (0.166666666666667 + e.a1 * e.d1 / (4 * e.Ac)) * (e.Ac * e.E44 * (0.166666666666667 - e.b1 * e.c1 / (4 * e.Ac)) + e.E45 * e.a1 * e.c1 / 4) - e.a1 * e.c1 * (e.Ac * e.E45 * (0.166666666666667 - e.b1 * e.c1 / (4 * e.Ac)) + e.E55 * e.a1 * e.c1 / 4) / (4 * e.Ac)),
  (e.i2 * 5 + 3, e.i1 * 5 + 4, (0.166666666666667 - e.b1 * e.c1 / (4 * e.Ac)) * (e.Ac * e.E45 * (0.166666666666667 - e.b1 * e.c1 / (4 * e.Ac)) + e.E55 * e.a1 * e.c1 / 4) + e.b1 * e.d1 * (e.Ac * e.E44 * (0.166666666666667 - e.b1 * e.c1 / (4 * e.Ac)) + e.E45 * e.a1 * e.c1 / 4) / (4 * e.Ac)),
  (e.i2 * 5 + 3, e.i2 * 5 + 2, (e.a1 / (2 * e.Ac) + 0.166666666666667 * (-e.a1 + e.c1) / e.Ac) * (e.Ac * e.E45 * (0.166666666666667 - e.b1 * e.c1 / (4 * e.Ac)) + e.E55 * e.a1 * e.c1 / 4) + (-e.b1 / (2 * e.Ac) + 0.166666666666667 * (e.b1 - e.d1) / e.Ac) * (e.Ac * e.E44 * (0.166666666666667 - e.b1 * e.c1 / (4 * e.Ac)) + e.E45 * e.a1 * e.c1 / 4)),
  (e.i2 * 5 + 3, e.i2 * 5 + 3, (0.166666666666667 - e.b1 * e.c1 / (4 * e.Ac)) * (e.Ac * e.E44 * (0.166666666666667 - e.b1 * e.c1 / (4 * e.Ac)) + e.E45 * e.a1 * e.c1 / 4) + e.a1 * e.c1 * (e.Ac * e.E45 * (0.166666666666667 - e.b1 * e.c1 / (4 * e.Ac)) + e.E55 * e.a1 * e.c1 / 4) / (4 * e.Ac)),
  (e.i2 * 5 + 3, e.i2 * 5 + 4, (0.166666666666667 + e.a1 * e.d1 / (4 * e.Ac)) * (e.Ac * e.E45 * (0.166666666666667 - e.b1 * e.c1 / (4 * e.Ac)) + e.E55 * e.a1 * e.c1 / 4) - e.b1 * e.d1 * (e.Ac * e.E44 * (0.166666666666667 - e.b1 * e.c1 / (4 * e.Ac)) + e.E45 * e.a1 * e.c1 / 4) / (4 * e.Ac)),
  (e.i2 * 5 + 3, e.i3 * 5 + 2, 0.166666666666667 * (-e.a1 + e.c1) * (e.Ac * e.E45 * (0.166666666666667 - e.b1 * e.c1 / (4 * e.Ac)) + e.E55 * e.a1 * e.c1 / 4) / e.Ac + 0.166666666666667 * (e.b1 - e.d1) * (e.Ac * e.E44 * (0.166666666666667 - e.b1 * e.c1 / (4 * e.Ac)) + e.E45 * e.a1 * e.c1 / 4) / e.Ac),
  (e.i2 * 5 + 3, e.i3 * 5 + 3, 0.166666666666667 * e.Ac * e.E44 * (0.166666666666667 - e.b1 * e.c1 / (4 * e.Ac)) + 0.0416666666666667 * e.E45 * e.a1 * e.c1),
  (e.i2 * 5 + 3, e.i3 * 5 + 4, 0.166666666666667 * e.Ac * e.E45 * (0.166666666666667 - e.b1 * e.c1 / (4 * e.Ac)) + 0.0416666666666667 * e.E55 * e.a1 * e.c1)]

/-- meshless/espim/plate2d_add_k0s_edge_based.py:104-112 -/
def edgeB_i2_4 (e : EdgeBEnv K) : List (ℤ × ℤ × K) := [
  (e.i2 * 5 + 4, e.i1 * 5 + 2, (-e.c1 / (2 * e.Ac) + 0.166666666666667 * (-e.a1 + e.c1) / e.Ac) * (e.Ac * e.E55 * (0.166666666666667 + e.a1 * e.d1 / (4 * e.Ac)) - e.E45 * e.b1 * e.d1 / 4) + (e.d1 / (2 * e.Ac) + 0.166666666666667 * (e.b1 - e.d1) / e.Ac) * (e.Ac * e.E45 * (0.166666666666667 + e.a1 * e.d1 / (4 * e.Ac)) - e.E44 * e.b1 * e.d1 / 4)),
  (e.i2 * 5 + 4, e.i1 * 5 + 3, (0.166666666666667 + e.a1 * e.d1 / (4 * e.Ac)) * (e.Ac * e.E45 * (0.166666666666667 + e.a1 * e.d1 / (4 * e.Ac)) - e.E44 * e.b1 * e.d1 / 4) - e.a1 * e.c1 * (e.Ac * e.E55 * (0.166666666666667 + e.a1 * e.d1 / (4 * e.Ac)) - e.E45 * e.b1 * e.d1 / 4) / (4 * e.Ac)),
  (e.i2 * 5 + 4, e.i1 * 5 + 4, (0.166666666666667 - e.b1 * e.c1 / (4 * e.Ac)) * (e.Ac * e.E55 * (0.166666666666667 + e.a1 * e.d1 / (4 * e.Ac)) - e.E45 * e.b1 * e.d1 / 4) + e.b1 * e.d1 * (e.Ac * e.E45 * (0.166666666666667 + e.a1 * e.d1 / (4 * e.Ac)) - e.E44 * e.b1 * e.d1 / 4) / (4 * e.Ac)),
  (e.i2 * 5 + 4, e.i2 * 5 + 2, (e.a1 / (2 * e.Ac) + 0.166666666666667 * (-e.a1 + e.c1) / e.Ac) * (e.Ac * e.E55 * (0.166666666666667 + e.a1 * e.d1 / (4 * e.Ac)) - e.E45 * e.b1 * e.d1 / 4) + (-e.b1 / (2 * e.Ac) + 0.166666666666667 * (e.b1 - e.d1) / e.Ac) * (e.Ac * e.E45 * (0.166666666666667 + e.a1 * e.d1 / (4 * e.Ac)) - e.E44 * e.b1 * e.d1 / 4)),
  (e.i2 * 5 + 4, e.i2 * 5 + 3, (0.166666666666667 - e.b1 * e.c1 / (4 * e.Ac)) * (e.Ac * e.E45 * (0.166666666666667 + e.a1 * e.d1 / (4 * e.Ac)) - e.E44 * e.b1 * e.d1 / 4) + e.a1 * e.c1 * (e.Ac * e.E55 * (0.166666666666667 + e.a1 * e.d1 / (4 * e.Ac)) - e.E45 * e.b1 * e.d1 / 4) / (4 * e.Ac)),
  (e.i2 * 5 + 4, e.i2 * 5 + 4, (0.166666666666667 + e.a1 * e.d1 / (4 * e.Ac)) * (e.Ac * e.E55 * (0.166666666666667 + e.a1 * e.d1 / (4 * e.Ac)) - e.E45 * e.b1 * e.d1 / 4) - e.b1 * e.d1 * (e.Ac * e.E45 * (0.166666666666667 + e.a1 * e.d1 / (4 * e.Ac)) - e.E44 * e.b1 * e.d1 / 4) / (4 * e.Ac)),
  (e.i2 * 5 + 4, e.i3 * 5 + 2, 0.166666666666667 * (-e.a1 + e.c1) * (e.Ac * e.E55 * (0.166666666666667 + e.a1 * e.d1 / (4 * e.Ac)) - e.E45 * e.b1 * e.d1 / 4) / e.Ac + 0.166666666666667 * (e.b1 - e.d1) * (e.Ac * e.E45 * (0.166666666666667 + e.a1 * e.d1 / (4 * e.Ac)) - e.E44 * e.b1 * e.d1 / 4) / e.Ac),
  (e.i2 * 5 + 4, e.i3 * 5 + 3, 0.166666666666667 * e.Ac * e.E45 * (0.166666666666667 + e.a1 * e.d1 / (4 * e.Ac)) - 0.0416666666666667 * e.E44 * e.b1 * e.d1),
  (e.i2 * 5 + 4, e.i3 * 5 + 4, 0.166666666666667 * e.Ac * e.E55 * (0.166666666666667 + e.a1 * e.d1 / (4 * e.Ac)) - 0.0416666666666667 * e.E45 * e.b1 * e.d1)]

/-- meshless/espim/plate2d_add_k0s_edge_based.py:113-121 -/
def edgeB_i3_2 (e : EdgeBEnv K) : List (ℤ × ℤ × K) := [
  (e.i3 * 5 + 2, e.i1 * 5 + 2, (-e.c1 / (2 * e.Ac) + 0.166666666666667 * (-e.a1 + e.c1) / e.Ac) * (e.E45 * (0.166666666666667 * e.b1 - 0.166666666666667 * e.d1) + e.E55 * (-0.166666666666667 * e.a1 + 0.166666666666667 * e.c1)) + (e.d1 / (2 * e.Ac) + 0.166666666666667 * (e.b1 - e.d1) / e.Ac) * (e.E44 * (0.166666666666667 * e.b1 - 0.166666666666667 * e.d1) + e.E45 * (-0.166666666666667 * e.a1 + 0.166666666666667 * e.c1))),
  (e.i3 * 5 + 2, e.i1 * 5 + 3, (0.166666666666667 + e.a1 * e.d1 / (4 * e.Ac)) * (e.E44 * (0.166666666666667 * e.b1 - 0.166666666666667 * e.d1) + e.E45 * (-0.166666666666667 * e.a1 + 0.166666666666667 * e.c1)) - e.a1 * e.c1 * (e.E45 * (0.166666666666667 * e.b1 - 0.166666666666667 * e.d1) + e.E55 * (-0.166666666666667 * e.a1 + 0.166666666666667 * e.c1)) / (4 * e.Ac)),
  (e.i3 * 5 + 2, e.i1 * 5 + 4, (0.166666666666667 - e.b1 * e.c1 / (4 * e.Ac)) * (e.E45 * (0.166666666666667 * e.b1 - 0.166666666666667 * e.d1) + e.E55 * (-0.166666666666667 * e.a1 + 0.166666666666667 * e.c1)) + e.b1 * e.d1 * (e.E44 * (0.166666666666667 * e.b1 - 0.166666666666667 * e.d1) + e.E45 * (-0.166666666666667 * e.a1 + 0.166666666666667 * e.c1)) / (4 * e.Ac)),
  (e.i3 * 5 + 2, e.i2 * 5 + 2, (e.a1 / (2 * e.Ac) + 0.166666666666667 * (-e.a1 + e.c1) / e.Ac) * (e.E45 * (0.166666666666667 * e.b1 - 0.166666666666667 * e.d1) + e.E55 * (-0.166666666666667 * e.a1 + 0.166666666666667 * e.c1)) + (-e.b1 / (2 * e.Ac) + 0.166666666666667 * (e.b1 - e.d1) / e.Ac) * (e.E44 * (0.166666666666667 * e.b1 - 0.166666666666667 * e.d1) + e.E45 * (-0.166666666666667 * e.a1 + 0.166666666666667 * e.c1))),
  (e.i3 * 5 + 2, e.i2 * 5 + 3, (0.166666666666667 - e.b1 * e.c1 / (4 * e.Ac)) * (e.E44 * (0.166666666666667 * e.b1 - 0.166666666666667 * e.d1) + e.E45 * (-0.166666666666667 * e.a1 + 0.166666666666667 * e.c1)) + e.a1 * e.c1 * (e.E45 * (0.166666666666667 * e.b1 - 0.166666666666667 * e.d1) + e.E55 * (-0.166666666666667 * e.a1 + 0.166666666666667 * e.c1)) / (4 * e.Ac)),
  (e.i3 * 5 + 2, e.i2 * 5 + 4, (0.166666666666667 + e.a1 * e.d1 / (4 * e.Ac)) * (e.E45 * (0.166666666666667 * e.b1 - 0.166666666666667 * e.d1) + e.E55 * (-0.166666666666667 * e.a1 + 0.166666666666667 * e.c1)) - e.b1 * e.d1 * (e.E44 * (0.166666666666667 * e.b1 - 0.166666666666667 * e.d1) + e.E45 * (-0.166666666666667 * e.a1 + 0.166666666666667 * e.c1)) / (4 * e.Ac)),
  (e.i3 * 5 + 2, e.i3 * 5 + 2, 0.166666666666667 * (-e.a1 + e.c1) * (e.E45 * (0.166666666666667 * e.b1 - 0.166666666666667 * e.d1) + e.E55 * (-0.166666666666667 * e.a1 + 0.166666666666667 * e.c1)) / e.Ac + 0.166666666666667 * (e.b1 - e.d1) * (e.E44 * (0.166666666666667 * e.b1 - 0.166666666666667 * e.d1) + e.E45 * (-0.166666666666667 * e.a1 + 0.166666666666667 * e.c1)) / e.Ac),
  (e.i3 * 5 + 2, e.i3 * 5 + 3, 0.166666666666667 * e.E44 * (0.166666666666667 * e.b1 - 0.166666666666667 * e.d1) + 0.166666666666667 * e.E45 * (-0.166666666666667 * e.a1 + 0.166666666666667 * e.c1)),
  (e.i3 * 5 + 2, e.i3 * 5 + 4, 0.166666666666667 * e.E45 * (0.166666666666667 * e.b1 - 0.166666666666667 * e.d1) + 0.166666666666667 * e.E55 * (-0.166666666666667 * e.a1 + 0.166666666666667 * e.c1))]

/-- meshless/espim/plate2d_add_k0s_edge_based.py:122-130 -/
def edgeB_i3_3 (e : EdgeBEnv K) : List (ℤ × ℤ × K) := [
  (e.i3 * 5 + 3, e.i1 * 5 + 2, 0.166666666666667 * e.Ac * e.E44 * (e.d1 / (2 * e.Ac) + 0.166666666666667 * (e.b1 - e.d1) / e.Ac) + 0.166666666666667 * e.Ac * e.E45 * (-e.c1 / (2 * e.Ac) + 0.166666666666667 * (-e.a1 + e.c1) / e.Ac)),
  (e.i3 * 5 + 3, e.i1 * 5 + 3, 0.166666666666667 * e.Ac * e.E44 * (0.166666666666667 + e.a1 * e.d1 / (4 * e.Ac)) - 0.0416666666666667 * e.E45 * e.a1 * e.c1),
  (e.i3 * 5 + 3, e.i1 * 5 + 4, 0.166666666666667 * e.Ac * e.E45 * (0.166666666666667 - e.b1 * e.c1 / (4 * e.Ac)) + 0.0416666666666667 * e.E44 * e.b1 * e.d1),
  (e.i3 * 5 + 3, e.i2 * 5 + 2, 0.166666666666667 * e.Ac * e.E44 * (-e.b1 / (2 * e.Ac) + 0.166666666666667 * (e.b1 - e.d1) / e.Ac) + 0.166666666666667 * e.Ac * e.E45 * (e.a1 / (2 * e.Ac) + 0.166666666666667 * (-e.a1 + e.c1) / e.Ac)),
  (e.i3 * 5 + 3, e.i2 * 5 + 3, 0.166666666666667 * e.Ac * e.E44 * (0.166666666666667 - e.b1 * e.c1 / (4 * e.Ac)) + 0.0416666666666667 * e.E45 * e.a1 * e.c1),
  (e.i3 * 5 + 3, e.i2 * 5 + 4, 0.166666666666667 * e.Ac * e.E45 * (0.166666666666667 + e.a1 * e.d1 / (4 * e.Ac)) - 0.0416666666666667 * e.E44 * e.b1 * e.d1),
  (e.i3 * 5 + 3, e.i3 * 5 + 2, 0.0277777777777778 * e.E44 * (e.b1 - e.d1) + 0.0277777777777778 * e.E45 * (-e.a1 + e.c1)),
  (e.i3 * 5 + 3, e.i3 * 5 + 3, 0.0277777777777778 * e.Ac * e.E44),
  (e.i3 * 5 + 3, e.i3 * 5 + 4, 0.0277777777777778 * e.Ac * e.E45)]

/-- meshless/espim/plate2d_add_k0s_edge_based.py:131-139 -/
def edgeB_i3_4 (e : EdgeBEnv K) : List (ℤ × ℤ × K) := [
  (e.i3 * 5 + 4, e.i1 * 5 + 2, 0.166666666666667 * e.Ac * e.E45 * (e.d1 / (2 * e.Ac) + 0.166666666666667 * (e.b1 - e.d1) / e.Ac) + 0.166666666666667 * e.Ac * e.E55 * (-e.c1 / (2 * e.Ac) + 0.166666666666667 * (-e.a1 + e.c1) / e.Ac)),
  (e.i3 * 5 + 4, e.i1 * 5 + 3, 0.166666666666667 * e.Ac * e.E45 * (0.166666666666667 + e.a1 * e.d1 / (4 * e.Ac)) - 0.0416666666666667 * e.E55 * e.a1 * e.c1),
  (e.i3 * 5 + 4, e.i1 * 5 + 4, 0.166666666666667 * e.Ac * e.E55 * (0.166666666666667 - e.b1 * e.c1 / (4 * e.Ac)) + 0.0416666666666667 * e.E45 * e.b1 * e.d1),
  (e.i3 * 5 + 4, e.i2 * 5 + 2, 0.166666666666667 * e.Ac * e.E45 * (-e.b1 / (2 * e.Ac) + 0.166666666666667 * (e.b1 - e.d1) / e.Ac) + 0.166666666666667 * e.Ac * e.E55 * (e.a1 / (2 * e.Ac) + 0.166666666666667 * (-e.a1 + e.c1) / e.Ac)),
  (e.i3 * 5 + 4, e.i2 * 5 + 3, 0.166666666666667 * e.Ac * e.E45 * (0.166666666666667 - e.b1 * e.c1 / (4 * e.Ac)) + 0.0416666666666667 * e.E55 * e.a1 * e.c1),
  (e.i3 * 5 + 4, e.i2 * 5 + 4, 0.166666666666667 * e.Ac * e.E55 * (0.166666666666667 + e.a1 * e.d1 / (4 * e.Ac)) - 0.0416666666666667 * e.E45 * e.b1 * e.d1),
  (e.i3 * 5 + 4, e.i3 * 5 + 2, 0.0277777777777778 * e.E45 * (e.b1 - e.d1) + 0.0277777777777778 * e.E55 * (-e.a1 + e.c1)),
  (e.i3 * 5 + 4, e.i3 * 5 + 3, 0.0277777777777778 * e.Ac * e.E45),
  (e.i3 * 5 + 4, e.i3 * 5 + 4, 0.0277777777777778 * e.Ac * e.E55)]

/-- All increments, in program order. meshless/espim/plate2d_add_k0s_edge_based.py:59-139 -/
def edgeBEntries (e : EdgeBEnv K) : List (ℤ × ℤ × K) :=
  edgeB_i1_2 e ++ edgeB_i1_3 e ++ edgeB_i1_4 e ++ edgeB_i2_2 e ++ edgeB_i2_3 e ++ edgeB_i2_4 e ++ edgeB_i3_2 e ++ edgeB_i3_3 e ++ edgeB_i3_4 e

end Meshless
