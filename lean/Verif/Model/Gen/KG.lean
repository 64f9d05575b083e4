import Mathlib.Algebra.Field.Defs
import Mathlib.Data.Rat.Cast.Defs

/-! GENERATED by /verif/tools/gen.py from meshless/espim/plate2d_calc_kG.py, function `calc_kG`, lines 159-174.
Do not edit: re-run the generator. -/

namespace Meshless

/-- The local variables read by `calc_kG` in meshless/espim/plate2d_calc_kG.py:159-174. -/
structure KGEnv (K : Type*) where
  (i1 i2 i3 i4 : ℤ)
  (Ac Nxx Nxy Nyy f11 f12 f13 f14 f21 f22 f23 f24 f31 f32 f33 f34 f41 f42 f43 f44 le1 le2 le3 le4 nx1 nx2 nx3 nx4 ny1 ny2 ny3 ny4 : K)

variable {K : Type*} [Add K] [Sub K] [Mul K] [Div K] [Neg K]

/-- meshless/espim/plate2d_calc_kG.py:159-162 -/
def kG_i1_2 (e : KGEnv K) : List (ℤ × ℤ × K) := [
  (e.i1 * 5 + 2, e.i1 * 5 + 2, e.Ac * ((e.Nxx * (e.f11 * e.le1 * e.nx1 + e.f21 * e.le2 * e.nx2 + e.f31 * e.le3 * e.nx3 + e.f41 * e.le4 * e.nx4) / e.Ac + e.Nxy * (e.f11 * e.le1 * e.ny1 + e.f21 * e.le2 * e.ny2 + e.f31 * e.le3 * e.ny3 + e.f41 * e.le4 * e.ny4) / e.Ac) * (e.f11 * e.le1 * e.nx1 + e.f21 * e.le2 * e.nx2 + e.f31 * e.le3 * e.nx3 + e.f41 * e.le4 * e.nx4) / e.Ac + (e.Nxy * (e.f11 * e.le1 * e.nx1 + e.f21 * e.le2 * e.nx2 + e.f31 * e.le3 * e.nx3 + e.f41 * e.le4 * e.nx4) / e.Ac + e.Nyy * (e.f11 * e.le1 * e.ny1 + e.f21 * e.le2 * e.ny2 + e.f31 * e.le3 * e.ny3 + e.f41 * e.le4 * e.ny4) / e.Ac) * (e.f11 * e.le1 * e.ny1 + e.f21 * e.le2 * e.ny2 + e.f31 * e.le3 * e.ny3 + e.f41 * e.le4 * e.ny4) / e.Ac)),
  (e.i1 * 5 + 2, e.i2 * 5 + 2, e.Ac * ((e.Nxx * (e.f11 * e.le1 * e.nx1 + e.f21 * e.le2 * e.nx2 + e.f31 * e.le3 * e.nx3 + e.f41 * e.le4 * e.nx4) / e.Ac + e.Nxy * (e.f11 * e.le1 * e.ny1 + e.f21 * e.le2 * e.ny2 + e.f31 * e.le3 * e.ny3 + e.f41 * e.le4 * e.ny4) / e.Ac) * (e.f12 * e.le1 * e.nx1 + e.f22 * e.le2 * e.nx2 + e.f32 * e.le3 * e.nx3 + e.f42 * e.le4 * e.nx4) / e.Ac + (e.Nxy * (e.f11 * e.le1 * e.nx1 + e.f21 * e.le2 * e.nx2 + e.f31 * e.le3 * e.nx3 + e.f41 * e.le4 * e.nx4) / e.Ac + e.Nyy * (e.f11 * e.le1 * e.ny1 + e.f21 * e.le2 * e.ny2 + e.f31 * e.le3 * e.ny3 + e.f41 * e.le4 * e.ny4) / e.Ac) * (e.f12 * e.le1 * e.ny1 + e.f22 * e.le2 * e.ny2 + e.f32 * e.le3 * e.ny3 + e.f42 * e.le4 * e.ny4) / e.Ac)),
  (e.i1 * 5 + 2, e.i3 * 5 + 2, e.Ac * ((e.Nxx * (e.f11 * e.le1 * e.nx1 + e.f21 * e.le2 * e.nx2 + e.f31 * e.le3 * e.nx3 + e.f41 * e.le4 * e.nx4) / e.Ac + e.Nxy * (e.f11 * e.le1 * e.ny1 + e.f21 * e.le2 * e.ny2 + e.f31 * e.le3 * e.ny3 + e.f41 * e.le4 * e.ny4) / e.Ac) * (e.f13 * e.le1 * e.nx1 + e.f23 * e.le2 * e.nx2 + e.f33 * e.le3 * e.nx3 + e.f43 * e.le4 * e.nx4) / e.Ac + (e.Nxy * (e.f11 * e.le1 * e.nx1 + e.f21 * e.le2 * e.nx2 + e.f31 * e.le3 * e.nx3 + e.f41 * e.le4 * e.nx4) / e.Ac + e.Nyy * (e.f11 * e.le1 * e.ny1 + e.f21 * e.le2 * e.ny2 + e.f31 * e.le3 * e.ny3 + e.f41 * e.le4 * e.ny4) / e.Ac) * (e.f13 * e.le1 * e.ny1 + e.f23 * e.le2 * e.ny2 + e.f33 * e.le3 * e.ny3 + e.f43 * e.le4 * e.ny4) / e.Ac)),
  (e.i1 * 5 + 2, e.i4 * 5 + 2, e.Ac * ((e.Nxx * (e.f11 * e.le1 * e.nx1 + e.f21 * e.le2 * e.nx2 + e.f31 * e.le3 * e.nx3 + e.f41 * e.le4 * e.nx4) / e.Ac + e.Nxy * (e.f11 * e.le1 * e.ny1 + e.f21 * e.le2 * e.ny2 + e.f31 * e.le3 * e.ny3 + e.f41 * e.le4 * e.ny4) / e.Ac) * (e.f14 * e.le1 * e.nx1 + e.f24 * e.le2 * e.nx2 + e.f34 * e.le3 * e.nx3 + e.f44 * e.le4 * e.nx4) / e.Ac + (e.Nxy * (e.f11 * e.le1 * e.nx1 + e.f21 * e.le2 * e.nx2 + e.f31 * e.le3 * e.nx3 + e.f41 * e.le4 * e.nx4) / e.Ac + e.Nyy * (e.f11 * e.le1 * e.ny1 + e.f21 * e.le2 * e.ny2 + e.f31 * e.le3 * e.ny3 + e.f41 * e.le4 * e.ny4) / e.Ac) * (e.f14 * e.le1 * e.ny1 + e.f24 * e.le2 * e.ny2 + e.f34 * e.le3 * e.ny3 + e.f44 * e.le4 * e.ny4) / e.Ac))]

/-- meshless/espim/plate2d_calc_kG.py:163-166 -/
def kG_i2_2 (e : KGEnv K) : List (ℤ × ℤ × K) := [
  (e.i2 * 5 + 2, e.i1 * 5 + 2, e.Ac * ((e.Nxx * (e.f12 * e.le1 * e.nx1 + e.f22 * e.le2 * e.nx2 + e.f32 * e.le3 * e.nx3 + e.f42 * e.le4 * e.nx4) / e.Ac + e.Nxy * (e.f12 * e.le1 * e.ny1 + e.f22 * e.le2 * e.ny2 + e.f32 * e.le3 * e.ny3 + e.f42 * e.le4 * e.ny4) / e.Ac) * (e.f11 * e.le1 * e.nx1 + e.f21 * e.le2 * e.nx2 + e.f31 * e.le3 * e.nx3 + e.f41 * e.le4 * e.nx4) / e.Ac + (e.Nxy * (e.f12 * e.le1 * e.nx1 + e.f22 * e.le2 * e.nx2 + e.f32 * e.le3 * e.nx3 + e.f42 * e.le4 * e.nx4) / e.Ac + e.Nyy * (e.f12 * e.le1 * e.ny1 + e.f22 * e.le2 * e.ny2 + e.f32 * e.le3 * e.ny3 + e.f42 * e.le4 * e.ny4) / e.Ac) * (e.f11 * e.le1 * e.ny1 + e.f21 * e.le2 * e.ny2 + e.f31 * e.le3 * e.ny3 + e.f41 * e.le4 * e.ny4) / e.Ac)),
  (e.i2 * 5 + 2, e.i2 * 5 + 2, e.Ac * ((e.Nxx * (e.f12 * e.le1 * e.nx1 + e.f22 * e.le2 * e.nx2 + e.f32 * e.le3 * e.nx3 + e.f42 * e.le4 * e.nx4) / e.Ac + e.Nxy * (e.f12 * e.le1 * e.ny1 + e.f22 * e.le2 * e.ny2 + e.f32 * e.le3 * e.ny3 + e.f42 * e.le4 * e.ny4) / e.Ac) * (e.f12 * e.le1 * e.nx1 + e.f22 * e.le2 * e.nx2 + e.f32 * e.le3 * e.nx3 + e.f42 * e.le4 * e.nx4) / e.Ac + (e.Nxy * (e.f12 * e.le1 * e.nx1 + e.f22 * e.le2 * e.nx2 + e.f32 * e.le3 * e.nx3 + e.f42 * e.le4 * e.nx4) / e.Ac + e.Nyy * (e.f12 * e.le1 * e.ny1 + e.f22 * e.le2 * e.ny2 + e.f32 * e.le3 * e.ny3 + e.f42 * e.le4 * e.ny4) / e.Ac) * (e.f12 * e.le1 * e.ny1 + e.f22 * e.le2 * e.ny2 + e.f32 * e.le3 * e.ny3 + e.f42 * e.le4 * e.ny4) / e.Ac)),
  (e.i2 * 5 + 2, e.i3 * 5 + 2, e.Ac * ((e.Nxx * (e.f12 * e.le1 * e.nx1 + e.f22 * e.le2 * e.nx2 + e.f32 * e.le3 * e.nx3 + e.f42 * e.le4 * e.nx4) / e.Ac + e.Nxy * (e.f12 * e.le1 * e.ny1 + e.f22 * e.le2 * e.ny2 + e.f32 * e.le3 * e.ny3 + e.f42 * e.le4 * e.ny4) / e.Ac) * (e.f13 * e.le1 * e.nx1 + e.f23 * e.le2 * e.nx2 + e.f33 * e.le3 * e.nx3 + e.f43 * e.le4 * e.nx4) / e.Ac + (e.Nxy * (e.f12 * e.le1 * e.nx1 + e.f22 * e.le2 * e.nx2 + e.f32 * e.le3 * e.nx3 + e.f42 * e.le4 * e.nx4) / e.Ac + e.Nyy * (e.f12 * e.le1 * e.ny1 + e.f22 * e.le2 * e.ny2 + e.f32 * e.le3 * e.ny3 + e.f42 * e.le4 * e.ny4) / e.Ac) * (e.f13 * e.le1 * e.ny1 + e.f23 * e.le2 * e.ny2 + e.f33 * e.le3 * e.ny3 + e.f43 * e.le4 * e.ny4) / e.Ac)),
  (e.i2 * 5 + 2, e.i4 * 5 + 2, e.Ac * ((e.Nxx * (e.f12 * e.le1 * e.nx1 + e.f22 * e.le2 * e.nx2 + e.f32 * e.le3 * e.nx3 + e.f42 * e.le4 * e.nx4) / e.Ac + e.Nxy * (e.f12 * e.le1 * e.ny1 + e.f22 * e.le2 * e.ny2 + e.f32 * e.le3 * e.ny3 + e.f42 * e.le4 * e.ny4) / e.Ac) * (e.f14 * e.le1 * e.nx1 + e.f24 * e.le2 * e.nx2 + e.f34 * e.le3 * e.nx3 + e.f44 * e.le4 * e.nx4) / e.Ac + (e.Nxy * (e.f12 * e.le1 * e.nx1 + e.f22 * e.le2 * e.nx2 + e.f32 * e.le3 * e.nx3 + e.f42 * e.le4 * e.nx4) / e.Ac + e.Nyy * (e.f12 * e.le1 * e.ny1 + e.f22 * e.le2 * e.ny2 + e.f32 * e.le3 * e.ny3 + e.f42 * e.le4 * e.ny4) / e.Ac) * (e.f14 * e.le1 * e.ny1 + e.f24 * e.le2 * e.ny2 + e.f34 * e.le3 * e.ny3 + e.f44 * e.le4 * e.ny4) / e.Ac))]

/-- meshless/espim/plate2d_calc_kG.py:167-170 -/
def kG_i3_2 (e : KGEnv K) : List (ℤ × ℤ × K) := [
  (e.i3 * 5 + 2, e.i1 * 5 + 2, e.Ac * ((e.Nxx * (e.f13 * e.le1 * e.nx1 + e.f23 * e.le2 * e.nx2 + e.f33 * e.le3 * e.nx3 + e.f43 * e.le4 * e.nx4) / e.Ac + e.Nxy * (e.f13 * e.le1 * e.ny1 + e.f23 * e.le2 * e.ny2 + e.f33 * e.le3 * e.ny3 + e.f43 * e.le4 * e.ny4) / e.Ac) * (e.f11 * e.le1 * e.nx1 + e.f21 * e.le2 * e.nx2 + e.f31 * e.le3 * e.nx3 + e.f41 * e.le4 * e.nx4) / e.Ac + (e.Nxy * (e.f13 * e.le1 * e.nx1 + e.f23 * e.le2 * e.nx2 + e.f33 * e.le3 * e.nx3 + e.f43 * e.le4 * e.nx4) / e.Ac + e.Nyy * (e.f13 * e.le1 * e.ny1 + e.f23 * e.le2 * e.ny2 + e.f33 * e.le3 * e.ny3 + e.f43 * e.le4 * e.ny4) / e.Ac) * (e.f11 * e.le1 * e.ny1 + e.f21 * e.le2 * e.ny2 + e.f31 * e.le3 * e.ny3 + e.f41 * e.le4 * e.ny4) / e.Ac)),
  (e.i3 * 5 + 2, e.i2 * 5 + 2, e.Ac * ((e.Nxx * (e.f13 * e.le1 * e.nx1 + e.f23 * e.le2 * e.nx2 + e.f33 * e.le3 * e.nx3 + e.f43 * e.le4 * e.nx4) / e.Ac + e.Nxy * (e.f13 * e.le1 * e.ny1 + e.f23 * e.le2 * e.ny2 + e.f33 * e.le3 * e.ny3 + e.f43 * e.le4 * e.ny4) / e.Ac) * (e.f12 * e.le1 * e.nx1 + e.f22 * e.le2 * e.nx2 + e.f32 * e.le3 * e.nx3 + e.f42 * e.le4 * e.nx4) / e.Ac + (e.Nxy * (e.f13 * e.le1 * e.nx1 + e.f23 * e.le2 * e.nx2 + e.f33 * e.le3 * e.nx3 + e.f43 * e.le4 * e.nx4) / e.Ac + e.Nyy * (e.f13 * e.le1 * e.ny1 + e.f23 * e.le2 * e.ny2 + e.f33 * e.le3 * e.ny3 + e.f43 * e.le4 * e.ny4) / e.Ac) * (e.f12 * e.le1 * e.ny1 + e.f22 * e.le2 * e.ny2 + e.f32 * e.le3 * e.ny3 + e.f42 * e.le4 * e.ny4) / e.Ac)),
  (e.i3 * 5 + 2, e.i3 * 5 + 2, e.Ac * ((e.Nxx * (e.f13 * e.le1 * e.nx1 + e.f23 * e.le2 * e.nx2 + e.f33 * e.le3 * e.nx3 + e.f43 * e.le4 * e.nx4) / e.Ac + e.Nxy * (e.f13 * e.le1 * e.ny1 + e.f23 * e.le2 * e.ny2 + e.f33 * e.le3 * e.ny3 + e.f43 * e.le4 * e.ny4) / e.Ac) * (e.f13 * e.le1 * e.nx1 + e.f23 * e.le2 * e.nx2 + e.f33 * e.le3 * e.nx3 + e.f43 * e.le4 * e.nx4) / e.Ac + (e.Nxy * (e.f13 * e.le1 * e.nx1 + e.f23 * e.le2 * e.nx2 + e.f33 * e.le3 * e.nx3 + e.f43 * e.le4 * e.nx4) / e.Ac + e.Nyy * (e.f13 * e.le1 * e.ny1 + e.f23 * e.le2 * e.ny2 + e.f33 * e.le3 * e.ny3 + e.f43 * e.le4 * e.ny4) / e.Ac) * (e.f13 * e.le1 * e.ny1 + e.f23 * e.le2 * e.ny2 + e.f33 * e.le3 * e.ny3 + e.f43 * e.le4 * e.ny4) / e.Ac)),
  (e.i3 * 5 + 2, e.i4 * 5 + 2, e.Ac * ((e.Nxx * (e.f13 * e.le1 * e.nx1 + e.f23 * e.le2 * e.nx2 + e.f33 * e.le3 * e.nx3 + e.f43 * e.le4 * e.nx4) / e.Ac + e.Nxy * (e.f13 * e.le1 * e.ny1 + e.f23 * e.le2 * e.ny2 + e.f33 * e.le3 * e.ny3 + e.f43 * e.le4 * e.ny4) / e.Ac) * (e.f14 * e.le1 * e.nx1 + e.f24 * e.le2 * e.nx2 + e.f34 * e.le3 * e.nx3 + e.f44 * e.le4 * e.nx4) / e.Ac + (e.Nxy * (e.f13 * e.le1 * e.nx1 + e.f23 * e.le2 * e.nx2 + e.f33 * e.le3 * e.nx3 + e.f43 * e.le4 * e.nx4) / e.Ac + e.Nyy * (e.f13 * e.le1 * e.ny1 + e.f23 * e.le2 * e.ny2 + e.f33 * e.le3 * e.ny3 + e.f43 * e.le4 * e.ny4) / e.Ac) * (e.f14 * e.le1 * e.ny1 + e.f24 * e.le2 * e.ny2 + e.f34 * e.le3 * e.ny3 + e.f44 * e.le4 * e.ny4) / e.Ac))]

/-- meshless/espim/plate2d_calc_kG.py:171-174 -/
def kG_i4_2 (e : KGEnv K) : List (ℤ × ℤ × K) := [
  (e.i4 * 5 + 2, e.i1 * 5 + 2, e.Ac * ((e.Nxx * (e.f14 * e.le1 * e.nx1 + e.f24 * e.le2 * e.nx2 + e.f34 * e.le3 * e.nx3 + e.f44 * e.le4 * e.nx4) / e.Ac + e.Nxy * (e.f14 * e.le1 * e.ny1 + e.f24 * e.le2 * e.ny2 + e.f34 * e.le3 * e.ny3 + e.f44 * e.le4 * e.ny4) / e.Ac) * (e.f11 * e.le1 * e.nx1 + e.f21 * e.le2 * e.nx2 + e.f31 * e.le3 * e.nx3 + e.f41 * e.le4 * e.nx4) / e.Ac + (e.Nxy * (e.f14 * e.le1 * e.nx1 + e.f24 * e.le2 * e.nx2 + e.f34 * e.le3 * e.nx3 + e.f44 * e.le4 * e.nx4) / e.Ac + e.Nyy * (e.f14 * e.le1 * e.ny1 + e.f24 * e.le2 * e.ny2 + e.f34 * e.le3 * e.ny3 + e.f44 * e.le4 * e.ny4) / e.Ac) * (e.f11 * e.le1 * e.ny1 + e.f21 * e.le2 * e.ny2 + e.f31 * e.le3 * e.ny3 + e.f41 * e.le4 * e.ny4) / e.Ac)),
  (e.i4 * 5 + 2, e.i2 * 5 + 2, e.Ac * ((e.Nxx * (e.f14 * e.le1 * e.nx1 + e.f24 * e.le2 * e.nx2 + e.f34 * e.le3 * e.nx3 + e.f44 * e.le4 * e.nx4) / e.Ac + e.Nxy * (e.f14 * e.le1 * e.ny1 + e.f24 * e.le2 * e.ny2 + e.f34 * e.le3 * e.ny3 + e.f44 * e.le4 * e.ny4) / e.Ac) * (e.f12 * e.le1 * e.nx1 + e.f22 * e.le2 * e.nx2 + e.f32 * e.le3 * e.nx3 + e.f42 * e.le4 * e.nx4) / e.Ac + (e.Nxy * (e.f14 * e.le1 * e.nx1 + e.f24 * e.le2 * e.nx2 + e.f34 * e.le3 * e.nx3 + e.f44 * e.le4 * e.nx4) / e.Ac + e.Nyy * (e.f14 * e.le1 * e.ny1 + e.f24 * e.le2 * e.ny2 + e.f34 * e.le3 * e.ny3 + e.f44 * e.le4 * e.ny4) / e.Ac) * (e.f12 * e.le1 * e.ny1 + e.f22 * e.le2 * e.ny2 + e.f32 * e.le3 * e.ny3 + e.f42 * e.le4 * e.ny4) / e.Ac)),
  (e.i4 * 5 + 2, e.i3 * 5 + 2, e.Ac * ((e.Nxx * (e.f14 * e.le1 * e.nx1 + e.f24 * e.le2 * e.nx2 + e.f34 * e.le3 * e.nx3 + e.f44 * e.le4 * e.nx4) / e.Ac + e.Nxy * (e.f14 * e.le1 * e.ny1 + e.f24 * e.le2 * e.ny2 + e.f34 * e.le3 * e.ny3 + e.f44 * e.le4 * e.ny4) / e.Ac) * (e.f13 * e.le1 * e.nx1 + e.f23 * e.le2 * e.nx2 + e.f33 * e.le3 * e.nx3 + e.f43 * e.le4 * e.nx4) / e.Ac + (e.Nxy * (e.f14 * e.le1 * e.nx1 + e.f24 * e.le2 * e.nx2 + e.f34 * e.le3 * e.nx3 + e.f44 * e.le4 * e.nx4) / e.Ac + e.Nyy * (e.f14 * e.le1 * e.ny1 + e.f24 * e.le2 * e.ny2 + e.f34 * e.le3 * e.ny3 + e.f44 * e.le4 * e.ny4) / e.Ac) * (e.f13 * e.le1 * e.ny1 + e.f23 * e.le2 * e.ny2 + e.f33 * e.le3 * e.ny3 + e.f43 * e.le4 * e.ny4) / e.Ac)),
  (e.i4 * 5 + 2, e.i4 * 5 + 2, e.Ac * ((e.Nxx * (e.f14 * e.le1 * e.nx1 + e.f24 * e.le2 * e.nx2 + e.f34 * e.le3 * e.nx3 + e.f44 * e.le4 * e.nx4) / e.Ac + e.Nxy * (e.f14 * e.le1 * e.ny1 + e.f24 * e.le2 * e.ny2 + e.f34 * e.le3 * e.ny3 + e.f44 * e.le4 * e.ny4) / e.Ac) * (e.f14 * e.le1 * e.nx1 + e.f24 * e.le2 * e.nx2 + e.f34 * e.le3 * e.nx3 + e.f44 * e.le4 * e.nx4) / e.Ac + (e.Nxy * (e.f14 * e.le1 * e.nx1 + e.f24 * e.le2 * e.nx2 + e.f34 * e.le3 * e.nx3 + e.f44 * e.le4 * e.nx4) / e.Ac + e.Nyy * (e.f14 * e.le1 * e.ny1 + e.f24 * e.le2 * e.ny2 + e.f34 * e.le3 * e.ny3 + e.f44 * e.le4 * e.ny4) / e.Ac) * (e.f14 * e.le1 * e.ny1 + e.f24 * e.le2 * e.ny2 + e.f34 * e.le3 * e.ny3 + e.f44 * e.le4 * e.ny4) / e.Ac))]

/-- All increments, in program order. meshless/espim/plate2d_calc_kG.py:159-174 -/
def kGEntries (e : KGEnv K) : List (ℤ × ℤ × K) :=
  kG_i1_2 e ++ kG_i2_2 e ++ kG_i3_2 e ++ kG_i4_2 e

end Meshless
