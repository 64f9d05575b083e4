import Mathlib.Algebra.Field.Defs
import Mathlib.Data.Rat.Cast.Defs

/-! GENERATED by /verif/tools/gen.py from meshless/espim/plate2d_calc_k0.py, function `calc_k0`, lines 253-508.
Do not edit: re-run the generator. -/

namespace Meshless

/-- The local variables read by `calc_k0` in meshless/espim/plate2d_calc_k0.py:253-508. -/
structure K0Env (K : Type*) where
  (i1 i2 i3 i4 : ℤ)
  (Ac A11 A12 A16 A22 A26 A66 B11 B12 B16 B22 B26 B66 D11 D12 D16 D22 D26 D66 f11 f12 f13 f14 f21 f22 f23 f24 f31 f32 f33 f34 f41 f42 f43 f44 le1 le2 le3 le4 nx1 nx2 nx3 nx4 ny1 ny2 ny3 ny4 : K)

variable {K : Type*} [Add K] [Sub K] [Mul K] [Div K] [Neg K]

/-- meshless/espim/plate2d_calc_k0.py:253-268 -/
def k0_i1_0 (e : K0Env K) : List (ℤ × ℤ × K) := [
  (e.i1 * 5 + 0, e.i1 * 5 + 0, e.Ac * ((e.A11 * (e.f11 * e.le1 * e.nx1 + e.f21 * e.le2 * e.nx2 + e.f31 * e.le3 * e.nx3 + e.f41 * e.le4 * e.nx4) / e.Ac + e.A16 * (e.f11 * e.le1 * e.ny1 + e.f21 * e.le2 * e.ny2 + e.f31 * e.le3 * e.ny3 + e.f41 * e.le4 * e.ny4) / e.Ac) * (e.f11 * e.le1 * e.nx1 + e.f21 * e.le2 * e.nx2 + e.f31 * e.le3 * e.nx3 + e.f41 * e.le4 * e.nx4) / e.Ac + (e.A16 * (e.f11 * e.le1 * e.nx1 + e.f21 * e.le2 * e.nx2 + e.f31 * e.le3 * e.nx3 + e.f41 * e.le4 * e.nx4) / e.Ac + e.A66 * (e.f11 * e.le1 * e.ny1 + e.f21 * e.le2 * e.ny2 + e.f31 * e.le3 * e.ny3 + e.f41 * e.le4 * e.ny4) / e.Ac) * (e.f11 * e.le1 * e.ny1 + e.f21 * e.le2 * e.ny2 + e.f31 * e.le3 * e.ny3 + e.f41 * e.le4 * e.ny4) / e.Ac)),
  (e.i1 * 5 + 0, e.i1 * 5 + 1, e.Ac * ((e.A12 * (e.f11 * e.le1 * e.nx1 + e.f21 * e.le2 * e.nx2 + e.f31 * e.le3 * e.nx3 + e.f41 * e.le4 * e.nx4) / e.Ac + e.A26 * (e.f11 * e.le1 * e.ny1 + e.f21 * e.le2 * e.ny2 + e.f31 * e.le3 * e.ny3 + e.f41 * e.le4 * e.ny4) / e.Ac) * (e.f11 * e.le1 * e.ny1 + e.f21 * e.le2 * e.ny2 + e.f31 * e.le3 * e.ny3 + e.f41 * e.le4 * e.ny4) / e.Ac + (e.A16 * (e.f11 * e.le1 * e.nx1 + e.f21 * e.le2 * e.nx2 + e.f31 * e.le3 * e.nx3 + e.f41 * e.le4 * e.nx4) / e.Ac + e.A66 * (e.f11 * e.le1 * e.ny1 + e.f21 * e.le2 * e.ny2 + e.f31 * e.le3 * e.ny3 + e.f41 * e.le4 * e.ny4) / e.Ac) * (e.f11 * e.le1 * e.nx1 + e.f21 * e.le2 * e.nx2 + e.f31 * e.le3 * e.nx3 + e.f41 * e.le4 * e.nx4) / e.Ac)),
  (e.i1 * 5 + 0, e.i1 * 5 + 3, e.Ac * ((e.B11 * (e.f11 * e.le1 * e.nx1 + e.f21 * e.le2 * e.nx2 + e.f31 * e.le3 * e.nx3 + e.f41 * e.le4 * e.nx4) / e.Ac + e.B16 * (e.f11 * e.le1 * e.ny1 + e.f21 * e.le2 * e.ny2 + e.f31 * e.le3 * e.ny3 + e.f41 * e.le4 * e.ny4) / e.Ac) * (e.f11 * e.le1 * e.nx1 + e.f21 * e.le2 * e.nx2 + e.f31 * e.le3 * e.nx3 + e.f41 * e.le4 * e.nx4) / e.Ac + (e.B16 * (e.f11 * e.le1 * e.nx1 + e.f21 * e.le2 * e.nx2 + e.f31 * e.le3 * e.nx3 + e.f41 * e.le4 * e.nx4) / e.Ac + e.B66 * (e.f11 * e.le1 * e.ny1 + e.f21 * e.le2 * e.ny2 + e.f31 * e.le3 * e.ny3 + e.f41 * e.le4 * e.ny4) / e.Ac) * (e.f11 * e.le1 * e.ny1 + e.f21 * e.le2 * e.ny2 + e.f31 * e.le3 * e.ny3 + e.f41 * e.le4 * e.ny4) / e.Ac)),
  (e.i1 * 5 + 0, e.i1 * 5 + 4, e.Ac * ((e.B12 * (e.f11 * e.le1 * e.nx1 + e.f21 * e.le2 * e.nx2 + e.f31 * e.le3 * e.nx3 + e.f41 * e.le4 * e.nx4) / e.Ac + e.B26 * (e.f11 * e.le1 * e.ny1 + e.f21 * e.le2 * e.ny2 + e.f31 * e.le3 * e.ny3 + e.f41 * e.le4 * e.ny4) / e.Ac) * (e.f11 * e.le1 * e.ny1 + e.f21 * e.le2 * e.ny2 + e.f31 * e.le3 * e.ny3 + e.f41 * e.le4 * e.ny4) / e.Ac + (e.B16 * (e.f11 * e.le1 * e.nx1 + e.f21 * e.le2 * e.nx2 + e.f31 * e.le3 * e.nx3 + e.f41 * e.le4 * e.nx4) / e.Ac + e.B66 * (e.f11 * e.le1 * e.ny1 + e.f21 * e.le2 * e.ny2 + e.f31 * e.le3 * e.ny3 + e.f41 * e.le4 * e.ny4) / e.Ac) * (e.f11 * e.le1 * e.nx1 + e.f21 * e.le2 * e.nx2 + e.f31 * e.le3 * e.nx3 + e.f41 * e.le4 * e.nx4) / e.Ac)),
  (e.i1 * 5 + 0, e.i2 * 5 + 0, e.Ac * ((e.A11 * (e.f11 * e.le1 * e.nx1 + e.f21 * e.le2 * e.nx2 + e.f31 * e.le3 * e.nx3 + e.f41 * e.le4 * e.nx4) / e.Ac + e.A16 * (e.f11 * e.le1 * e.ny1 + e.f21 * e.le2 * e.ny2 + e.f31 * e.le3 * e.ny3 + e.f41 * e.le4 * e.ny4) / e.Ac) * (e.f12 * e.le1 * e.nx1 + e.f22 * e.le2 * e.nx2 + e.f32 * e.le3 * e.nx3 + e.f42 * e.le4 * e.nx4) / e.Ac + (e.A16 * (e.f11 * e.le1 * e.nx1 + e.f21 * e.le2 * e.nx2 + e.f31 * e.le3 * e.nx3 + e.f41 * e.le4 * e.nx4) / e.Ac + e.A66 * (e.f11 * e.le1 * e.ny1 + e.f21 * e.le2 * e.ny2 + e.f31 * e.le3 * e.ny3 + e.f41 * e.le4 * e.ny4) / e.Ac) * (e.f12 * e.le1 * e.ny1 + e.f22 * e.le2 * e.ny2 + e.f32 * e.le3 * e.ny3 + e.f42 * e.le4 * e.ny4) / e.Ac)),
  (e.i1 * 5 + 0, e.i2 * 5 + 1, e.Ac * ((e.A12 * (e.f11 * e.le1 * e.nx1 + e.f21 * e.le2 * e.nx2 + e.f31 * e.le3 * e.nx3 + e.f41 * e.le4 * e.nx4) / e.Ac + e.A26 * (e.f11 * e.le1 * e.ny1 + e.f21 * e.le2 * e.ny2 + e.f31 * e.le3 * e.ny3 + e.f41 * e.le4 * e.ny4) / e.Ac) * (e.f12 * e.le1 * e.ny1 + e.f22 * e.le2 * e.ny2 + e.f32 * e.le3 * e.ny3 + e.f42 * e.le4 * e.ny4) / e.Ac + (e.A16 * (e.f11 * e.le1 * e.nx1 + e.f21 * e.le2 * e.nx2 + e.f31 * e.le3 * e.nx3 + e.f41 * e.le4 * e.nx4) / e.Ac + e.A66 * (e.f11 * e.le1 * e.ny1 + e.f21 * e.le2 * e.ny2 + e.f31 * e.le3 * e.ny3 + e.f41 * e.le4 * e.ny4) / e.Ac) * (e.f12 * e.le1 * e.nx1 + e.f22 * e.le2 * e.nx2 + e.f32 * e.le3 * e.nx3 + e.f42 * e.le4 * e.nx4) / e.Ac)),
  (e.i1 * 5 + 0, e.i2 * 5 + 3, e.Ac * ((e.B11 * (e.f11 * e.le1 * e.nx1 + e.f21 * e.le2 * e.nx2 + e.f31 * e.le3 * e.nx3 + e.f41 * e.le4 * e.nx4) / e.Ac + e.B16 * (e.f11 * e.le1 * e.ny1 + e.f21 * e.le2 * e.ny2 + e.f31 * e.le3 * e.ny3 + e.f41 * e.le4 * e.ny4) / e.Ac) * (e.f12 * e.le1 * e.nx1 + e.f22 * e.le2 * e.nx2 + e.f32 * e.le3 * e.nx3 + e.f42 * e.le4 * e.nx4) / e.Ac + (e.B16 * (e.f11 * e.le1 * e.nx1 + e.f21 * e.le2 * e.nx2 + e.f31 * e.le3 * e.nx3 + e.f41 * e.le4 * e.nx4) / e.Ac + e.B66 * (e.f11 * e.le1 * e.ny1 + e.f21 * e.le2 * e.ny2 + e.f31 * e.le3 * e.ny3 + e.f41 * e.le4 * e.ny4) / e.Ac) * (e.f12 * e.le1 * e.ny1 + e.f22 * e.le2 * e.ny2 + e.f32 * e.le3 * e.ny3 + e.f42 * e.le4 * e.ny4) / e.Ac)),
  (e.i1 * 5 + 0, e.i2 * 5 + 4, e.Ac * ((e.B12 * (e.f11 * e.le1 * e.nx1 + e.f21 * e.le2 * e.nx2 + e.f31 * e.le3 * e.nx3 + e.f41 * e.le4 * e.nx4) / e.Ac + e.B26 * (e.f11 * e.le1 * e.ny1 + e.f21 * e.le2 * e.ny2 + e.f31 * e.le3 * e.ny3 + e.f41 * e.le4 * e.ny4) / e.Ac) * (e.f12 * e.le1 * e.ny1 + e.f22 * e.le2 * e.ny2 + e.f32 * e.le3 * e.ny3 + e.f42 * e.le4 * e.ny4) / e.Ac + (e.B16 * (e.f11 * e.le1 * e.nx1 + e.f21 * e.le2 * e.nx2 + e.f31 * e.le3 * e.nx3 + e.f41 * e.le4 * e.nx4) / e.Ac + e.B66 * (e.f11 * e.le1 * e.ny1 + e.f21 * e.le2 * e.ny2 + e.f31 * e.le3 * e.ny3 + e.f41 * e.le4 * e.ny4) / e.Ac) * (e.f12 * e.le1 * e.nx1 + e.f22 * e.le2 * e.nx2 + e.f32 * e.le3 * e.nx3 + e.f42 * e.le4 * e.nx4) / e.Ac)),
  (e.i1 * 5 + 0, e.i3 * 5 + 0, e.Ac * ((e.A11 * (e.f11 * e.le1 * e.nx1 + e.f21 * e.le2 * e.nx2 + e.f31 * e.le3 * e.nx3 + e.f41 * e.le4 * e.nx4) / e.Ac + e.A16 * (e.f11 * e.le1 * e.ny1 + e.f21 * e.le2 * e.ny2 + e.f31 * e.le3 * e.ny3 + e.f41 * e.le4 * e.ny4) / e.Ac) * (e.f13 * e.le1 * e.nx1 + e.f23 * e.le2 * e.nx2 + e.f33 * e.le3 * e.nx3 + e.f43 * e.le4 * e.nx4) / e.Ac + (e.A16 * (e.f11 * e.le1 * e.nx1 + e.f21 * e.le2 * e.nx2 + e.f31 * e.le3 * e.nx3 + e.f41 * e.le4 * e.nx4) / e.Ac + e.A66 * (e.f11 * e.le1 * e.ny1 + e.f21 * e.le2 * e.ny2 + e.f31 * e.le3 * e.ny3 + e.f41 * e.le4 * e.ny4) / e.Ac) * (e.f13 * e.le1 * e.ny1 + e.f23 * e.le2 * e.ny2 + e.f33 * e.le3 * e.ny3 + e.f43 * e.le4 * e.ny4) / e.Ac)),
  (e.i1 * 5 + 0, e.i3 * 5 + 1, e.Ac * ((e.A12 * (e.f11 * e.le1 * e.nx1 + e.f21 * e.le2 * e.nx2 + e.f31 * e.le3 * e.nx3 + e.f41 * e.le4 * e.nx4) / e.Ac + e.A26 * (e.f11 * e.le1 * e.ny1 + e.f21 * e.le2 * e.ny2 + e.f31 * e.le3 * e.ny3 + e.f41 * e.le4 * e.ny4) / e.Ac) * (e.f13 * e.le1 * e.ny1 + e.f23 * e.le2 * e.ny2 + e.f33 * e.le3 * e.ny3 + e.f43 * e.le4 * e.ny4) / e.Ac + (e.A16 * (e.f11 * e.le1 * e.nx1 + e.f21 * e.le2 * e.nx2 + e.f31 * e.le3 * e.nx3 + e.f41 * e.le4 * e.nx4) / e.Ac + e.A66 * (e.f11 * e.le1 * e.ny1 + e.f21 * e.le2 * e.ny2 + e.f31 * e.le3 * e.ny3 + e.f41 * e.le4 * e.ny4) / e.Ac) * (e.f13 * e.le1 * e.nx1 + e.f23 * e.le2 * e.nx2 + e.f33 * e.le3 * e.nx3 + e.f43 * e.le4 * e.nx4) / e.Ac)),
  (e.i1 * 5 + 0, e.i3 * 5 + 3, e.Ac * ((e.B11 * (e.f11 * e.le1 * e.nx1 + e.f21 * e.le2 * e.nx2 + e.f31 * e.le3 * e.nx3 + e.f41 * e.le4 * e.nx4) / e.Ac + e.B16 * (e.f11 * e.le1 * e.ny1 + e.f21 * e.le2 * e.ny2 + e.f31 * e.le3 * e.ny3 + e.f41 * e.le4 * e.ny4) / e.Ac) * (e.f13 * e.le1 * e.nx1 + e.f23 * e.le2 * e.nx2 + e.f33 * e.le3 * e.nx3 + e.f43 * e.le4 * e.nx4) / e.Ac + (e.B16 * (e.f11 * e.le1 * e.nx1 + e.f21 * e.le2 * e.nx2 + e.f31 * e.le3 * e.nx3 + e.f41 * e.le4 * e.nx4) / e.Ac + e.B66 * (e.f11 * e.le1 * e.ny1 + e.f21 * e.le2 * e.ny2 + e.f31 * e.le3 * e.ny3 + e.f41 * e.le4 * e.ny4) / e.Ac) * (e.f13 * e.le1 * e.ny1 + e.f23 * e.le2 * e.ny2 + e.f33 * e.le3 * e.ny3 + e.f43 * e.le4 * e.ny4) / e.Ac)),
  (e.i1 * 5 + 0, e.i3 * 5 + 4, e.Ac * ((e.B12 * (e.f11 * e.le1 * e.nx1 + e.f21 * e.le2 * e.nx2 + e.f31 * e.le3 * e.nx3 + e.f41 * e.le4 * e.nx4) / e.Ac + e.B26 * (e.f11 * e.le1 * e.ny1 + e.f21 * e.le2 * e.ny2 + e.f31 * e.le3 * e.ny3 + e.f41 * e.le4 * e.ny4) / e.Ac) * (e.f13 * e.le1 * e.ny1 + e.f23 * e.le2 * e.ny2 + e.f33 * e.le3 * e.ny3 + e.f43 * e.le4 * e.ny4) / e.Ac + (e.B16 * (e.f11 * e.le1 * e.nx1 + e.f21 * e.le2 * e.nx2 + e.f31 * e.le3 * e.nx3 + e.f41 * e.le4 * e.nx4) / e.Ac + e.B66 * (e.f11 * e.le1 * e.ny1 + e.f21 * e.le2 * e.ny2 + e.f31 * e.le3 * e.ny3 + e.f41 * e.le4 * e.ny4) / e.Ac) * (e.f13 * e.le1 * e.nx1 + e.f23 * e.le2 * e.nx2 + e.f33 * e.le3 * e.nx3 + e.f43 * e.le4 * e.nx4) / e.Ac)),
  (e.i1 * 5 + 0, e.i4 * 5 + 0, e.Ac * ((e.A11 * (e.f11 * e.le1 * e.nx1 + e.f21 * e.le2 * e.nx2 + e.f31 * e.le3 * e.nx3 + e.f41 * e.le4 * e.nx4) / e.Ac + e.A16 * (e.f11 * e.le1 * e.ny1 + e.f21 * e.le2 * e.ny2 + e.f31 * e.le3 * e.ny3 + e.f41 * e.le4 * e.ny4) / e.Ac) * (e.f14 * e.le1 * e.nx1 + e.f24 * e.le2 * e.nx2 + e.f34 * e.le3 * e.nx3 + e.f44 * e.le4 * e.nx4) / e.Ac + (e.A16 * (e.f11 * e.le1 * e.nx1 + e.f21 * e.le2 * e.nx2 + e.f31 * e.le3 * e.nx3 + e.f41 * e.le4 * e.nx4) / e.Ac + e.A66 * (e.f11 * e.le1 * e.ny1 + e.f21 * e.le2 * e.ny2 + e.f31 * e.le3 * e.ny3 + e.f41 * e.le4 * e.ny4) / e.Ac) * (e.f14 * e.le1 * e.ny1 + e.f24 * e.le2 * e.ny2 + e.f34 * e.le3 * e.ny3 + e.f44 * e.le4 * e.ny4) / e.Ac)),
  (e.i1 * 5 + 0, e.i4 * 5 + 1, e.Ac * ((e.A12 * (e.f11 * e.le1 * e.nx1 + e.f21 * e.le2 * e.nx2 + e.f31 * e.le3 * e.nx3 + e.f41 * e.le4 * e.nx4) / e.Ac + e.A26 * (e.f11 * e.le1 * e.ny1 + e.f21 * e.le2 * e.ny2 + e.f31 * e.le3 * e.ny3 + e.f41 * e.le4 * e.ny4) / e.Ac) * (e.f14 * e.le1 * e.ny1 + e.f24 * e.le2 * e.ny2 + e.f34 * e.le3 * e.ny3 + e.f44 * e.le4 * e.ny4) / e.Ac + (e.A16 * (e.f11 * e.le1 * e.nx1 + e.f21 * e.le2 * e.nx2 + e.f31 * e.le3 * e.nx3 + e.f41 * e.le4 * e.nx4) / e.Ac + e.A66 * (e.f11 * e.le1 * e.ny1 + e.f21 * e.le2 * e.ny2 + e.f31 * e.le3 * e.ny3 + e.f41 * e.le4 * e.ny4) / e.Ac) * (e.f14 * e.le1 * e.nx1 + e.f24 * e.le2 * e.nx2 + e.f34 * e.le3 * e.nx3 + e.f44 * e.le4 * e.nx4) / e.Ac)),
  (e.i1 * 5 + 0, e.i4 * 5 + 3, e.Ac * ((e.B11 * (e.f11 * e.le1 * e.nx1 + e.f21 * e.le2 * e.nx2 + e.f31 * e.le3 * e.nx3 + e.f41 * e.le4 * e.nx4) / e.Ac + e.B16 * (e.f11 * e.le1 * e.ny1 + e.f21 * e.le2 * e.ny2 + e.f31 * e.le3 * e.ny3 + e.f41 * e.le4 * e.ny4) / e.Ac) * (e.f14 * e.le1 * e.nx1 + e.f24 * e.le2 * e.nx2 + e.f34 * e.le3 * e.nx3 + e.f44 * e.le4 * e.nx4) / e.Ac + (e.B16 * (e.f11 * e.le1 * e.nx1 + e.f21 * e.le2 * e.nx2 + e.f31 * e.le3 * e.nx3 + e.f41 * e.le4 * e.nx4) / e.Ac + e.B66 * (e.f11 * e.le1 * e.ny1 + e.f21 * e.le2 * e.ny2 + e.f31 * e.le3 * e.ny3 + e.f41 * e.le4 * e.ny4) / e.Ac) * (e.f14 * e.le1 * e.ny1 + e.f24 * e.le2 * e.ny2 + e.f34 * e.le3 * e.ny3 + e.f44 * e.le4 * e.ny4) / e.Ac)),
  (e.i1 * 5 + 0, e.i4 * 5 + 4, e.Ac * ((e.B12 * (e.f11 * e.le1 * e.nx1 + e.f21 * e.le2 * e.nx2 + e.f31 * e.le3 * e.nx3 + e.f41 * e.le4 * e.nx4) / e.Ac + e.B26 * (e.f11 * e.le1 * e.ny1 + e.f21 * e.le2 * e.ny2 + e.f31 * e.le3 * e.ny3 + e.f41 * e.le4 * e.ny4) / e.Ac) * (e.f14 * e.le1 * e.ny1 + e.f24 * e.le2 * e.ny2 + e.f34 * e.le3 * e.ny3 + e.f44 * e.le4 * e.ny4) / e.Ac + (e.B16 * (e.f11 * e.le1 * e.nx1 + e.f21 * e.le2 * e.nx2 + e.f31 * e.le3 * e.nx3 + e.f41 * e.le4 * e.nx4) / e.Ac + e.B66 * (e.f11 * e.le1 * e.ny1 + e.f21 * e.le2 * e.ny2 + e.f31 * e.le3 * e.ny3 + e.f41 * e.le4 * e.ny4) / e.Ac) * (e.f14 * e.le1 * e.nx1 + e.f24 * e.le2 * e.nx2 + e.f34 * e.le3 * e.nx3 + e.f44 * e.le4 * e.nx4) / e.Ac))]

/-- meshless/espim/plate2d_calc_k0.py:269-284 -/
def k0_i1_1 (e : K0Env K) : List (ℤ × ℤ × K) := [
  (e.i1 * 5 + 1, e.i1 * 5 + 0, e.Ac * ((e.A12 * (e.f11 * e.le1 * e.ny1 + e.f21 * e.le2 * e.ny2 + e.f31 * e.le3 * e.ny3 + e.f41 * e.le4 * e.ny4) / e.Ac + e.A16 * (e.f11 * e.le1 * e.nx1 + e.f21 * e.le2 * e.nx2 + e.f31 * e.le3 * e.nx3 + e.f41 * e.le4 * e.nx4) / e.Ac) * (e.f11 * e.le1 * e.nx1 + e.f21 * e.le2 * e.nx2 + e.f31 * e.le3 * e.nx3 + e.f41 * e.le4 * e.nx4) / e.Ac + (e.A26 * (e.f11 * e.le1 * e.ny1 + e.f21 * e.le2 * e.ny2 + e.f31 * e.le3 * e.ny3 + e.f41 * e.le4 * e.ny4) / e.Ac + e.A66 * (e.f11 * e.le1 * e.nx1 + e.f21 * e.le2 * e.nx2 + e.f31 * e.le3 * e.nx3 + e.f41 * e.le4 * e.nx4) / e.Ac) * (e.f11 * e.le1 * e.ny1 + e.f21 * e.le2 * e.ny2 + e.f31 * e.le3 * e.ny3 + e.f41 * e.le4 * e.ny4) / e.Ac)),
  (e.i1 * 5 + 1, e.i1 * 5 + 1, e.Ac * ((e.A22 * (e.f11 * e.le1 * e.ny1 + e.f21 * e.le2 * e.ny2 + e.f31 * e.le3 * e.ny3 + e.f41 * e.le4 * e.ny4) / e.Ac + e.A26 * (e.f11 * e.le1 * e.nx1 + e.f21 * e.le2 * e.nx2 + e.f31 * e.le3 * e.nx3 + e.f41 * e.le4 * e.nx4) / e.Ac) * (e.f11 * e.le1 * e.ny1 + e.f21 * e.le2 * e.ny2 + e.f31 * e.le3 * e.ny3 + e.f41 * e.le4 * e.ny4) / e.Ac + (e.A26 * (e.f11 * e.le1 * e.ny1 + e.f21 * e.le2 * e.ny2 + e.f31 * e.le3 * e.ny3 + e.f41 * e.le4 * e.ny4) / e.Ac + e.A66 * (e.f11 * e.le1 * e.nx1 + e.f21 * e.le2 * e.nx2 + e.f31 * e.le3 * e.nx3 + e.f41 * e.le4 * e.nx4) / e.Ac) * (e.f11 * e.le1 * e.nx1 + e.f21 * e.le2 * e.nx2 + e.f31 * e.le3 * e.nx3 + e.f41 * e.le4 * e.nx4) / e.Ac)),
  (e.i1 * 5 + 1, e.i1 * 5 + 3, e.Ac * ((e.B12 * (e.f11 * e.le1 * e.ny1 + e.f21 * e.le2 * e.ny2 + e.f31 * e.le3 * e.ny3 + e.f41 * e.le4 * e.ny4) / e.Ac + e.B16 * (e.f11 * e.le1 * e.nx1 + e.f21 * e.le2 * e.nx2 + e.f31 * e.le3 * e.nx3 + e.f41 * e.le4 * e.nx4) / e.Ac) * (e.f11 * e.le1 * e.nx1 + e.f21 * e.le2 * e.nx2 + e.f31 * e.le3 * e.nx3 + e.f41 * e.le4 * e.nx4) / e.Ac + (e.B26 * (e.f11 * e.le1 * e.ny1 + e.f21 * e.le2 * e.ny2 + e.f31 * e.le3 * e.ny3 + e.f41 * e.le4 * e.ny4) / e.Ac + e.B66 * (e.f11 * e.le1 * e.nx1 + e.f21 * e.le2 * e.nx2 + e.f31 * e.le3 * e.nx3 + e.f41 * e.le4 * e.nx4) / e.Ac) * (e.f11 * e.le1 * e.ny1 + e.f21 * e.le2 * e.ny2 + e.f31 * e.le3 * e.ny3 + e.f41 * e.le4 * e.ny4) / e.Ac)),
  (e.i1 * 5 + 1, e.i1 * 5 + 4, e.Ac * ((e.B22 * (e.f11 * e.le1 * e.ny1 + e.f21 * e.le2 * e.ny2 + e.f31 * e.le3 * e.ny3 + e.f41 * e.le4 * e.ny4) / e.Ac + e.B26 * (e.f11 * e.le1 * e.nx1 + e.f21 * e.le2 * e.nx2 + e.f31 * e.le3 * e.nx3 + e.f41 * e.le4 * e.nx4) / e.Ac) * (e.f11 * e.le1 * e.ny1 + e.f21 * e.le2 * e.ny2 + e.f31 * e.le3 * e.ny3 + e.f41 * e.le4 * e.ny4) / e.Ac + (e.B26 * (e.f11 * e.le1 * e.ny1 + e.f21 * e.le2 * e.ny2 + e.f31 * e.le3 * e.ny3 + e.f41 * e.le4 * e.ny4) / e.Ac + e.B66 * (e.f11 * e.le1 * e.nx1 + e.f21 * e.le2 * e.nx2 + e.f31 * e.le3 * e.nx3 + e.f41 * e.le4 * e.nx4) / e.Ac) * (e.f11 * e.le1 * e.nx1 + e.f21 * e.le2 * e.nx2 + e.f31 * e.le3 * e.nx3 + e.f41 * e.le4 * e.nx4) / e.Ac)),
  (e.i1 * 5 + 1, e.i2 * 5 + 0, e.Ac * ((e.A12 * (e.f11 * e.le1 * e.ny1 + e.f21 * e.le2 * e.ny2 + e.f31 * e.le3 * e.ny3 + e.f41 * e.le4 * e.ny4) / e.Ac + e.A16 * (e.f11 * e.le1 * e.nx1 + e.f21 * e.le2 * e.nx2 + e.f31 * e.le3 * e.nx3 + e.f41 * e.le4 * e.nx4) / e.Ac) * (e.f12 * e.le1 * e.nx1 + e.f22 * e.le2 * e.nx2 + e.f32 * e.le3 * e.nx3 + e.f42 * e.le4 * e.nx4) / e.Ac + (e.A26 * (e.f11 * e.le1 * e.ny1 + e.f21 * e.le2 * e.ny2 + e.f31 * e.le3 * e.ny3 + e.f41 * e.le4 * e.ny4) / e.Ac + e.A66 * (e.f11 * e.le1 * e.nx1 + e.f21 * e.le2 * e.nx2 + e.f31 * e.le3 * e.nx3 + e.f41 * e.le4 * e.nx4) / e.Ac) * (e.f12 * e.le1 * e.ny1 + e.f22 * e.le2 * e.ny2 + e.f32 * e.le3 * e.ny3 + e.f42 * e.le4 * e.ny4) / e.Ac)),
  (e.i1 * 5 + 1, e.i2 * 5 + 1, e.Ac * ((e.A22 * (e.f11 * e.le1 * e.ny1 + e.f21 * e.le2 * e.ny2 + e.f31 * e.le3 * e.ny3 + e.f41 * e.le4 * e.ny4) / e.Ac + e.A26 * (e.f11 * e.le1 * e.nx1 + e.f21 * e.le2 * e.nx2 + e.f31 * e.le3 * e.nx3 + e.f41 * e.le4 * e.nx4) / e.Ac) * (e.f12 * e.le1 * e.ny1 + e.f22 * e.le2 * e.ny2 + e.f32 * e.le3 * e.ny3 + e.f42 * e.le4 * e.ny4) / e.Ac + (e.A26 * (e.f11 * e.le1 * e.ny1 + e.f21 * e.le2 * e.ny2 + e.f31 * e.le3 * e.ny3 + e.f41 * e.le4 * e.ny4) / e.Ac + e.A66 * (e.f11 * e.le1 * e.nx1 + e.f21 * e.le2 * e.nx2 + e.f31 * e.le3 * e.nx3 + e.f41 * e.le4 * e.nx4) / e.Ac) * (e.f12 * e.le1 * e.nx1 + e.f22 * e.le2 * e.nx2 + e.f32 * e.le3 * e.nx3 + e.f42 * e.le4 * e.nx4) / e.Ac)),
  (e.i1 * 5 + 1, e.i2 * 5 + 3, e.Ac * ((e.B12 * (e.f11 * e.le1 * e.ny1 + e.f21 * e.le2 * e.ny2 + e.f31 * e.le3 * e.ny3 + e.f41 * e.le4 * e.ny4) / e.Ac + e.B16 * (e.f11 * e.le1 * e.nx1 + e.f21 * e.le2 * e.nx2 + e.f31 * e.le3 * e.nx3 + e.f41 * e.le4 * e.nx4) / e.Ac) * (e.f12 * e.le1 * e.nx1 + e.f22 * e.le2 * e.nx2 + e.f32 * e.le3 * e.nx3 + e.f42 * e.le4 * e.nx4) / e.Ac + (e.B26 * (e.f11 * e.le1 * e.ny1 + e.f21 * e.le2 * e.ny2 + e.f31 * e.le3 * e.ny3 + e.f41 * e.le4 * e.ny4) / e.Ac + e.B66 * (e.f11 * e.le1 * e.nx1 + e.f21 * e.le2 * e.nx2 + e.f31 * e.le3 * e.nx3 + e.f41 * e.le4 * e.nx4) / e.Ac) * (e.f12 * e.le1 * e.ny1 + e.f22 * e.le2 * e.ny2 + e.f32 * e.le3 * e.ny3 + e.f42 * e.le4 * e.ny4) / e.Ac)),
  (e.i1 * 5 + 1, e.i2 * 5 + 4, e.Ac * ((e.B22 * (e.f11 * e.le1 * e.ny1 + e.f21 * e.le2 * e.ny2 + e.f31 * e.le3 * e.ny3 + e.f41 * e.le4 * e.ny4) / e.Ac + e.B26 * (e.f11 * e.le1 * e.nx1 + e.f21 * e.le2 * e.nx2 + e.f31 * e.le3 * e.nx3 + e.f41 * e.le4 * e.nx4) / e.Ac) * (e.f12 * e.le1 * e.ny1 + e.f22 * e.le2 * e.ny2 + e.f32 * e.le3 * e.ny3 + e.f42 * e.le4 * e.ny4) / e.Ac + (e.B26 * (e.f11 * e.le1 * e.ny1 + e.f21 * e.le2 * e.ny2 + e.f31 * e.le3 * e.ny3 + e.f41 * e.le4 * e.ny4) / e.Ac + e.B66 * (e.f11 * e.le1 * e.nx1 + e.f21 * e.le2 * e.nx2 + e.f31 * e.le3 * e.nx3 + e.f41 * e.le4 * e.nx4) / e.Ac) * (e.f12 * e.le1 * e.nx1 + e.f22 * e.le2 * e.nx2 + e.f32 * e.le3 * e.nx3 + e.f42 * e.le4 * e.nx4) / e.Ac)),
  (e.i1 * 5 + 1, e.i3 * 5 + 0, e.Ac * ((e.A12 * (e.f11 * e.le1 * e.ny1 + e.f21 * e.le2 * e.ny2 + e.f31 * e.le3 * e.ny3 + e.f41 * e.le4 * e.ny4) / e.Ac + e.A16 * (e.f11 * e.le1 * e.nx1 + e.f21 * e.le2 * e.nx2 + e.f31 * e.le3 * e.nx3 + e.f41 * e.le4 * e.nx4) / e.Ac) * (e.f13 * e.le1 * e.nx1 + e.f23 * e.le2 * e.nx2 + e.f33 * e.le3 * e.nx3 + e.f43 * e.le4 * e.nx4) / e.Ac + (e.A26 * (e.f11 * e.le1 * e.ny1 + e.f21 * e.le2 * e.ny2 + e.f31 * e.le3 * e.ny3 + e.f41 * e.le4 * e.ny4) / e.Ac + e.A66 * (e.f11 * e.le1 * e.nx1 + e.f21 * e.le2 * e.nx2 + e.f31 * e.le3 * e.nx3 + e.f41 * e.le4 * e.nx4) / e.Ac) * (e.f13 * e.le1 * e.ny1 + e.f23 * e.le2 * e.ny2 + e.f33 * e.le3 * e.ny3 + e.f43 * e.le4 * e.ny4) / e.Ac)),
  (e.i1 * 5 + 1, e.i3 * 5 + 1, e.Ac * ((e.A22 * (e.f11 * e.le1 * e.ny1 + e.f21 * e.le2 * e.ny2 + e.f31 * e.le3 * e.ny3 + e.f41 * e.le4 * e.ny4) / e.Ac + e.A26 * (e.f11 * e.le1 * e.nx1 + e.f21 * e.le2 * e.nx2 + e.f31 * e.le3 * e.nx3 + e.f41 * e.le4 * e.nx4) / e.Ac) * (e.f13 * e.le1 * e.ny1 + e.f23 * e.le2 * e.ny2 + e.f33 * e.le3 * e.ny3 + e.f43 * e.le4 * e.ny4) / e.Ac + (e.A26 * (e.f11 * e.le1 * e.ny1 + e.f21 * e.le2 * e.ny2 + e.f31 * e.le3 * e.ny3 + e.f41 * e.le4 * e.ny4) / e.Ac + e.A66 * (e.f11 * e.le1 * e.nx1 + e.f21 * e.le2 * e.nx2 + e.f31 * e.le3 * e.nx3 + e.f41 * e.le4 * e.nx4) / e.Ac) * (e.f13 * e.le1 * e.nx1 + e.f23 * e.le2 * e.nx2 + e.f33 * e.le3 * e.nx3 + e.f43 * e.le4 * e.nx4) / e.Ac)),
  (e.i1 * 5 + 1, e.i3 * 5 + 3, e.Ac * ((e.B12 * (e.f11 * e.le1 * e.ny1 + e.f21 * e.le2 * e.ny2 + e.f31 * e.le3 * e.ny3 + e.f41 * e.le4 * e.ny4) / e.Ac + e.B16 * (e.f11 * e.le1 * e.nx1 + e.f21 * e.le2 * e.nx2 + e.f31 * e.le3 * e.nx3 + e.f41 * e.le4 * e.nx4) / e.Ac) * (e.f13 * e.le1 * e.nx1 + e.f23 * e.le2 * e.nx2 + e.f33 * e.le3 * e.nx3 + e.f43 * e.le4 * e.nx4) / e.Ac + (e.B26 * (e.f11 * e.le1 * e.ny1 + e.f21 * e.le2 * e.ny2 + e.f31 * e.le3 * e.ny3 + e.f41 * e.le4 * e.ny4) / e.Ac + e.B66 * (e.f11 * e.le1 * e.nx1 + e.f21 * e.le2 * e.nx2 + e.f31 * e.le3 * e.nx3 + e.f41 * e.le4 * e.nx4) / e.Ac) * (e.f13 * e.le1 * e.ny1 + e.f23 * e.le2 * e.ny2 + e.f33 * e.le3 * e.ny3 + e.f43 * e.le4 * e.ny4) / e.Ac)),
  (e.i1 * 5 + 1, e.i3 * 5 + 4, e.Ac * ((e.B22 * (e.f11 * e.le1 * e.ny1 + e.f21 * e.le2 * e.ny2 + e.f31 * e.le3 * e.ny3 + e.f41 * e.le4 * e.ny4) / e.Ac + e.B26 * (e.f11 * e.le1 * e.nx1 + e.f21 * e.le2 * e.nx2 + e.f31 * e.le3 * e.nx3 + e.f41 * e.le4 * e.nx4) / e.Ac) * (e.f13 * e.le1 * e.ny1 + e.f23 * e.le2 * e.ny2 + e.f33 * e.le3 * e.ny3 + e.f43 * e.le4 * e.ny4) / e.Ac + (e.B26 * (e.f11 * e.le1 * e.ny1 + e.f21 * e.le2 * e.ny2 + e.f31 * e.le3 * e.ny3 + e.f41 * e.le4 * e.ny4) / e.Ac + e.B66 * (e.f11 * e.le1 * e.nx1 + e.f21 * e.le2 * e.nx2 + e.f31 * e.le3 * e.nx3 + e.f41 * e.le4 * e.nx4) / e.Ac) * (e.f13 * e.le1 * e.nx1 + e.f23 * e.le2 * e.nx2 + e.f33 * e.le3 * e.nx3 + e.f43 * e.le4 * e.nx4) / e.Ac)),
  (e.i1 * 5 + 1, e.i4 * 5 + 0, e.Ac * ((e.A12 * (e.f11 * e.le1 * e.ny1 + e.f21 * e.le2 * e.ny2 + e.f31 * e.le3 * e.ny3 + e.f41 * e.le4 * e.ny4) / e.Ac + e.A16 * (e.f11 * e.le1 * e.nx1 + e.f21 * e.le2 * e.nx2 + e.f31 * e.le3 * e.nx3 + e.f41 * e.le4 * e.nx4) / e.Ac) * (e.f14 * e.le1 * e.nx1 + e.f24 * e.le2 * e.nx2 + e.f34 * e.le3 * e.nx3 + e.f44 * e.le4 * e.nx4) / e.Ac + (e.A26 * (e.f11 * e.le1 * e.ny1 + e.f21 * e.le2 * e.ny2 + e.f31 * e.le3 * e.ny3 + e.f41 * e.le4 * e.ny4) / e.Ac + e.A66 * (e.f11 * e.le1 * e.nx1 + e.f21 * e.le2 * e.nx2 + e.f31 * e.le3 * e.nx3 + e.f41 * e.le4 * e.nx4) / e.Ac) * (e.f14 * e.le1 * e.ny1 + e.f24 * e.le2 * e.ny2 + e.f34 * e.le3 * e.ny3 + e.f44 * e.le4 * e.ny4) / e.Ac)),
  (e.i1 * 5 + 1, e.i4 * 5 + 1, e.Ac * ((e.A22 * (e.f11 * e.le1 * e.ny1 + e.f21 * e.le2 * e.ny2 + e.f31 * e.le3 * e.ny3 + e.f41 * e.le4 * e.ny4) / e.Ac + e.A26 * (e.f11 * e.le1 * e.nx1 + e.f21 * e.le2 * e.nx2 + e.f31 * e.le3 * e.nx3 + e.f41 * e.le4 * e.nx4) / e.Ac) * (e.f14 * e.le1 * e.ny1 + e.f24 * e.le2 * e.ny2 + e.f34 * e.le3 * e.ny3 + e.f44 * e.le4 * e.ny4) / e.Ac + (e.A26 * (e.f11 * e.le1 * e.ny1 + e.f21 * e.le2 * e.ny2 + e.f31 * e.le3 * e.ny3 + e.f41 * e.le4 * e.ny4) / e.Ac + e.A66 * (e.f11 * e.le1 * e.nx1 + e.f21 * e.le2 * e.nx2 + e.f31 * e.le3 * e.nx3 + e.f41 * e.le4 * e.nx4) / e.Ac) * (e.f14 * e.le1 * e.nx1 + e.f24 * e.le2 * e.nx2 + e.f34 * e.le3 * e.nx3 + e.f44 * e.le4 * e.nx4) / e.Ac)),
  (e.i1 * 5 + 1, e.i4 * 5 + 3, e.Ac * ((e.B12 * (e.f11 * e.le1 * e.ny1 + e.f21 * e.le2 * e.ny2 + e.f31 * e.le3 * e.ny3 + e.f41 * e.le4 * e.ny4) / e.Ac + e.B16 * (e.f11 * e.le1 * e.nx1 + e.f21 * e.le2 * e.nx2 + e.f31 * e.le3 * e.nx3 + e.f41 * e.le4 * e.nx4) / e.Ac) * (e.f14 * e.le1 * e.nx1 + e.f24 * e.le2 * e.nx2 + e.f34 * e.le3 * e.nx3 + e.f44 * e.le4 * e.nx4) / e.Ac + (e.B26 * (e.f11 * e.le1 * e.ny1 + e.f21 * e.le2 * e.ny2 + e.f31 * e.le3 * e.ny3 + e.f41 * e.le4 * e.ny4) / e.Ac + e.B66 * (e.f11 * e.le1 * e.nx1 + e.f21 * e.le2 * e.nx2 + e.f31 * e.le3 * e.nx3 + e.f41 * e.le4 * e.nx4) / e.Ac) * (e.f14 * e.le1 * e.ny1 + e.f24 * e.le2 * e.ny2 + e.f34 * e.le3 * e.ny3 + e.f44 * e.le4 * e.ny4) / e.Ac)),
  (e.i1 * 5 + 1, e.i4 * 5 + 4, e.Ac * ((e.B22 * (e.f11 * e.le1 * e.ny1 + e.f21 * e.le2 * e.ny2 + e.f31 * e.le3 * e.ny3 + e.f41 * e.le4 * e.ny4) / e.Ac + e.B26 * (e.f11 * e.le1 * e.nx1 + e.f21 * e.le2 * e.nx2 + e.f31 * e.le3 * e.nx3 + e.f41 * e.le4 * e.nx4) / e.Ac) * (e.f14 * e.le1 * e.ny1 + e.f24 * e.le2 * e.ny2 + e.f34 * e.le3 * e.ny3 + e.f44 * e.le4 * e.ny4) / e.Ac + (e.B26 * (e.f11 * e.le1 * e.ny1 + e.f21 * e.le2 * e.ny2 + e.f31 * e.le3 * e.ny3 + e.f41 * e.le4 * e.ny4) / e.Ac + e.B66 * (e.f11 * e.le1 * e.nx1 + e.f21 * e.le2 * e.nx2 + e.f31 * e.le3 * e.nx3 + e.f41 * e.le4 * e.nx4) / e.Ac) * (e.f14 * e.le1 * e.nx1 + e.f24 * e.le2 * e.nx2 + e.f34 * e.le3 * e.nx3 + e.f44 * e.le4 * e.nx4) / e.Ac))]

/-- meshless/espim/plate2d_calc_k0.py:285-300 -/
def k0_i1_3 (e : K0Env K) : List (ℤ × ℤ × K) := [
  (e.i1 * 5 + 3, e.i1 * 5 + 0, e.Ac * ((e.B11 * (e.f11 * e.le1 * e.nx1 + e.f21 * e.le2 * e.nx2 + e.f31 * e.le3 * e.nx3 + e.f41 * e.le4 * e.nx4) / e.Ac + e.B16 * (e.f11 * e.le1 * e.ny1 + e.f21 * e.le2 * e.ny2 + e.f31 * e.le3 * e.ny3 + e.f41 * e.le4 * e.ny4) / e.Ac) * (e.f11 * e.le1 * e.nx1 + e.f21 * e.le2 * e.nx2 + e.f31 * e.le3 * e.nx3 + e.f41 * e.le4 * e.nx4) / e.Ac + (e.B16 * (e.f11 * e.le1 * e.nx1 + e.f21 * e.le2 * e.nx2 + e.f31 * e.le3 * e.nx3 + e.f41 * e.le4 * e.nx4) / e.Ac + e.B66 * (e.f11 * e.le1 * e.ny1 + e.f21 * e.le2 * e.ny2 + e.f31 * e.le3 * e.ny3 + e.f41 * e.le4 * e.ny4) / e.Ac) * (e.f11 * e.le1 * e.ny1 + e.f21 * e.le2 * e.ny2 + e.f31 * e.le3 * e.ny3 + e.f41 * e.le4 * e.ny4) / e.Ac)),
  (e.i1 * 5 + 3, e.i1 * 5 + 1, e.Ac * ((e.B12 * (e.f11 * e.le1 * e.nx1 + e.f21 * e.le2 * e.nx2 + e.f31 * e.le3 * e.nx3 + e.f41 * e.le4 * e.nx4) / e.Ac + e.B26 * (e.f11 * e.le1 * e.ny1 + e.f21 * e.le2 * e.ny2 + e.f31 * e.le3 * e.ny3 + e.f41 * e.le4 * e.ny4) / e.Ac) * (e.f11 * e.le1 * e.ny1 + e.f21 * e.le2 * e.ny2 + e.f31 * e.le3 * e.ny3 + e.f41 * e.le4 * e.ny4) / e.Ac + (e.B16 * (e.f11 * e.le1 * e.nx1 + e.f21 * e.le2 * e.nx2 + e.f31 * e.le3 * e.nx3 + e.f41 * e.le4 * e.nx4) / e.Ac + e.B66 * (e.f11 * e.le1 * e.ny1 + e.f21 * e.le2 * e.ny2 + e.f31 * e.le3 * e.ny3 + e.f41 * e.le4 * e.ny4) / e.Ac) * (e.f11 * e.le1 * e.nx1 + e.f21 * e.le2 * e.nx2 + e.f31 * e.le3 * e.nx3 + e.f41 * e.le4 * e.nx4) / e.Ac)),
  (e.i1 * 5 + 3, e.i1 * 5 + 3, e.Ac * ((e.D11 * (e.f11 * e.le1 * e.nx1 + e.f21 * e.le2 * e.nx2 + e.f31 * e.le3 * e.nx3 + e.f41 * e.le4 * e.nx4) / e.Ac + e.D16 * (e.f11 * e.le1 * e.ny1 + e.f21 * e.le2 * e.ny2 + e.f31 * e.le3 * e.ny3 + e.f41 * e.le4 * e.ny4) / e.Ac) * (e.f11 * e.le1 * e.nx1 + e.f21 * e.le2 * e.nx2 + e.f31 * e.le3 * e.nx3 + e.f41 * e.le4 * e.nx4) / e.Ac + (e.D16 * (e.f11 * e.le1 * e.nx1 + e.f21 * e.le2 * e.nx2 + e.f31 * e.le3 * e.nx3 + e.f41 * e.le4 * e.nx4) / e.Ac + e.D66 * (e.f11 * e.le1 * e.ny1 + e.f21 * e.le2 * e.ny2 + e.f31 * e.le3 * e.ny3 + e.f41 * e.le4 * e.ny4) / e.Ac) * (e.f11 * e.le1 * e.ny1 + e.f21 * e.le2 * e.ny2 + e.f31 * e.le3 * e.ny3 + e.f41 * e.le4 * e.ny4) / e.Ac)),
  (e.i1 * 5 + 3, e.i1 * 5 + 4, e.Ac * ((e.D12 * (e.f11 * e.le1 * e.nx1 + e.f21 * e.le2 * e.nx2 + e.f31 * e.le3 * e.nx3 + e.f41 * e.le4 * e.nx4) / e.Ac + e.D26 * (e.f11 * e.le1 * e.ny1 + e.f21 * e.le2 * e.ny2 + e.f31 * e.le3 * e.ny3 + e.f41 * e.le4 * e.ny4) / e.Ac) * (e.f11 * e.le1 * e.ny1 + e.f21 * e.le2 * e.ny2 + e.f31 * e.le3 * e.ny3 + e.f41 * e.le4 * e.ny4) / e.Ac + (e.D16 * (e.f11 * e.le1 * e.nx1 + e.f21 * e.le2 * e.nx2 + e.f31 * e.le3 * e.nx3 + e.f41 * e.le4 * e.nx4) / e.Ac + e.D66 * (e.f11 * e.le1 * e.ny1 + e.f21 * e.le2 * e.ny2 + e.f31 * e.le3 * e.ny3 + e.f41 * e.le4 * e.ny4) / e.Ac) * (e.f11 * e.le1 * e.nx1 + e.f21 * e.le2 * e.nx2 + e.f31 * e.le3 * e.nx3 + e.f41 * e.le4 * e.nx4) / e.Ac)),
  (e.i1 * 5 + 3, e.i2 * 5 + 0, e.Ac * ((e.B11 * (e.f11 * e.le1 * e.nx1 + e.f21 * e.le2 * e.nx2 + e.f31 * e.le3 * e.nx3 + e.f41 * e.le4 * e.nx4) / e.Ac + e.B16 * (e.f11 * e.le1 * e.ny1 + e.f21 * e.le2 * e.ny2 + e.f31 * e.le3 * e.ny3 + e.f41 * e.le4 * e.ny4) / e.Ac) * (e.f12 * e.le1 * e.nx1 + e.f22 * e.le2 * e.nx2 + e.f32 * e.le3 * e.nx3 + e.f42 * e.le4 * e.nx4) / e.Ac + (e.B16 * (e.f11 * e.le1 * e.nx1 + e.f21 * e.le2 * e.nx2 + e.f31 * e.le3 * e.nx3 + e.f41 * e.le4 * e.nx4) / e.Ac + e.B66 * (e.f11 * e.le1 * e.ny1 + e.f21 * e.le2 * e.ny2 + e.f31 * e.le3 * e.ny3 + e.f41 * e.le4 * e.ny4) / e.Ac) * (e.f12 * e.le1 * e.ny1 + e.f22 * e.le2 * e.ny2 + e.f32 * e.le3 * e.ny3 + e.f42 * e.le4 * e.ny4) / e.Ac)),
  (e.i1 * 5 + 3, e.i2 * 5 + 1, e.Ac * ((e.B12 * (e.f11 * e.le1 * e.nx1 + e.f21 * e.le2 * e.nx2 + e.f31 * e.le3 * e.nx3 + e.f41 * e.le4 * e.nx4) / e.Ac + e.B26 * (e.f11 * e.le1 * e.ny1 + e.f21 * e.le2 * e.ny2 + e.f31 * e.le3 * e.ny3 + e.f41 * e.le4 * e.ny4) / e.Ac) * (e.f12 * e.le1 * e.ny1 + e.f22 * e.le2 * e.ny2 + e.f32 * e.le3 * e.ny3 + e.f42 * e.le4 * e.ny4) / e.Ac + (e.B16 * (e.f11 * e.le1 * e.nx1 + e.f21 * e.le2 * e.nx2 + e.f31 * e.le3 * e.nx3 + e.f41 * e.le4 * e.nx4) / e.Ac + e.B66 * (e.f11 * e.le1 * e.ny1 + e.f21 * e.le2 * e.ny2 + e.f31 * e.le3 * e.ny3 + e.f41 * e.le4 * e.ny4) / e.Ac) * (e.f12 * e.le1 * e.nx1 + e.f22 * e.le2 * e.nx2 + e.f32 * e.le3 * e.nx3 + e.f42 * e.le4 * e.nx4) / e.Ac)),
  (e.i1 * 5 + 3, e.i2 * 5 + 3, e.Ac * ((e.D11 * (e.f11 * e.le1 * e.nx1 + e.f21 * e.le2 * e.nx2 + e.f31 * e.le3 * e.nx3 + e.f41 * e.le4 * e.nx4) / e.Ac + e.D16 * (e.f11 * e.le1 * e.ny1 + e.f21 * e.le2 * e.ny2 + e.f31 * e.le3 * e.ny3 + e.f41 * e.le4 * e.ny4) / e.Ac) * (e.f12 * e.le1 * e.nx1 + e.f22 * e.le2 * e.nx2 + e.f32 * e.le3 * e.nx3 + e.f42 * e.le4 * e.nx4) / e.Ac + (e.D16 * (e.f11 * e.le1 * e.nx1 + e.f21 * e.le2 * e.nx2 + e.f31 * e.le3 * e.nx3 + e.f41 * e.le4 * e.nx4) / e.Ac + e.D66 * (e.f11 * e.le1 * e.ny1 + e.f21 * e.le2 * e.ny2 + e.f31 * e.le3 * e.ny3 + e.f41 * e.le4 * e.ny4) / e.Ac) * (e.f12 * e.le1 * e.ny1 + e.f22 * e.le2 * e.ny2 + e.f32 * e.le3 * e.ny3 + e.f42 * e.le4 * e.ny4) / e.Ac)),
  (e.i1 * 5 + 3, e.i2 * 5 + 4, e.Ac * ((e.D12 * (e.f11 * e.le1 * e.nx1 + e.f21 * e.le2 * e.nx2 + e.f31 * e.le3 * e.nx3 + e.f41 * e.le4 * e.nx4) / e.Ac + e.D26 * (e.f11 * e.le1 * e.ny1 + e.f21 * e.le2 * e.ny2 + e.f31 * e.le3 * e.ny3 + e.f41 * e.le4 * e.ny4) / e.Ac) * (e.f12 * e.le1 * e.ny1 + e.f22 * e.le2 * e.ny2 + e.f32 * e.le3 * e.ny3 + e.f42 * e.le4 * e.ny4) / e.Ac + (e.D16 * (e.f11 * e.le1 * e.nx1 + e.f21 * e.le2 * e.nx2 + e.f31 * e.le3 * e.nx3 + e.f41 * e.le4 * e.nx4) / e.Ac + e.D66 * (e.f11 * e.le1 * e.ny1 + e.f21 * e.le2 * e.ny2 + e.f31 * e.le3 * e.ny3 + e.f41 * e.le4 * e.ny4) / e.Ac) * (e.f12 * e.le1 * e.nx1 + e.f22 * e.le2 * e.nx2 + e.f32 * e.le3 * e.nx3 + e.f42 * e.le4 * e.nx4) / e.Ac)),
  (e.i1 * 5 + 3, e.i3 * 5 + 0, e.Ac * ((e.B11 * (e.f11 * e.le1 * e.nx1 + e.f21 * e.le2 * e.nx2 + e.f31 * e.le3 * e.nx3 + e.f41 * e.le4 * e.nx4) / e.Ac + e.B16 * (e.f11 * e.le1 * e.ny1 + e.f21 * e.le2 * e.ny2 + e.f31 * e.le3 * e.ny3 + e.f41 * e.le4 * e.ny4) / e.Ac) * (e.f13 * e.le1 * e.nx1 + e.f23 * e.le2 * e.nx2 + e.f33 * e.le3 * e.nx3 + e.f43 * e.le4 * e.nx4) / e.Ac + (e.B16 * (e.f11 * e.le1 * e.nx1 + e.f21 * e.le2 * e.nx2 + e.f31 * e.le3 * e.nx3 + e.f41 * e.le4 * e.nx4) / e.Ac + e.B66 * (e.f11 * e.le1 * e.ny1 + e.f21 * e.le2 * e.ny2 + e.f31 * e.le3 * e.ny3 + e.f41 * e.le4 * e.ny4) / e.Ac) * (e.f13 * e.le1 * e.ny1 + e.f23 * e.le2 * e.ny2 + e.f33 * e.le3 * e.ny3 + e.f43 * e.le4 * e.ny4) / e.Ac)),
  (e.i1 * 5 + 3, e.i3 * 5 + 1, e.Ac * ((e.B12 * (e.f11 * e.le1 * e.nx1 + e.f21 * e.le2 * e.nx2 + e.f31 * e.le3 * e.nx3 + e.f41 * e.le4 * e.nx4) / e.Ac + e.B26 * (e.f11 * e.le1 * e.ny1 + e.f21 * e.le2 * e.ny2 + e.f31 * e.le3 * e.ny3 + e.f41 * e.le4 * e.ny4) / e.Ac) * (e.f13 * e.le1 * e.ny1 + e.f23 * e.le2 * e.ny2 + e.f33 * e.le3 * e.ny3 + e.f43 * e.le4 * e.ny4) / e.Ac + (e.B16 * (e.f11 * e.le1 * e.nx1 + e.f21 * e.le2 * e.nx2 + e.f31 * e.le3 * e.nx3 + e.f41 * e.le4 * e.nx4) / e.Ac + e.B66 * (e.f11 * e.le1 * e.ny1 + e.f21 * e.le2 * e.ny2 + e.f31 * e.le3 * e.ny3 + e.f41 * e.le4 * e.ny4) / e.Ac) * (e.f13 * e.le1 * e.nx1 + e.f23 * e.le2 * e.nx2 + e.f33 * e.le3 * e.nx3 + e.f43 * e.le4 * e.nx4) / e.Ac)),
  (e.i1 * 5 + 3, e.i3 * 5 + 3, e.Ac * ((e.D11 * (e.f11 * e.le1 * e.nx1 + e.f21 * e.le2 * e.nx2 + e.f31 * e.le3 * e.nx3 + e.f41 * e.le4 * e.nx4) / e.Ac + e.D16 * (e.f11 * e.le1 * e.ny1 + e.f21 * e.le2 * e.ny2 + e.f31 * e.le3 * e.ny3 + e.f41 * e.le4 * e.ny4) / e.Ac) * (e.f13 * e.le1 * e.nx1 + e.f23 * e.le2 * e.nx2 + e.f33 * e.le3 * e.nx3 + e.f43 * e.le4 * e.nx4) / e.Ac + (e.D16 * (e.f11 * e.le1 * e.nx1 + e.f21 * e.le2 * e.nx2 + e.f31 * e.le3 * e.nx3 + e.f41 * e.le4 * e.nx4) / e.Ac + e.D66 * (e.f11 * e.le1 * e.ny1 + e.f21 * e.le2 * e.ny2 + e.f31 * e.le3 * e.ny3 + e.f41 * e.le4 * e.ny4) / e.Ac) * (e.f13 * e.le1 * e.ny1 + e.f23 * e.le2 * e.ny2 + e.f33 * e.le3 * e.ny3 + e.f43 * e.le4 * e.ny4) / e.Ac)),
  (e.i1 * 5 + 3, e.i3 * 5 + 4, e.Ac * ((e.D12 * (e.f11 * e.le1 * e.nx1 + e.f21 * e.le2 * e.nx2 + e.f31 * e.le3 * e.nx3 + e.f41 * e.le4 * e.nx4) / e.Ac + e.D26 * (e.f11 * e.le1 * e.ny1 + e.f21 * e.le2 * e.ny2 + e.f31 * e.le3 * e.ny3 + e.f41 * e.le4 * e.ny4) / e.Ac) * (e.f13 * e.le1 * e.ny1 + e.f23 * e.le2 * e.ny2 + e.f33 * e.le3 * e.ny3 + e.f43 * e.le4 * e.ny4) / e.Ac + (e.D16 * (e.f11 * e.le1 * e.nx1 + e.f21 * e.le2 * e.nx2 + e.f31 * e.le3 * e.nx3 + e.f41 * e.le4 * e.nx4) / e.Ac + e.D66 * (e.f11 * e.le1 * e.ny1 + e.f21 * e.le2 * e.ny2 + e.f31 * e.le3 * e.ny3 + e.f41 * e.le4 * e.ny4) / e.Ac) * (e.f13 * e.le1 * e.nx1 + e.f23 * e.le2 * e.nx2 + e.f33 * e.le3 * e.nx3 + e.f43 * e.le4 * e.nx4) / e.Ac)),
  (e.i1 * 5 + 3, e.i4 * 5 + 0, e.Ac * ((e.B11 * (e.f11 * e.le1 * e.nx1 + e.f21 * e.le2 * e.nx2 + e.f31 * e.le3 * e.nx3 + e.f41 * e.le4 * e.nx4) / e.Ac + e.B16 * (e.f11 * e.le1 * e.ny1 + e.f21 * e.le2 * e.ny2 + e.f31 * e.le3 * e.ny3 + e.f41 * e.le4 * e.ny4) / e.Ac) * (e.f14 * e.le1 * e.nx1 + e.f24 * e.le2 * e.nx2 + e.f34 * e.le3 * e.nx3 + e.f44 * e.le4 * e.nx4) / e.Ac + (e.B16 * (e.f11 * e.le1 * e.nx1 + e.f21 * e.le2 * e.nx2 + e.f31 * e.le3 * e.nx3 + e.f41 * e.le4 * e.nx4) / e.Ac + e.B66 * (e.f11 * e.le1 * e.ny1 + e.f21 * e.le2 * e.ny2 + e.f31 * e.le3 * e.ny3 + e.f41 * e.le4 * e.ny4) / e.Ac) * (e.f14 * e.le1 * e.ny1 + e.f24 * e.le2 * e.ny2 + e.f34 * e.le3 * e.ny3 + e.f44 * e.le4 * e.ny4) / e.Ac)),
  (e.i1 * 5 + 3, e.i4 * 5 + 1, e.Ac * ((e.B12 * (e.f11 * e.le1 * e.nx1 + e.f21 * e.le2 * e.nx2 + e.f31 * e.le3 * e.nx3 + e.f41 * e.le4 * e.nx4) / e.Ac + e.B26 * (e.f11 * e.le1 * e.ny1 + e.f21 * e.le2 * e.ny2 + e.f31 * e.le3 * e.ny3 + e.f41 * e.le4 * e.ny4) / e.Ac) * (e.f14 * e.le1 * e.ny1 + e.f24 * e.le2 * e.ny2 + e.f34 * e.le3 * e.ny3 + e.f44 * e.le4 * e.ny4) / e.Ac + (e.B16 * (e.f11 * e.le1 * e.nx1 + e.f21 * e.le2 * e.nx2 + e.f31 * e.le3 * e.nx3 + e.f41 * e.le4 * e.nx4) / e.Ac + e.B66 * (e.f11 * e.le1 * e.ny1 + e.f21 * e.le2 * e.ny2 + e.f31 * e.le3 * e.ny3 + e.f41 * e.le4 * e.ny4) / e.Ac) * (e.f14 * e.le1 * e.nx1 + e.f24 * e.le2 * e.nx2 + e.f34 * e.le3 * e.nx3 + e.f44 * e.le4 * e.nx4) / e.Ac)),
  (e.i1 * 5 + 3, e.i4 * 5 + 3, e.Ac * ((e.D11 * (e.f11 * e.le1 * e.nx1 + e.f21 * e.le2 * e.nx2 + e.f31 * e.le3 * e.nx3 + e.f41 * e.le4 * e.nx4) / e.Ac + e.D16 * (e.f11 * e.le1 * e.ny1 + e.f21 * e.le2 * e.ny2 + e.f31 * e.le3 * e.ny3 + e.f41 * e.le4 * e.ny4) / e.Ac) * (e.f14 * e.le1 * e.nx1 + e.f24 * e.le2 * e.nx2 + e.f34 * e.le3 * e.nx3 + e.f44 * e.le4 * e.nx4) / e.Ac + (e.D16 * (e.f11 * e.le1 * e.nx1 + e.f21 * e.le2 * e.nx2 + e.f31 * e.le3 * e.nx3 + e.f41 * e.le4 * e.nx4) / e.Ac + e.D66 * (e.f11 * e.le1 * e.ny1 + e.f21 * e.le2 * e.ny2 + e.f31 * e.le3 * e.ny3 + e.f41 * e.le4 * e.ny4) / e.Ac) * (e.f14 * e.le1 * e.ny1 + e.f24 * e.le2 * e.ny2 + e.f34 * e.le3 * e.ny3 + e.f44 * e.le4 * e.ny4) / e.Ac)),
  (e.i1 * 5 + 3, e.i4 * 5 + 4, e.Ac * ((e.D12 * (e.f11 * e.le1 * e.nx1 + e.f21 * e.le2 * e.nx2 + e.f31 * e.le3 * e.nx3 + e.f41 * e.le4 * e.nx4) / e.Ac + e.D26 * (e.f11 * e.le1 * e.ny1 + e.f21 * e.le2 * e.ny2 + e.f31 * e.le3 * e.ny3 + e.f41 * e.le4 * e.ny4) / e.Ac) * (e.f14 * e.le1 * e.ny1 + e.f24 * e.le2 * e.ny2 + e.f34 * e.le3 * e.ny3 + e.f44 * e.le4 * e.ny4) / e.Ac + (e.D16 * (e.f11 * e.le1 * e.nx1 + e.f21 * e.le2 * e.nx2 + e.f31 * e.le3 * e.nx3 + e.f41 * e.le4 * e.nx4) / e.Ac + e.D66 * (e.f11 * e.le1 * e.ny1 + e.f21 * e.le2 * e.ny2 + e.f31 * e.le3 * e.ny3 + e.f41 * e.le4 * e.ny4) / e.Ac) * (e.f14 * e.le1 * e.nx1 + e.f24 * e.le2 * e.nx2 + e.f34 * e.le3 * e.nx3 + e.f44 * e.le4 * e.nx4) / e.Ac))]

/-- meshless/espim/plate2d_calc_k0.py:301-316 -/
def k0_i1_4 (e : K0Env K) : List (ℤ × ℤ × K) := [
  (e.i1 * 5 + 4, e.i1 * 5 + 0, e.Ac * ((e.B12 * (e.f11 * e.le1 * e.ny1 + e.f21 * e.le2 * e.ny2 + e.f31 * e.le3 * e.ny3 + e.f41 * e.le4 * e.ny4) / e.Ac + e.B16 * (e.f11 * e.le1 * e.nx1 + e.f21 * e.le2 * e.nx2 + e.f31 * e.le3 * e.nx3 + e.f41 * e.le4 * e.nx4) / e.Ac) * (e.f11 * e.le1 * e.nx1 + e.f21 * e.le2 * e.nx2 + e.f31 * e.le3 * e.nx3 + e.f41 * e.le4 * e.nx4) / e.Ac + (e.B26 * (e.f11 * e.le1 * e.ny1 + e.f21 * e.le2 * e.ny2 + e.f31 * e.le3 * e.ny3 + e.f41 * e.le4 * e.ny4) / e.Ac + e.B66 * (e.f11 * e.le1 * e.nx1 + e.f21 * e.le2 * e.nx2 + e.f31 * e.le3 * e.nx3 + e.f41 * e.le4 * e.nx4) / e.Ac) * (e.f11 * e.le1 * e.ny1 + e.f21 * e.le2 * e.ny2 + e.f31 * e.le3 * e.ny3 + e.f41 * e.le4 * e.ny4) / e.Ac)),
  (e.i1 * 5 + 4, e.i1 * 5 + 1, e.Ac * ((e.B22 * (e.f11 * e.le1 * e.ny1 + e.f21 * e.le2 * e.ny2 + e.f31 * e.le3 * e.ny3 + e.f41 * e.le4 * e.ny4) / e.Ac + e.B26 * (e.f11 * e.le1 * e.nx1 + e.f21 * e.le2 * e.nx2 + e.f31 * e.le3 * e.nx3 + e.f41 * e.le4 * e.nx4) / e.Ac) * (e.f11 * e.le1 * e.ny1 + e.f21 * e.le2 * e.ny2 + e.f31 * e.le3 * e.ny3 + e.f41 * e.le4 * e.ny4) / e.Ac + (e.B26 * (e.f11 * e.le1 * e.ny1 + e.f21 * e.le2 * e.ny2 + e.f31 * e.le3 * e.ny3 + e.f41 * e.le4 * e.ny4) / e.Ac + e.B66 * (e.f11 * e.le1 * e.nx1 + e.f21 * e.le2 * e.nx2 + e.f31 * e.le3 * e.nx3 + e.f41 * e.le4 * e.nx4) / e.Ac) * (e.f11 * e.le1 * e.nx1 + e.f21 * e.le2 * e.nx2 + e.f31 * e.le3 * e.nx3 + e.f41 * e.le4 * e.nx4) / e.Ac)),
  (e.i1 * 5 + 4, e.i1 * 5 + 3, e.Ac * ((e.D12 * (e.f11 * e.le1 * e.ny1 + e.f21 * e.le2 * e.ny2 + e.f31 * e.le3 * e.ny3 + e.f41 * e.le4 * e.ny4) / e.Ac + e.D16 * (e.f11 * e.le1 * e.nx1 + e.f21 * e.le2 * e.nx2 + e.f31 * e.le3 * e.nx3 + e.f41 * e.le4 * e.nx4) / e.Ac) * (e.f11 * e.le1 * e.nx1 + e.f21 * e.le2 * e.nx2 + e.f31 * e.le3 * e.nx3 + e.f41 * e.le4 * e.nx4) / e.Ac + (e.D26 * (e.f11 * e.le1 * e.ny1 + e.f21 * e.le2 * e.ny2 + e.f31 * e.le3 * e.ny3 + e.f41 * e.le4 * e.ny4) / e.Ac + e.D66 * (e.f11 * e.le1 * e.nx1 + e.f21 * e.le2 * e.nx2 + e.f31 * e.le3 * e.nx3 + e.f41 * e.le4 * e.nx4) / e.Ac) * (e.f11 * e.le1 * e.ny1 + e.f21 * e.le2 * e.ny2 + e.f31 * e.le3 * e.ny3 + e.f41 * e.le4 * e.ny4) / e.Ac)),
  (e.i1 * 5 + 4, e.i1 * 5 + 4, e.Ac * ((e.D22 * (e.f11 * e.le1 * e.ny1 + e.f21 * e.le2 * e.ny2 + e.f31 * e.le3 * e.ny3 + e.f41 * e.le4 * e.ny4) / e.Ac + e.D26 * (e.f11 * e.le1 * e.nx1 + e.f21 * e.le2 * e.nx2 + e.f31 * e.le3 * e.nx3 + e.f41 * e.le4 * e.nx4) / e.Ac) * (e.f11 * e.le1 * e.ny1 + e.f21 * e.le2 * e.ny2 + e.f31 * e.le3 * e.ny3 + e.f41 * e.le4 * e.ny4) / e.Ac + (e.D26 * (e.f11 * e.le1 * e.ny1 + e.f21 * e.le2 * e.ny2 + e.f31 * e.le3 * e.ny3 + e.f41 * e.le4 * e.ny4) / e.Ac + e.D66 * (e.f11 * e.le1 * e.nx1 + e.f21 * e.le2 * e.nx2 + e.f31 * e.le3 * e.nx3 + e.f41 * e.le4 * e.nx4) / e.Ac) * (e.f11 * e.le1 * e.nx1 + e.f21 * e.le2 * e.nx2 + e.f31 * e.le3 * e.nx3 + e.f41 * e.le4 * e.nx4) / e.Ac)),
  (e.i1 * 5 + 4, e.i2 * 5 + 0, e.Ac * ((e.B12 * (e.f11 * e.le1 * e.ny1 + e.f21 * e.le2 * e.ny2 + e.f31 * e.le3 * e.ny3 + e.f41 * e.le4 * e.ny4) / e.Ac + e.B16 * (e.f11 * e.le1 * e.nx1 + e.f21 * e.le2 * e.nx2 + e.f31 * e.le3 * e.nx3 + e.f41 * e.le4 * e.nx4) / e.Ac) * (e.f12 * e.le1 * e.nx1 + e.f22 * e.le2 * e.nx2 + e.f32 * e.le3 * e.nx3 + e.f42 * e.le4 * e.nx4) / e.Ac + (e.B26 * (e.f11 * e.le1 * e.ny1 + e.f21 * e.le2 * e.ny2 + e.f31 * e.le3 * e.ny3 + e.f41 * e.le4 * e.ny4) / e.Ac + e.B66 * (e.f11 * e.le1 * e.nx1 + e.f21 * e.le2 * e.nx2 + e.f31 * e.le3 * e.nx3 + e.f41 * e.le4 * e.nx4) / e.Ac) * (e.f12 * e.le1 * e.ny1 + e.f22 * e.le2 * e.ny2 + e.f32 * e.le3 * e.ny3 + e.f42 * e.le4 * e.ny4) / e.Ac)),
  (e.i1 * 5 + 4, e.i2 * 5 + 1, e.Ac * ((e.B22 * (e.f11 * e.le1 * e.ny1 + e.f21 * e.le2 * e.ny2 + e.f31 * e.le3 * e.ny3 + e.f41 * e.le4 * e.ny4) / e.Ac + e.B26 * (e.f11 * e.le1 * e.nx1 + e.f21 * e.le2 * e.nx2 + e.f31 * e.le3 * e.nx3 + e.f41 * e.le4 * e.nx4) / e.Ac) * (e.f12 * e.le1 * e.ny1 + e.f22 * e.le2 * e.ny2 + e.f32 * e.le3 * e.ny3 + e.f42 * e.le4 * e.ny4) / e.Ac + (e.B26 * (e.f11 * e.le1 * e.ny1 + e.f21 * e.le2 * e.ny2 + e.f31 * e.le3 * e.ny3 + e.f41 * e.le4 * e.ny4) / e.Ac + e.B66 * (e.f11 * e.le1 * e.nx1 + e.f21 * e.le2 * e.nx2 + e.f31 * e.le3 * e.nx3 + e.f41 * e.le4 * e.nx4) / e.Ac) * (e.f12 * e.le1 * e.nx1 + e.f22 * e.le2 * e.nx2 + e.f32 * e.le3 * e.nx3 + e.f42 * e.le4 * e.nx4) / e.Ac)),
  (e.i1 * 5 + 4, e.i2 * 5 + 3, e.Ac * ((e.D12 * (e.f11 * e.le1 * e.ny1 + e.f21 * e.le2 * e.ny2 + e.f31 * e.le3 * e.ny3 + e.f41 * e.le4 * e.ny4) / e.Ac + e.D16 * (e.f11 * e.le1 * e.nx1 + e.f21 * e.le2 * e.nx2 + e.f31 * e.le3 * e.nx3 + e.f41 * e.le4 * e.nx4) / e.Ac) * (e.f12 * e.le1 * e.nx1 + e.f22 * e.le2 * e.nx2 + e.f32 * e.le3 * e.nx3 + e.f42 * e.le4 * e.nx4) / e.Ac + (e.D26 * (e.f11 * e.le1 * e.ny1 + e.f21 * e.le2 * e.ny2 + e.f31 * e.le3 * e.ny3 + e.f41 * e.le4 * e.ny4) / e.Ac + e.D66 * (e.f11 * e.le1 * e.nx1 + e.f21 * e.le2 * e.nx2 + e.f31 * e.le3 * e.nx3 + e.f41 * e.le4 * e.nx4) / e.Ac) * (e.f12 * e.le1 * e.ny1 + e.f22 * e.le2 * e.ny2 + e.f32 * e.le3 * e.ny3 + e.f42 * e.le4 * e.ny4) / e.Ac)),
  (e.i1 * 5 + 4, e.i2 * 5 + 4, e.Ac * ((e.D22 * (e.f11 * e.le1 * e.ny1 + e.f21 * e.le2 * e.ny2 + e.f31 * e.le3 * e.ny3 + e.f41 * e.le4 * e.ny4) / e.Ac + e.D26 * (e.f11 * e.le1 * e.nx1 + e.f21 * e.le2 * e.nx2 + e.f31 * e.le3 * e.nx3 + e.f41 * e.le4 * e.nx4) / e.Ac) * (e.f12 * e.le1 * e.ny1 + e.f22 * e.le2 * e.ny2 + e.f32 * e.le3 * e.ny3 + e.f42 * e.le4 * e.ny4) / e.Ac + (e.D26 * (e.f11 * e.le1 * e.ny1 + e.f21 * e.le2 * e.ny2 + e.f31 * e.le3 * e.ny3 + e.f41 * e.le4 * e.ny4) / e.Ac + e.D66 * (e.f11 * e.le1 * e.nx1 + e.f21 * e.le2 * e.nx2 + e.f31 * e.le3 * e.nx3 + e.f41 * e.le4 * e.nx4) / e.Ac) * (e.f12 * e.le1 * e.nx1 + e.f22 * e.le2 * e.nx2 + e.f32 * e.le3 * e.nx3 + e.f42 * e.le4 * e.nx4) / e.Ac)),
  (e.i1 * 5 + 4, e.i3 * 5 + 0, e.Ac * ((e.B12 * (e.f11 * e.le1 * e.ny1 + e.f21 * e.le2 * e.ny2 + e.f31 * e.le3 * e.ny3 + e.f41 * e.le4 * e.ny4) / e.Ac + e.B16 * (e.f11 * e.le1 * e.nx1 + e.f21 * e.le2 * e.nx2 + e.f31 * e.le3 * e.nx3 + e.f41 * e.le4 * e.nx4) / e.Ac) * (e.f13 * e.le1 * e.nx1 + e.f23 * e.le2 * e.nx2 + e.f33 * e.le3 * e.nx3 + e.f43 * e.le4 * e.nx4) / e.Ac + (e.B26 * (e.f11 * e.le1 * e.ny1 + e.f21 * e.le2 * e.ny2 + e.f31 * e.le3 * e.ny3 + e.f41 * e.le4 * e.ny4) / e.Ac + e.B66 * (e.f11 * e.le1 * e.nx1 + e.f21 * e.le2 * e.nx2 + e.f31 * e.le3 * e.nx3 + e.f41 * e.le4 * e.nx4) / e.Ac) * (e.f13 * e.le1 * e.ny1 + e.f23 * e.le2 * e.ny2 + e.f33 * e.le3 * e.ny3 + e.f43 * e.le4 * e.ny4) / e.Ac)),
  (e.i1 * 5 + 4, e.i3 * 5 + 1, e.Ac * ((e.B22 * (e.f11 * e.le1 * e.ny1 + e.f21 * e.le2 * e.ny2 + e.f31 * e.le3 * e.ny3 + e.f41 * e.le4 * e.ny4) / e.Ac + e.B26 * (e.f11 * e.le1 * e.nx1 + e.f21 * e.le2 * e.nx2 + e.f31 * e.le3 * e.nx3 + e.f41 * e.le4 * e.nx4) / e.Ac) * (e.f13 * e.le1 * e.ny1 + e.f23 * e.le2 * e.ny2 + e.f33 * e.le3 * e.ny3 + e.f43 * e.le4 * e.ny4) / e.Ac + (e.B26 * (e.f11 * e.le1 * e.ny1 + e.f21 * e.le2 * e.ny2 + e.f31 * e.le3 * e.ny3 + e.f41 * e.le4 * e.ny4) / e.Ac + e.B66 * (e.f11 * e.le1 * e.nx1 + e.f21 * e.le2 * e.nx2 + e.f31 * e.le3 * e.nx3 + e.f41 * e.le4 * e.nx4) / e.Ac) * (e.f13 * e.le1 * e.nx1 + e.f23 * e.le2 * e.nx2 + e.f33 * e.le3 * e.nx3 + e.f43 * e.le4 * e.nx4) / e.Ac)),
  (e.i1 * 5 + 4, e.i3 * 5 + 3, e.Ac * ((e.D12 * (e.f11 * e.le1 * e.ny1 + e.f21 * e.le2 * e.ny2 + e.f31 * e.le3 * e.ny3 + e.f41 * e.le4 * e.ny4) / e.Ac + e.D16 * (e.f11 * e.le1 * e.nx1 + e.f21 * e.le2 * e.nx2 + e.f31 * e.le3 * e.nx3 + e.f41 * e.le4 * e.nx4) / e.Ac) * (e.f13 * e.le1 * e.nx1 + e.f23 * e.le2 * e.nx2 + e.f33 * e.le3 * e.nx3 + e.f43 * e.le4 * e.nx4) / e.Ac + (e.D26 * (e.f11 * e.le1 * e.ny1 + e.f21 * e.le2 * e.ny2 + e.f31 * e.le3 * e.ny3 + e.f41 * e.le4 * e.ny4) / e.Ac + e.D66 * (e.f11 * e.le1 * e.nx1 + e.f21 * e.le2 * e.nx2 + e.f31 * e.le3 * e.nx3 + e.f41 * e.le4 * e.nx4) / e.Ac) * (e.f13 * e.le1 * e.ny1 + e.f23 * e.le2 * e.ny2 + e.f33 * e.le3 * e.ny3 + e.f43 * e.le4 * e.ny4) / e.Ac)),
  (e.i1 * 5 + 4, e.i3 * 5 + 4, e.Ac * ((e.D22 * (e.f11 * e.le1 * e.ny1 + e.f21 * e.le2 * e.ny2 + e.f31 * e.le3 * e.ny3 + e.f41 * e.le4 * e.ny4) / e.Ac + e.D26 * (e.f11 * e.le1 * e.nx1 + e.f21 * e.le2 * e.nx2 + e.f31 * e.le3 * e.nx3 + e.f41 * e.le4 * e.nx4) / e.Ac) * (e.f13 * e.le1 * e.ny1 + e.f23 * e.le2 * e.ny2 + e.f33 * e.le3 * e.ny3 + e.f43 * e.le4 * e.ny4) / e.Ac + (e.D26 * (e.f11 * e.le1 * e.ny1 + e.f21 * e.le2 * e.ny2 + e.f31 * e.le3 * e.ny3 + e.f41 * e.le4 * e.ny4) / e.Ac + e.D66 * (e.f11 * e.le1 * e.nx1 + e.f21 * e.le2 * e.nx2 + e.f31 * e.le3 * e.nx3 + e.f41 * e.le4 * e.nx4) / e.Ac) * (e.f13 * e.le1 * e.nx1 + e.f23 * e.le2 * e.nx2 + e.f33 * e.le3 * e.nx3 + e.f43 * e.le4 * e.nx4) / e.Ac)),
  (e.i1 * 5 + 4, e.i4 * 5 + 0, e.Ac * ((e.B12 * (e.f11 * e.le1 * e.ny1 + e.f21 * e.le2 * e.ny2 + e.f31 * e.le3 * e.ny3 + e.f41 * e.le4 * e.ny4) / e.Ac + e.B16 * (e.f11 * e.le1 * e.nx1 + e.f21 * e.le2 * e.nx2 + e.f31 * e.le3 * e.nx3 + e.f41 * e.le4 * e.nx4) / e.Ac) * (e.f14 * e.le1 * e.nx1 + e.f24 * e.le2 * e.nx2 + e.f34 * e.le3 * e.nx3 + e.f44 * e.le4 * e.nx4) / e.Ac + (e.B26 * (e.f11 * e.le1 * e.ny1 + e.f21 * e.le2 * e.ny2 + e.f31 * e.le3 * e.ny3 + e.f41 * e.le4 * e.ny4) / e.Ac + e.B66 * (e.f11 * e.le1 * e.nx1 + e.f21 * e.le2 * e.nx2 + e.f31 * e.le3 * e.nx3 + e.f41 * e.le4 * e.nx4) / e.Ac) * (e.f14 * e.le1 * e.ny1 + e.f24 * e.le2 * e.ny2 + e.f34 * e.le3 * e.ny3 + e.f44 * e.le4 * e.ny4) / e.Ac)),
  (e.i1 * 5 + 4, e.i4 * 5 + 1, e.Ac * ((e.B22 * (e.f11 * e.le1 * e.ny1 + e.f21 * e.le2 * e.ny2 + e.f31 * e.le3 * e.ny3 + e.f41 * e.le4 * e.ny4) / e.Ac + e.B26 * (e.f11 * e.le1 * e.nx1 + e.f21 * e.le2 * e.nx2 + e.f31 * e.le3 * e.nx3 + e.f41 * e.le4 * e.nx4) / e.Ac) * (e.f14 * e.le1 * e.ny1 + e.f24 * e.le2 * e.ny2 + e.f34 * e.le3 * e.ny3 + e.f44 * e.le4 * e.ny4) / e.Ac + (e.B26 * (e.f11 * e.le1 * e.ny1 + e.f21 * e.le2 * e.ny2 + e.f31 * e.le3 * e.ny3 + e.f41 * e.le4 * e.ny4) / e.Ac + e.B66 * (e.f11 * e.le1 * e.nx1 + e.f21 * e.le2 * e.nx2 + e.f31 * e.le3 * e.nx3 + e.f41 * e.le4 * e.nx4) / e.Ac) * (e.f14 * e.le1 * e.nx1 + e.f24 * e.le2 * e.nx2 + e.f34 * e.le3 * e.nx3 + e.f44 * e.le4 * e.nx4) / e.Ac)),
  (e.i1 * 5 + 4, e.i4 * 5 + 3, e.Ac * ((e.D12 * (e.f11 * e.le1 * e.ny1 + e.f21 * e.le2 * e.ny2 + e.f31 * e.le3 * e.ny3 + e.f41 * e.le4 * e.ny4) / e.Ac + e.D16 * (e.f11 * e.le1 * e.nx1 + e.f21 * e.le2 * e.nx2 + e.f31 * e.le3 * e.nx3 + e.f41 * e.le4 * e.nx4) / e.Ac) * (e.f14 * e.le1 * e.nx1 + e.f24 * e.le2 * e.nx2 + e.f34 * e.le3 * e.nx3 + e.f44 * e.le4 * e.nx4) / e.Ac + (e.D26 * (e.f11 * e.le1 * e.ny1 + e.f21 * e.le2 * e.ny2 + e.f31 * e.le3 * e.ny3 + e.f41 * e.le4 * e.ny4) / e.Ac + e.D66 * (e.f11 * e.le1 * e.nx1 + e.f21 * e.le2 * e.nx2 + e.f31 * e.le3 * e.nx3 + e.f41 * e.le4 * e.nx4) / e.Ac) * (e.f14 * e.le1 * e.ny1 + e.f24 * e.le2 * e.ny2 + e.f34 * e.le3 * e.ny3 + e.f44 * e.le4 * e.ny4) / e.Ac)),
  (e.i1 * 5 + 4, e.i4 * 5 + 4, e.Ac * ((e.D22 * (e.f11 * e.le1 * e.ny1 + e.f21 * e.le2 * e.ny2 + e.f31 * e.le3 * e.ny3 + e.f41 * e.le4 * e.ny4) / e.Ac + e.D26 * (e.f11 * e.le1 * e.nx1 + e.f21 * e.le2 * e.nx2 + e.f31 * e.le3 * e.nx3 + e.f41 * e.le4 * e.nx4) / e.Ac) * (e.f14 * e.le1 * e.ny1 + e.f24 * e.le2 * e.ny2 + e.f34 * e.le3 * e.ny3 + e.f44 * e.le4 * e.ny4) / e.Ac + (e.D26 * (e.f11 * e.le1 * e.ny1 + e.f21 * e.le2 * e.ny2 + e.f31 * e.le3 * e.ny3 + e.f41 * e.le4 * e.ny4) / e.Ac + e.D66 * (e.f11 * e.le1 * e.nx1 + e.f21 * e.le2 * e.nx2 + e.f31 * e.le3 * e.nx3 + e.f41 * e.le4 * e.nx4) / e.Ac) * (e.f14 * e.le1 * e.nx1 + e.f24 * e.le2 * e.nx2 + e.f34 * e.le3 * e.nx3 + e.f44 * e.le4 * e.nx4) / e.Ac))]

/-- meshless/espim/plate2d_calc_k0.py:317-332 -/
def k0_i2_0 (e : K0Env K) : List (ℤ × ℤ × K) := [
  (e.i2 * 5 + 0, e.i1 * 5 + 0, e.Ac * ((e.A11 * (e.f12 * e.le1 * e.nx1 + e.f22 * e.le2 * e.nx2 + e.f32 * e.le3 * e.nx3 + e.f42 * e.le4 * e.nx4) / e.Ac + e.A16 * (e.f12 * e.le1 * e.ny1 + e.f22 * e.le2 * e.ny2 + e.f32 * e.le3 * e.ny3 + e.f42 * e.le4 * e.ny4) / e.Ac) * (e.f11 * e.le1 * e.nx1 + e.f21 * e.le2 * e.nx2 + e.f31 * e.le3 * e.nx3 + e.f41 * e.le4 * e.nx4) / e.Ac + (e.A16 * (e.f12 * e.le1 * e.nx1 + e.f22 * e.le2 * e.nx2 + e.f32 * e.le3 * e.nx3 + e.f42 * e.le4 * e.nx4) / e.Ac + e.A66 * (e.f12 * e.le1 * e.ny1 + e.f22 * e.le2 * e.ny2 + e.f32 * e.le3 * e.ny3 + e.f42 * e.le4 * e.ny4) / e.Ac) * (e.f11 * e.le1 * e.ny1 + e.f21 * e.le2 * e.ny2 + e.f31 * e.le3 * e.ny3 + e.f41 * e.le4 * e.ny4) / e.Ac)),
  (e.i2 * 5 + 0, e.i1 * 5 + 1, e.Ac * ((e.A12 * (e.f12 * e.le1 * e.nx1 + e.f22 * e.le2 * e.nx2 + e.f32 * e.le3 * e.nx3 + e.f42 * e.le4 * e.nx4) / e.Ac + e.A26 * (e.f12 * e.le1 * e.ny1 + e.f22 * e.le2 * e.ny2 + e.f32 * e.le3 * e.ny3 + e.f42 * e.le4 * e.ny4) / e.Ac) * (e.f11 * e.le1 * e.ny1 + e.f21 * e.le2 * e.ny2 + e.f31 * e.le3 * e.ny3 + e.f41 * e.le4 * e.ny4) / e.Ac + (e.A16 * (e.f12 * e.le1 * e.nx1 + e.f22 * e.le2 * e.nx2 + e.f32 * e.le3 * e.nx3 + e.f42 * e.le4 * e.nx4) / e.Ac + e.A66 * (e.f12 * e.le1 * e.ny1 + e.f22 * e.le2 * e.ny2 + e.f32 * e.le3 * e.ny3 + e.f42 * e.le4 * e.ny4) / e.Ac) * (e.f11 * e.le1 * e.nx1 + e.f21 * e.le2 * e.nx2 + e.f31 * e.le3 * e.nx3 + e.f41 * e.le4 * e.nx4) / e.Ac)),
  (e.i2 * 5 + 0, e.i1 * 5 + 3, e.Ac * ((e.B11 * (e.f12 * e.le1 * e.nx1 + e.f22 * e.le2 * e.nx2 + e.f32 * e.le3 * e.nx3 + e.f42 * e.le4 * e.nx4) / e.Ac + e.B16 * (e.f12 * e.le1 * e.ny1 + e.f22 * e.le2 * e.ny2 + e.f32 * e.le3 * e.ny3 + e.f42 * e.le4 * e.ny4) / e.Ac) * (e.f11 * e.le1 * e.nx1 + e.f21 * e.le2 * e.nx2 + e.f31 * e.le3 * e.nx3 + e.f41 * e.le4 * e.nx4) / e.Ac + (e.B16 * (e.f12 * e.le1 * e.nx1 + e.f22 * e.le2 * e.nx2 + e.f32 * e.le3 * e.nx3 + e.f42 * e.le4 * e.nx4) / e.Ac + e.B66 * (e.f12 * e.le1 * e.ny1 + e.f22 * e.le2 * e.ny2 + e.f32 * e.le3 * e.ny3 + e.f42 * e.le4 * e.ny4) / e.Ac) * (e.f11 * e.le1 * e.ny1 + e.f21 * e.le2 * e.ny2 + e.f31 * e.le3 * e.ny3 + e.f41 * e.le4 * e.ny4) / e.Ac)),
  (e.i2 * 5 + 0, e.i1 * 5 + 4, e.Ac * ((e.B12 * (e.f12 * e.le1 * e.nx1 + e.f22 * e.le2 * e.nx2 + e.f32 * e.le3 * e.nx3 + e.f42 * e.le4 * e.nx4) / e.Ac + e.B26 * (e.f12 * e.le1 * e.ny1 + e.f22 * e.le2 * e.ny2 + e.f32 * e.le3 * e.ny3 + e.f42 * e.le4 * e.ny4) / e.Ac) * (e.f11 * e.le1 * e.ny1 + e.f21 * e.le2 * e.ny2 + e.f31 * e.le3 * e.ny3 + e.f41 * e.le4 * e.ny4) / e.Ac + (e.B16 * (e.f12 * e.le1 * e.nx1 + e.f22 * e.le2 * e.nx2 + e.f32 * e.le3 * e.nx3 + e.f42 * e.le4 * e.nx4) / e.Ac + e.B66 * (e.f12 * e.le1 * e.ny1 + e.f22 * e.le2 * e.ny2 + e.f32 * e.le3 * e.ny3 + e.f42 * e.le4 * e.ny4) / e.Ac) * (e.f11 * e.le1 * e.nx1 + e.f21 * e.le2 * e.nx2 + e.f31 * e.le3 * e.nx3 + e.f41 * e.le4 * e.nx4) / e.Ac)),
  (e.i2 * 5 + 0, e.i2 * 5 + 0, e.Ac * ((e.A11 * (e.f12 * e.le1 * e.nx1 + e.f22 * e.le2 * e.nx2 + e.f32 * e.le3 * e.nx3 + e.f42 * e.le4 * e.nx4) / e.Ac + e.A16 * (e.f12 * e.le1 * e.ny1 + e.f22 * e.le2 * e.ny2 + e.f32 * e.le3 * e.ny3 + e.f42 * e.le4 * e.ny4) / e.Ac) * (e.f12 * e.le1 * e.nx1 + e.f22 * e.le2 * e.nx2 + e.f32 * e.le3 * e.nx3 + e.f42 * e.le4 * e.nx4) / e.Ac + (e.A16 * (e.f12 * e.le1 * e.nx1 + e.f22 * e.le2 * e.nx2 + e.f32 * e.le3 * e.nx3 + e.f42 * e.le4 * e.nx4) / e.Ac + e.A66 * (e.f12 * e.le1 * e.ny1 + e.f22 * e.le2 * e.ny2 + e.f32 * e.le3 * e.ny3 + e.f42 * e.le4 * e.ny4) / e.Ac) * (e.f12 * e.le1 * e.ny1 + e.f22 * e.le2 * e.ny2 + e.f32 * e.le3 * e.ny3 + e.f42 * e.le4 * e.ny4) / e.Ac)),
  (e.i2 * 5 + 0, e.i2 * 5 + 1, e.Ac * ((e.A12 * (e.f12 * e.le1 * e.nx1 + e.f22 * e.le2 * e.nx2 + e.f32 * e.le3 * e.nx3 + e.f42 * e.le4 * e.nx4) / e.Ac + e.A26 * (e.f12 * e.le1 * e.ny1 + e.f22 * e.le2 * e.ny2 + e.f32 * e.le3 * e.ny3 + e.f42 * e.le4 * e.ny4) / e.Ac) * (e.f12 * e.le1 * e.ny1 + e.f22 * e.le2 * e.ny2 + e.f32 * e.le3 * e.ny3 + e.f42 * e.le4 * e.ny4) / e.Ac + (e.A16 * (e.f12 * e.le1 * e.nx1 + e.f22 * e.le2 * e.nx2 + e.f32 * e.le3 * e.nx3 + e.f42 * e.le4 * e.nx4) / e.Ac + e.A66 * (e.f12 * e.le1 * e.ny1 + e.f22 * e.le2 * e.ny2 + e.f32 * e.le3 * e.ny3 + e.f42 * e.le4 * e.ny4) / e.Ac) * (e.f12 * e.le1 * e.nx1 + e.f22 * e.le2 * e.nx2 + e.f32 * e.le3 * e.nx3 + e.f42 * e.le4 * e.nx4) / e.Ac)),
  (e.i2 * 5 + 0, e.i2 * 5 + 3, e.Ac * ((e.B11 * (e.f12 * e.le1 * e.nx1 + e.f22 * e.le2 * e.nx2 + e.f32 * e.le3 * e.nx3 + e.f42 * e.le4 * e.nx4) / e.Ac + e.B16 * (e.f12 * e.le1 * e.ny1 + e.f22 * e.le2 * e.ny2 + e.f32 * e.le3 * e.ny3 + e.f42 * e.le4 * e.ny4) / e.Ac) * (e.f12 * e.le1 * e.nx1 + e.f22 * e.le2 * e.nx2 + e.f32 * e.le3 * e.nx3 + e.f42 * e.le4 * e.nx4) / e.Ac + (e.B16 * (e.f12 * e.le1 * e.nx1 + e.f22 * e.le2 * e.nx2 + e.f32 * e.le3 * e.nx3 + e.f42 * e.le4 * e.nx4) / e.Ac + e.B66 * (e.f12 * e.le1 * e.ny1 + e.f22 * e.le2 * e.ny2 + e.f32 * e.le3 * e.ny3 + e.f42 * e.le4 * e.ny4) / e.Ac) * (e.f12 * e.le1 * e.ny1 + e.f22 * e.le2 * e.ny2 + e.f32 * e.le3 * e.ny3 + e.f42 * e.le4 * e.ny4) / e.Ac)),
  (e.i2 * 5 + 0, e.i2 * 5 + 4, e.Ac * ((e.B12 * (e.f12 * e.le1 * e.nx1 + e.f22 * e.le2 * e.nx2 + e.f32 * e.le3 * e.nx3 + e.f42 * e.le4 * e.nx4) / e.Ac + e.B26 * (e.f12 * e.le1 * e.ny1 + e.f22 * e.le2 * e.ny2 + e.f32 * e.le3 * e.ny3 + e.f42 * e.le4 * e.ny4) / e.Ac) * (e.f12 * e.le1 * e.ny1 + e.f22 * e.le2 * e.ny2 + e.f32 * e.le3 * e.ny3 + e.f42 * e.le4 * e.ny4) / e.Ac + (e.B16 * (e.f12 * e.le1 * e.nx1 + e.f22 * e.le2 * e.nx2 + e.f32 * e.le3 * e.nx3 + e.f42 * e.le4 * e.nx4) / e.Ac + e.B66 * (e.f12 * e.le1 * e.ny1 + e.f22 * e.le2 * e.ny2 + e.f32 * e.le3 * e.ny3 + e.f42 * e.le4 * e.ny4) / e.Ac) * (e.f12 * e.le1 * e.nx1 + e.f22 * e.le2 * e.nx2 + e.f32 * e.le3 * e.nx3 + e.f42 * e.le4 * e.nx4) / e.Ac)),
  (e.i2 * 5 + 0, e.i3 * 5 + 0, e.Ac * ((e.A11 * (e.f12 * e.le1 * e.nx1 + e.f22 * e.le2 * e.nx2 + e.f32 * e.le3 * e.nx3 + e.f42 * e.le4 * e.nx4) / e.Ac + e.A16 * (e.f12 * e.le1 * e.ny1 + e.f22 * e.le2 * e.ny2 + e.f32 * e.le3 * e.ny3 + e.f42 * e.le4 * e.ny4) / e.Ac) * (e.f13 * e.le1 * e.nx1 + e.f23 * e.le2 * e.nx2 + e.f33 * e.le3 * e.nx3 + e.f43 * e.le4 * e.nx4) / e.Ac + (e.A16 * (e.f12 * e.le1 * e.nx1 + e.f22 * e.le2 * e.nx2 + e.f32 * e.le3 * e.nx3 + e.f42 * e.le4 * e.nx4) / e.Ac + e.A66 * (e.f12 * e.le1 * e.ny1 + e.f22 * e.le2 * e.ny2 + e.f32 * e.le3 * e.ny3 + e.f42 * e.le4 * e.ny4) / e.Ac) * (e.f13 * e.le1 * e.ny1 + e.f23 * e.le2 * e.ny2 + e.f33 * e.le3 * e.ny3 + e.f43 * e.le4 * e.ny4) / e.Ac)),
  (e.i2 * 5 + 0, e.i3 * 5 + 1, e.Ac * ((e.A12 * (e.f12 * e.le1 * e.nx1 + e.f22 * e.le2 * e.nx2 + e.f32 * e.le3 * e.nx3 + e.f42 * e.le4 * e.nx4) / e.Ac + e.A26 * (e.f12 * e.le1 * e.ny1 + e.f22 * e.le2 * e.ny2 + e.f32 * e.le3 * e.ny3 + e.f42 * e.le4 * e.ny4) / e.Ac) * (e.f13 * e.le1 * e.ny1 + e.f23 * e.le2 * e.ny2 + e.f33 * e.le3 * e.ny3 + e.f43 * e.le4 * e.ny4) / e.Ac + (e.A16 * (e.f12 * e.le1 * e.nx1 + e.f22 * e.le2 * e.nx2 + e.f32 * e.le3 * e.nx3 + e.f42 * e.le4 * e.nx4) / e.Ac + e.A66 * (e.f12 * e.le1 * e.ny1 + e.f22 * e.le2 * e.ny2 + e.f32 * e.le3 * e.ny3 + e.f42 * e.le4 * e.ny4) / e.Ac) * (e.f13 * e.le1 * e.nx1 + e.f23 * e.le2 * e.nx2 + e.f33 * e.le3 * e.nx3 + e.f43 * e.le4 * e.nx4) / e.Ac)),
  (e.i2 * 5 + 0, e.i3 * 5 + 3, e.Ac * ((e.B11 * (e.f12 * e.le1 * e.nx1 + e.f22 * e.le2 * e.nx2 + e.f32 * e.le3 * e.nx3 + e.f42 * e.le4 * e.nx4) / e.Ac + e.B16 * (e.f12 * e.le1 * e.ny1 + e.f22 * e.le2 * e.ny2 + e.f32 * e.le3 * e.ny3 + e.f42 * e.le4 * e.ny4) / e.Ac) * (e.f13 * e.le1 * e.nx1 + e.f23 * e.le2 * e.nx2 + e.f33 * e.le3 * e.nx3 + e.f43 * e.le4 * e.nx4) / e.Ac + (e.B16 * (e.f12 * e.le1 * e.nx1 + e.f22 * e.le2 * e.nx2 + e.f32 * e.le3 * e.nx3 + e.f42 * e.le4 * e.nx4) / e.Ac + e.B66 * (e.f12 * e.le1 * e.ny1 + e.f22 * e.le2 * e.ny2 + e.f32 * e.le3 * e.ny3 + e.f42 * e.le4 * e.ny4) / e.Ac) * (e.f13 * e.le1 * e.ny1 + e.f23 * e.le2 * e.ny2 + e.f33 * e.le3 * e.ny3 + e.f43 * e.le4 * e.ny4) / e.Ac)),
  (e.i2 * 5 + 0, e.i3 * 5 + 4, e.Ac * ((e.B12 * (e.f12 * e.le1 * e.nx1 + e.f22 * e.le2 * e.nx2 + e.f32 * e.le3 * e.nx3 + e.f42 * e.le4 * e.nx4) / e.Ac + e.B26 * (e.f12 * e.le1 * e.ny1 + e.f22 * e.le2 * e.ny2 + e.f32 * e.le3 * e.ny3 + e.f42 * e.le4 * e.ny4) / e.Ac) * (e.f13 * e.le1 * e.ny1 + e.f23 * e.le2 * e.ny2 + e.f33 * e.le3 * e.ny3 + e.f43 * e.le4 * e.ny4) / e.Ac + (e.B16 * (e.f12 * e.le1 * e.nx1 + e.f22 * e.le2 * e.nx2 + e.f32 * e.le3 * e.nx3 + e.f42 * e.le4 * e.nx4) / e.Ac + e.B66 * (e.f12 * e.le1 * e.ny1 + e.f22 * e.le2 * e.ny2 + e.f32 * e.le3 * e.ny3 + e.f42 * e.le4 * e.ny4) / e.Ac) * (e.f13 * e.le1 * e.nx1 + e.f23 * e.le2 * e.nx2 + e.f33 * e.le3 * e.nx3 + e.f43 * e.le4 * e.nx4) / e.Ac)),
  (e.i2 * 5 + 0, e.i4 * 5 + 0, e.Ac * ((e.A11 * (e.f12 * e.le1 * e.nx1 + e.f22 * e.le2 * e.nx2 + e.f32 * e.le3 * e.nx3 + e.f42 * e.le4 * e.nx4) / e.Ac + e.A16 * (e.f12 * e.le1 * e.ny1 + e.f22 * e.le2 * e.ny2 + e.f32 * e.le3 * e.ny3 + e.f42 * e.le4 * e.ny4) / e.Ac) * (e.f14 * e.le1 * e.nx1 + e.f24 * e.le2 * e.nx2 + e.f34 * e.le3 * e.nx3 + e.f44 * e.le4 * e.nx4) / e.Ac + (e.A16 * (e.f12 * e.le1 * e.nx1 + e.f22 * e.le2 * e.nx2 + e.f32 * e.le3 * e.nx3 + e.f42 * e.le4 * e.nx4) / e.Ac + e.A66 * (e.f12 * e.le1 * e.ny1 + e.f22 * e.le2 * e.ny2 + e.f32 * e.le3 * e.ny3 + e.f42 * e.le4 * e.ny4) / e.Ac) * (e.f14 * e.le1 * e.ny1 + e.f24 * e.le2 * e.ny2 + e.f34 * e.le3 * e.ny3 + e.f44 * e.le4 * e.ny4) / e.Ac)),
  (e.i2 * 5 + 0, e.i4 * 5 + 1, e.Ac * ((e.A12 * (e.f12 * e.le1 * e.nx1 + e.f22 * e.le2 * e.nx2 + e.f32 * e.le3 * e.nx3 + e.f42 * e.le4 * e.nx4) / e.Ac + e.A26 * (e.f12 * e.le1 * e.ny1 + e.f22 * e.le2 * e.ny2 + e.f32 * e.le3 * e.ny3 + e.f42 * e.le4 * e.ny4) / e.Ac) * (e.f14 * e.le1 * e.ny1 + e.f24 * e.le2 * e.ny2 + e.f34 * e.le3 * e.ny3 + e.f44 * e.le4 * e.ny4) / e.Ac + (e.A16 * (e.f12 * e.le1 * e.nx1 + e.f22 * e.le2 * e.nx2 + e.f32 * e.le3 * e.nx3 + e.f42 * e.le4 * e.nx4) / e.Ac + e.A66 * (e.f12 * e.le1 * e.ny1 + e.f22 * e.le2 * e.ny2 + e.f32 * e.le3 * e.ny3 + e.f42 * e.le4 * e.ny4) / e.Ac) * (e.f14 * e.le1 * e.nx1 + e.f24 * e.le2 * e.nx2 + e.f34 * e.le3 * e.nx3 + e.f44 * e.le4 * e.nx4) / e.Ac)),
  (e.i2 * 5 + 0, e.i4 * 5 + 3, e.Ac * ((e.B11 * (e.f12 * e.le1 * e.nx1 + e.f22 * e.le2 * e.nx2 + e.f32 * e.le3 * e.nx3 + e.f42 * e.le4 * e.nx4) / e.Ac + e.B16 * (e.f12 * e.le1 * e.ny1 + e.f22 * e.le2 * e.ny2 + e.f32 * e.le3 * e.ny3 + e.f42 * e.le4 * e.ny4) / e.Ac) * (e.f14 * e.le1 * e.nx1 + e.f24 * e.le2 * e.nx2 + e.f34 * e.le3 * e.nx3 + e.f44 * e.le4 * e.nx4) / e.Ac + (e.B16 * (e.f12 * e.le1 * e.nx1 + e.f22 * e.le2 * e.nx2 + e.f32 * e.le3 * e.nx3 + e.f42 * e.le4 * e.nx4) / e.Ac + e.B66 * (e.f12 * e.le1 * e.ny1 + e.f22 * e.le2 * e.ny2 + e.f32 * e.le3 * e.ny3 + e.f42 * e.le4 * e.ny4) / e.Ac) * (e.f14 * e.le1 * e.ny1 + e.f24 * e.le2 * e.ny2 + e.f34 * e.le3 * e.ny3 + e.f44 * e.le4 * e.ny4) / e.Ac)),
  (e.i2 * 5 + 0, e.i4 * 5 + 4, e.Ac * ((e.B12 * (e.f12 * e.le1 * e.nx1 + e.f22 * e.le2 * e.nx2 + e.f32 * e.le3 * e.nx3 + e.f42 * e.le4 * e.nx4) / e.Ac + e.B26 * (e.f12 * e.le1 * e.ny1 + e.f22 * e.le2 * e.ny2 + e.f32 * e.le3 * e.ny3 + e.f42 * e.le4 * e.ny4) / e.Ac) * (e.f14 * e.le1 * e.ny1 + e.f24 * e.le2 * e.ny2 + e.f34 * e.le3 * e.ny3 + e.f44 * e.le4 * e.ny4) / e.Ac + (e.B16 * (e.f12 * e.le1 * e.nx1 + e.f22 * e.le2 * e.nx2 + e.f32 * e.le3 * e.nx3 + e.f42 * e.le4 * e.nx4) / e.Ac + e.B66 * (e.f12 * e.le1 * e.ny1 + e.f22 * e.le2 * e.ny2 + e.f32 * e.le3 * e.ny3 + e.f42 * e.le4 * e.ny4) / e.Ac) * (e.f14 * e.le1 * e.nx1 + e.f24 * e.le2 * e.nx2 + e.f34 * e.le3 * e.nx3 + e.f44 * e.le4 * e.nx4) / e.Ac))]

/-- meshless/espim/plate2d_calc_k0.py:333-348 -/
def k0_i2_1 (e : K0Env K) : List (ℤ × ℤ × K) := [
  (e.i2 * 5 + 1, e.i1 * 5 + 0, e.Ac * ((e.A12 * (e.f12 * e.le1 * e.ny1 + e.f22 * e.le2 * e.ny2 + e.f32 * e.le3 * e.ny3 + e.f42 * e.le4 * e.ny4) / e.Ac + e.A16 * (e.f12 * e.le1 * e.nx1 + e.f22 * e.le2 * e.nx2 + e.f32 * e.le3 * e.nx3 + e.f42 * e.le4 * e.nx4) / e.Ac) * (e.f11 * e.le1 * e.nx1 + e.f21 * e.le2 * e.nx2 + e.f31 * e.le3 * e.nx3 + e.f41 * e.le4 * e.nx4) / e.Ac + (e.A26 * (e.f12 * e.le1 * e.ny1 + e.f22 * e.le2 * e.ny2 + e.f32 * e.le3 * e.ny3 + e.f42 * e.le4 * e.ny4) / e.Ac + e.A66 * (e.f12 * e.le1 * e.nx1 + e.f22 * e.le2 * e.nx2 + e.f32 * e.le3 * e.nx3 + e.f42 * e.le4 * e.nx4) / e.Ac) * (e.f11 * e.le1 * e.ny1 + e.f21 * e.le2 * e.ny2 + e.f31 * e.le3 * e.ny3 + e.f41 * e.le4 * e.ny4) / e.Ac)),
  (e.i2 * 5 + 1, e.i1 * 5 + 1, e.Ac * ((e.A22 * (e.f12 * e.le1 * e.ny1 + e.f22 * e.le2 * e.ny2 + e.f32 * e.le3 * e.ny3 + e.f42 * e.le4 * e.ny4) / e.Ac + e.A26 * (e.f12 * e.le1 * e.nx1 + e.f22 * e.le2 * e.nx2 + e.f32 * e.le3 * e.nx3 + e.f42 * e.le4 * e.nx4) / e.Ac) * (e.f11 * e.le1 * e.ny1 + e.f21 * e.le2 * e.ny2 + e.f31 * e.le3 * e.ny3 + e.f41 * e.le4 * e.ny4) / e.Ac + (e.A26 * (e.f12 * e.le1 * e.ny1 + e.f22 * e.le2 * e.ny2 + e.f32 * e.le3 * e.ny3 + e.f42 * e.le4 * e.ny4) / e.Ac + e.A66 * (e.f12 * e.le1 * e.nx1 + e.f22 * e.le2 * e.nx2 + e.f32 * e.le3 * e.nx3 + e.f42 * e.le4 * e.nx4) / e.Ac) * (e.f11 * e.le1 * e.nx1 + e.f21 * e.le2 * e.nx2 + e.f31 * e.le3 * e.nx3 + e.f41 * e.le4 * e.nx4) / e.Ac)),
  (e.i2 * 5 + 1, e.i1 * 5 + 3, e.Ac * ((e.B12 * (e.f12 * e.le1 * e.ny1 + e.f22 * e.le2 * e.ny2 + e.f32 * e.le3 * e.ny3 + e.f42 * e.le4 * e.ny4) / e.Ac + e.B16 * (e.f12 * e.le1 * e.nx1 + e.f22 * e.le2 * e.nx2 + e.f32 * e.le3 * e.nx3 + e.f42 * e.le4 * e.nx4) / e.Ac) * (e.f11 * e.le1 * e.nx1 + e.f21 * e.le2 * e.nx2 + e.f31 * e.le3 * e.nx3 + e.f41 * e.le4 * e.nx4) / e.Ac + (e.B26 * (e.f12 * e.le1 * e.ny1 + e.f22 * e.le2 * e.ny2 + e.f32 * e.le3 * e.ny3 + e.f42 * e.le4 * e.ny4) / e.Ac + e.B66 * (e.f12 * e.le1 * e.nx1 + e.f22 * e.le2 * e.nx2 + e.f32 * e.le3 * e.nx3 + e.f42 * e.le4 * e.nx4) / e.Ac) * (e.f11 * e.le1 * e.ny1 + e.f21 * e.le2 * e.ny2 + e.f31 * e.le3 * e.ny3 + e.f41 * e.le4 * e.ny4) / e.Ac)),
  (e.i2 * 5 + 1, e.i1 * 5 + 4, e.Ac * ((e.B22 * (e.f12 * e.le1 * e.ny1 + e.f22 * e.le2 * e.ny2 + e.f32 * e.le3 * e.ny3 + e.f42 * e.le4 * e.ny4) / e.Ac + e.B26 * (e.f12 * e.le1 * e.nx1 + e.f22 * e.le2 * e.nx2 + e.f32 * e.le3 * e.nx3 + e.f42 * e.le4 * e.nx4) / e.Ac) * (e.f11 * e.le1 * e.ny1 + e.f21 * e.le2 * e.ny2 + e.f31 * e.le3 * e.ny3 + e.f41 * e.le4 * e.ny4) / e.Ac + (e.B26 * (e.f12 * e.le1 * e.ny1 + e.f22 * e.le2 * e.ny2 + e.f32 * e.le3 * e.ny3 + e.f42 * e.le4 * e.ny4) / e.Ac + e.B66 * (e.f12 * e.le1 * e.nx1 + e.f22 * e.le2 * e.nx2 + e.f32 * e.le3 * e.nx3 + e.f42 * e.le4 * e.nx4) / e.Ac) * (e.f11 * e.le1 * e.nx1 + e.f21 * e.le2 * e.nx2 + e.f31 * e.le3 * e.nx3 + e.f41 * e.le4 * e.nx4) / e.Ac)),
  (e.i2 * 5 + 1, e.i2 * 5 + 0, e.Ac * ((e.A12 * (e.f12 * e.le1 * e.ny1 + e.f22 * e.le2 * e.ny2 + e.f32 * e.le3 * e.ny3 + e.f42 * e.le4 * e.ny4) / e.Ac + e.A16 * (e.f12 * e.le1 * e.nx1 + e.f22 * e.le2 * e.nx2 + e.f32 * e.le3 * e.nx3 + e.f42 * e.le4 * e.nx4) / e.Ac) * (e.f12 * e.le1 * e.nx1 + e.f22 * e.le2 * e.nx2 + e.f32 * e.le3 * e.nx3 + e.f42 * e.le4 * e.nx4) / e.Ac + (e.A26 * (e.f12 * e.le1 * e.ny1 + e.f22 * e.le2 * e.ny2 + e.f32 * e.le3 * e.ny3 + e.f42 * e.le4 * e.ny4) / e.Ac + e.A66 * (e.f12 * e.le1 * e.nx1 + e.f22 * e.le2 * e.nx2 + e.f32 * e.le3 * e.nx3 + e.f42 * e.le4 * e.nx4) / e.Ac) * (e.f12 * e.le1 * e.ny1 + e.f22 * e.le2 * e.ny2 + e.f32 * e.le3 * e.ny3 + e.f42 * e.le4 * e.ny4) / e.Ac)),
  (e.i2 * 5 + 1, e.i2 * 5 + 1, e.Ac * ((e.A22 * (e.f12 * e.le1 * e.ny1 + e.f22 * e.le2 * e.ny2 + e.f32 * e.le3 * e.ny3 + e.f42 * e.le4 * e.ny4) / e.Ac + e.A26 * (e.f12 * e.le1 * e.nx1 + e.f22 * e.le2 * e.nx2 + e.f32 * e.le3 * e.nx3 + e.f42 * e.le4 * e.nx4) / e.Ac) * (e.f12 * e.le1 * e.ny1 + e.f22 * e.le2 * e.ny2 + e.f32 * e.le3 * e.ny3 + e.f42 * e.le4 * e.ny4) / e.Ac + (e.A26 * (e.f12 * e.le1 * e.ny1 + e.f22 * e.le2 * e.ny2 + e.f32 * e.le3 * e.ny3 + e.f42 * e.le4 * e.ny4) / e.Ac + e.A66 * (e.f12 * e.le1 * e.nx1 + e.f22 * e.le2 * e.nx2 + e.f32 * e.le3 * e.nx3 + e.f42 * e.le4 * e.nx4) / e.Ac) * (e.f12 * e.le1 * e.nx1 + e.f22 * e.le2 * e.nx2 + e.f32 * e.le3 * e.nx3 + e.f42 * e.le4 * e.nx4) / e.Ac)),
  (e.i2 * 5 + 1, e.i2 * 5 + 3, e.Ac * ((e.B12 * (e.f12 * e.le1 * e.ny1 + e.f22 * e.le2 * e.ny2 + e.f32 * e.le3 * e.ny3 + e.f42 * e.le4 * e.ny4) / e.Ac + e.B16 * (e.f12 * e.le1 * e.nx1 + e.f22 * e.le2 * e.nx2 + e.f32 * e.le3 * e.nx3 + e.f42 * e.le4 * e.nx4) / e.Ac) * (e.f12 * e.le1 * e.nx1 + e.f22 * e.le2 * e.nx2 + e.f32 * e.le3 * e.nx3 + e.f42 * e.le4 * e.nx4) / e.Ac + (e.B26 * (e.f12 * e.le1 * e.ny1 + e.f22 * e.le2 * e.ny2 + e.f32 * e.le3 * e.ny3 + e.f42 * e.le4 * e.ny4) / e.Ac + e.B66 * (e.f12 * e.le1 * e.nx1 + e.f22 * e.le2 * e.nx2 + e.f32 * e.le3 * e.nx3 + e.f42 * e.le4 * e.nx4) / e.Ac) * (e.f12 * e.le1 * e.ny1 + e.f22 * e.le2 * e.ny2 + e.f32 * e.le3 * e.ny3 + e.f42 * e.le4 * e.ny4) / e.Ac)),
  (e.i2 * 5 + 1, e.i2 * 5 + 4, e.Ac * ((e.B22 * (e.f12 * e.le1 * e.ny1 + e.f22 * e.le2 * e.ny2 + e.f32 * e.le3 * e.ny3 + e.f42 * e.le4 * e.ny4) / e.Ac + e.B26 * (e.f12 * e.le1 * e.nx1 + e.f22 * e.le2 * e.nx2 + e.f32 * e.le3 * e.nx3 + e.f42 * e.le4 * e.nx4) / e.Ac) * (e.f12 * e.le1 * e.ny1 + e.f22 * e.le2 * e.ny2 + e.f32 * e.le3 * e.ny3 + e.f42 * e.le4 * e.ny4) / e.Ac + (e.B26 * (e.f12 * e.le1 * e.ny1 + e.f22 * e.le2 * e.ny2 + e.f32 * e.le3 * e.ny3 + e.f42 * e.le4 * e.ny4) / e.Ac + e.B66 * (e.f12 * e.le1 * e.nx1 + e.f22 * e.le2 * e.nx2 + e.f32 * e.le3 * e.nx3 + e.f42 * e.le4 * e.nx4) / e.Ac) * (e.f12 * e.le1 * e.nx1 + e.f22 * e.le2 * e.nx2 + e.f32 * e.le3 * e.nx3 + e.f42 * e.le4 * e.nx4) / e.Ac)),
  (e.i2 * 5 + 1, e.i3 * 5 + 0, e.Ac * ((e.A12 * (e.f12 * e.le1 * e.ny1 + e.f22 * e.le2 * e.ny2 + e.f32 * e.le3 * e.ny3 + e.f42 * e.le4 * e.ny4) / e.Ac + e.A16 * (e.f12 * e.le1 * e.nx1 + e.f22 * e.le2 * e.nx2 + e.f32 * e.le3 * e.nx3 + e.f42 * e.le4 * e.nx4) / e.Ac) * (e.f13 * e.le1 * e.nx1 + e.f23 * e.le2 * e.nx2 + e.f33 * e.le3 * e.nx3 + e.f43 * e.le4 * e.nx4) / e.Ac + (e.A26 * (e.f12 * e.le1 * e.ny1 + e.f22 * e.le2 * e.ny2 + e.f32 * e.le3 * e.ny3 + e.f42 * e.le4 * e.ny4) / e.Ac + e.A66 * (e.f12 * e.le1 * e.nx1 + e.f22 * e.le2 * e.nx2 + e.f32 * e.le3 * e.nx3 + e.f42 * e.le4 * e.nx4) / e.Ac) * (e.f13 * e.le1 * e.ny1 + e.f23 * e.le2 * e.ny2 + e.f33 * e.le3 * e.ny3 + e.f43 * e.le4 * e.ny4) / e.Ac)),
  (e.i2 * 5 + 1, e.i3 * 5 + 1, e.Ac * ((e.A22 * (e.f12 * e.le1 * e.ny1 + e.f22 * e.le2 * e.ny2 + e.f32 * e.le3 * e.ny3 + e.f42 * e.le4 * e.ny4) / e.Ac + e.A26 * (e.f12 * e.le1 * e.nx1 + e.f22 * e.le2 * e.nx2 + e.f32 * e.le3 * e.nx3 + e.f42 * e.le4 * e.nx4) / e.Ac) * (e.f13 * e.le1 * e.ny1 + e.f23 * e.le2 * e.ny2 + e.f33 * e.le3 * e.ny3 + e.f43 * e.le4 * e.ny4) / e.Ac + (e.A26 * (e.f12 * e.le1 * e.ny1 + e.f22 * e.le2 * e.ny2 + e.f32 * e.le3 * e.ny3 + e.f42 * e.le4 * e.ny4) / e.Ac + e.A66 * (e.f12 * e.le1 * e.nx1 + e.f22 * e.le2 * e.nx2 + e.f32 * e.le3 * e.nx3 + e.f42 * e.le4 * e.nx4) / e.Ac) * (e.f13 * e.le1 * e.nx1 + e.f23 * e.le2 * e.nx2 + e.f33 * e.le3 * e.nx3 + e.f43 * e.le4 * e.nx4) / e.Ac)),
  (e.i2 * 5 + 1, e.i3 * 5 + 3, e.Ac * ((e.B12 * (e.f12 * e.le1 * e.ny1 + e.f22 * e.le2 * e.ny2 + e.f32 * e.le3 * e.ny3 + e.f42 * e.le4 * e.ny4) / e.Ac + e.B16 * (e.f12 * e.le1 * e.nx1 + e.f22 * e.le2 * e.nx2 + e.f32 * e.le3 * e.nx3 + e.f42 * e.le4 * e.nx4) / e.Ac) * (e.f13 * e.le1 * e.nx1 + e.f23 * e.le2 * e.nx2 + e.f33 * e.le3 * e.nx3 + e.f43 * e.le4 * e.nx4) / e.Ac + (e.B26 * (e.f12 * e.le1 * e.ny1 + e.f22 * e.le2 * e.ny2 + e.f32 * e.le3 * e.ny3 + e.f42 * e.le4 * e.ny4) / e.Ac + e.B66 * (e.f12 * e.le1 * e.nx1 + e.f22 * e.le2 * e.nx2 + e.f32 * e.le3 * e.nx3 + e.f42 * e.le4 * e.nx4) / e.Ac) * (e.f13 * e.le1 * e.ny1 + e.f23 * e.le2 * e.ny2 + e.f33 * e.le3 * e.ny3 + e.f43 * e.le4 * e.ny4) / e.Ac)),
  (e.i2 * 5 + 1, e.i3 * 5 + 4, e.Ac * ((e.B22 * (e.f12 * e.le1 * e.ny1 + e.f22 * e.le2 * e.ny2 + e.f32 * e.le3 * e.ny3 + e.f42 * e.le4 * e.ny4) / e.Ac + e.B26 * (e.f12 * e.le1 * e.nx1 + e.f22 * e.le2 * e.nx2 + e.f32 * e.le3 * e.nx3 + e.f42 * e.le4 * e.nx4) / e.Ac) * (e.f13 * e.le1 * e.ny1 + e.f23 * e.le2 * e.ny2 + e.f33 * e.le3 * e.ny3 + e.f43 * e.le4 * e.ny4) / e.Ac + (e.B26 * (e.f12 * e.le1 * e.ny1 + e.f22 * e.le2 * e.ny2 + e.f32 * e.le3 * e.ny3 + e.f42 * e.le4 * e.ny4) / e.Ac + e.B66 * (e.f12 * e.le1 * e.nx1 + e.f22 * e.le2 * e.nx2 + e.f32 * e.le3 * e.nx3 + e.f42 * e.le4 * e.nx4) / e.Ac) * (e.f13 * e.le1 * e.nx1 + e.f23 * e.le2 * e.nx2 + e.f33 * e.le3 * e.nx3 + e.f43 * e.le4 * e.nx4) / e.Ac)),
  (e.i2 * 5 + 1, e.i4 * 5 + 0, e.Ac * ((e.A12 * (e.f12 * e.le1 * e.ny1 + e.f22 * e.le2 * e.ny2 + e.f32 * e.le3 * e.ny3 + e.f42 * e.le4 * e.ny4) / e.Ac + e.A16 * (e.f12 * e.le1 * e.nx1 + e.f22 * e.le2 * e.nx2 + e.f32 * e.le3 * e.nx3 + e.f42 * e.le4 * e.nx4) / e.Ac) * (e.f14 * e.le1 * e.nx1 + e.f24 * e.le2 * e.nx2 + e.f34 * e.le3 * e.nx3 + e.f44 * e.le4 * e.nx4) / e.Ac + (e.A26 * (e.f12 * e.le1 * e.ny1 + e.f22 * e.le2 * e.ny2 + e.f32 * e.le3 * e.ny3 + e.f42 * e.le4 * e.ny4) / e.Ac + e.A66 * (e.f12 * e.le1 * e.nx1 + e.f22 * e.le2 * e.nx2 + e.f32 * e.le3 * e.nx3 + e.f42 * e.le4 * e.nx4) / e.Ac) * (e.f14 * e.le1 * e.ny1 + e.f24 * e.le2 * e.ny2 + e.f34 * e.le3 * e.ny3 + e.f44 * e.le4 * e.ny4) / e.Ac)),
  (e.i2 * 5 + 1, e.i4 * 5 + 1, e.Ac * ((e.A22 * (e.f12 * e.le1 * e.ny1 + e.f22 * e.le2 * e.ny2 + e.f32 * e.le3 * e.ny3 + e.f42 * e.le4 * e.ny4) / e.Ac + e.A26 * (e.f12 * e.le1 * e.nx1 + e.f22 * e.le2 * e.nx2 + e.f32 * e.le3 * e.nx3 + e.f42 * e.le4 * e.nx4) / e.Ac) * (e.f14 * e.le1 * e.ny1 + e.f24 * e.le2 * e.ny2 + e.f34 * e.le3 * e.ny3 + e.f44 * e.le4 * e.ny4) / e.Ac + (e.A26 * (e.f12 * e.le1 * e.ny1 + e.f22 * e.le2 * e.ny2 + e.f32 * e.le3 * e.ny3 + e.f42 * e.le4 * e.ny4) / e.Ac + e.A66 * (e.f12 * e.le1 * e.nx1 + e.f22 * e.le2 * e.nx2 + e.f32 * e.le3 * e.nx3 + e.f42 * e.le4 * e.nx4) / e.Ac) * (e.f14 * e.le1 * e.nx1 + e.f24 * e.le2 * e.nx2 + e.f34 * e.le3 * e.nx3 + e.f44 * e.le4 * e.nx4) / e.Ac)),
  (e.i2 * 5 + 1, e.i4 * 5 + 3, e.Ac * ((e.B12 * (e.f12 * e.le1 * e.ny1 + e.f22 * e.le2 * e.ny2 + e.f32 * e.le3 * e.ny3 + e.f42 * e.le4 * e.ny4) / e.Ac + e.B16 * (e.f12 * e.le1 * e.nx1 + e.f22 * e.le2 * e.nx2 + e.f32 * e.le3 * e.nx3 + e.f42 * e.le4 * e.nx4) / e.Ac) * (e.f14 * e.le1 * e.nx1 + e.f24 * e.le2 * e.nx2 + e.f34 * e.le3 * e.nx3 + e.f44 * e.le4 * e.nx4) / e.Ac + (e.B26 * (e.f12 * e.le1 * e.ny1 + e.f22 * e.le2 * e.ny2 + e.f32 * e.le3 * e.ny3 + e.f42 * e.le4 * e.ny4) / e.Ac + e.B66 * (e.f12 * e.le1 * e.nx1 + e.f22 * e.le2 * e.nx2 + e.f32 * e.le3 * e.nx3 + e.f42 * e.le4 * e.nx4) / e.Ac) * (e.f14 * e.le1 * e.ny1 + e.f24 * e.le2 * e.ny2 + e.f34 * e.le3 * e.ny3 + e.f44 * e.le4 * e.ny4) / e.Ac)),
  (e.i2 * 5 + 1, e.i4 * 5 + 4, e.Ac * ((e.B22 * (e.f12 * e.le1 * e.ny1 + e.f22 * e.le2 * e.ny2 + e.f32 * e.le3 * e.ny3 + e.f42 * e.le4 * e.ny4) / e.Ac + e.B26 * (e.f12 * e.le1 * e.nx1 + e.f22 * e.le2 * e.nx2 + e.f32 * e.le3 * e.nx3 + e.f42 * e.le4 * e.nx4) / e.Ac) * (e.f14 * e.le1 * e.ny1 + e.f24 * e.le2 * e.ny2 + e.f34 * e.le3 * e.ny3 + e.f44 * e.le4 * e.ny4) / e.Ac + (e.B26 * (e.f12 * e.le1 * e.ny1 + e.f22 * e.le2 * e.ny2 + e.f32 * e.le3 * e.ny3 + e.f42 * e.le4 * e.ny4) / e.Ac + e.B66 * (e.f12 * e.le1 * e.nx1 + e.f22 * e.le2 * e.nx2 + e.f32 * e.le3 * e.nx3 + e.f42 * e.le4 * e.nx4) / e.Ac) * (e.f14 * e.le1 * e.nx1 + e.f24 * e.le2 * e.nx2 + e.f34 * e.le3 * e.nx3 + e.f44 * e.le4 * e.nx4) / e.Ac))]

/-- meshless/espim/plate2d_calc_k0.py:349-364 -/
def k0_i2_3 (e : K0Env K) : List (ℤ × ℤ × K) := [
  (e.i2 * 5 + 3, e.i1 * 5 + 0, e.Ac * ((e.B11 * (e.f12 * e.le1 * e.nx1 + e.f22 * e.le2 * e.nx2 + e.f32 * e.le3 * e.nx3 + e.f42 * e.le4 * e.nx4) / e.Ac + e.B16 * (e.f12 * e.le1 * e.ny1 + e.f22 * e.le2 * e.ny2 + e.f32 * e.le3 * e.ny3 + e.f42 * e.le4 * e.ny4) / e.Ac) * (e.f11 * e.le1 * e.nx1 + e.f21 * e.le2 * e.nx2 + e.f31 * e.le3 * e.nx3 + e.f41 * e.le4 * e.nx4) / e.Ac + (e.B16 * (e.f12 * e.le1 * e.nx1 + e.f22 * e.le2 * e.nx2 + e.f32 * e.le3 * e.nx3 + e.f42 * e.le4 * e.nx4) / e.Ac + e.B66 * (e.f12 * e.le1 * e.ny1 + e.f22 * e.le2 * e.ny2 + e.f32 * e.le3 * e.ny3 + e.f42 * e.le4 * e.ny4) / e.Ac) * (e.f11 * e.le1 * e.ny1 + e.f21 * e.le2 * e.ny2 + e.f31 * e.le3 * e.ny3 + e.f41 * e.le4 * e.ny4) / e.Ac)),
  (e.i2 * 5 + 3, e.i1 * 5 + 1, e.Ac * ((e.B12 * (e.f12 * e.le1 * e.nx1 + e.f22 * e.le2 * e.nx2 + e.f32 * e.le3 * e.nx3 + e.f42 * e.le4 * e.nx4) / e.Ac + e.B26 * (e.f12 * e.le1 * e.ny1 + e.f22 * e.le2 * e.ny2 + e.f32 * e.le3 * e.ny3 + e.f42 * e.le4 * e.ny4) / e.Ac) * (e.f11 * e.le1 * e.ny1 + e.f21 * e.le2 * e.ny2 + e.f31 * e.le3 * e.ny3 + e.f41 * e.le4 * e.ny4) / e.Ac + (e.B16 * (e.f12 * e.le1 * e.nx1 + e.f22 * e.le2 * e.nx2 + e.f32 * e.le3 * e.nx3 + e.f42 * e.le4 * e.nx4) / e.Ac + e.B66 * (e.f12 * e.le1 * e.ny1 + e.f22 * e.le2 * e.ny2 + e.f32 * e.le3 * e.ny3 + e.f42 * e.le4 * e.ny4) / e.Ac) * (e.f11 * e.le1 * e.nx1 + e.f21 * e.le2 * e.nx2 + e.f31 * e.le3 * e.nx3 + e.f41 * e.le4 * e.nx4) / e.Ac)),
  (e.i2 * 5 + 3, e.i1 * 5 + 3, e.Ac * ((e.D11 * (e.f12 * e.le1 * e.nx1 + e.f22 * e.le2 * e.nx2 + e.f32 * e.le3 * e.nx3 + e.f42 * e.le4 * e.nx4) / e.Ac + e.D16 * (e.f12 * e.le1 * e.ny1 + e.f22 * e.le2 * e.ny2 + e.f32 * e.le3 * e.ny3 + e.f42 * e.le4 * e.ny4) / e.Ac) * (e.f11 * e.le1 * e.nx1 + e.f21 * e.le2 * e.nx2 + e.f31 * e.le3 * e.nx3 + e.f41 * e.le4 * e.nx4) / e.Ac + (e.D16 * (e.f12 * e.le1 * e.nx1 + e.f22 * e.le2 * e.nx2 + e.f32 * e.le3 * e.nx3 + e.f42 * e.le4 * e.nx4) / e.Ac + e.D66 * (e.f12 * e.le1 * e.ny1 + e.f22 * e.le2 * e.ny2 + e.f32 * e.le3 * e.ny3 + e.f42 * e.le4 * e.ny4) / e.Ac) * (e.f11 * e.le1 * e.ny1 + e.f21 * e.le2 * e.ny2 + e.f31 * e.le3 * e.ny3 + e.f41 * e.le4 * e.ny4) / e.Ac)),
  (e.i2 * 5 + 3, e.i1 * 5 + 4, e.Ac * ((e.D12 * (e.f12 * e.le1 * e.nx1 + e.f22 * e.le2 * e.nx2 + e.f32 * e.le3 * e.nx3 + e.f42 * e.le4 * e.nx4) / e.Ac + e.D26 * (e.f12 * e.le1 * e.ny1 + e.f22 * e.le2 * e.ny2 + e.f32 * e.le3 * e.ny3 + e.f42 * e.le4 * e.ny4) / e.Ac) * (e.f11 * e.le1 * e.ny1 + e.f21 * e.le2 * e.ny2 + e.f31 * e.le3 * e.ny3 + e.f41 * e.le4 * e.ny4) / e.Ac + (e.D16 * (e.f12 * e.le1 * e.nx1 + e.f22 * e.le2 * e.nx2 + e.f32 * e.le3 * e.nx3 + e.f42 * e.le4 * e.nx4) / e.Ac + e.D66 * (e.f12 * e.le1 * e.ny1 + e.f22 * e.le2 * e.ny2 + e.f32 * e.le3 * e.ny3 + e.f42 * e.le4 * e.ny4) / e.Ac) * (e.f11 * e.le1 * e.nx1 + e.f21 * e.le2 * e.nx2 + e.f31 * e.le3 * e.nx3 + e.f41 * e.le4 * e.nx4) / e.Ac)),
  (e.i2 * 5 + 3, e.i2 * 5 + 0, e.Ac * ((e.B11 * (e.f12 * e.le1 * e.nx1 + e.f22 * e.le2 * e.nx2 + e.f32 * e.le3 * e.nx3 + e.f42 * e.le4 * e.nx4) / e.Ac + e.B16 * (e.f12 * e.le1 * e.ny1 + e.f22 * e.le2 * e.ny2 + e.f32 * e.le3 * e.ny3 + e.f42 * e.le4 * e.ny4) / e.Ac) * (e.f12 * e.le1 * e.nx1 + e.f22 * e.le2 * e.nx2 + e.f32 * e.le3 * e.nx3 + e.f42 * e.le4 * e.nx4) / e.Ac + (e.B16 * (e.f12 * e.le1 * e.nx1 + e.f22 * e.le2 * e.nx2 + e.f32 * e.le3 * e.nx3 + e.f42 * e.le4 * e.nx4) / e.Ac + e.B66 * (e.f12 * e.le1 * e.ny1 + e.f22 * e.le2 * e.ny2 + e.f32 * e.le3 * e.ny3 + e.f42 * e.le4 * e.ny4) / e.Ac) * (e.f12 * e.le1 * e.ny1 + e.f22 * e.le2 * e.ny2 + e.f32 * e.le3 * e.ny3 + e.f42 * e.le4 * e.ny4) / e.Ac)),
  (e.i2 * 5 + 3, e.i2 * 5 + 1, e.Ac * ((e.B12 * (e.f12 * e.le1 * e.nx1 + e.f22 * e.le2 * e.nx2 + e.f32 * e.le3 * e.nx3 + e.f42 * e.le4 * e.nx4) / e.Ac + e.B26 * (e.f12 * e.le1 * e.ny1 + e.f22 * e.le2 * e.ny2 + e.f32 * e.le3 * e.ny3 + e.f42 * e.le4 * e.ny4) / e.Ac) * (e.f12 * e.le1 * e.ny1 + e.f22 * e.le2 * e.ny2 + e.f32 * e.le3 * e.ny3 + e.f42 * e.le4 * e.ny4) / e.Ac + (e.B16 * (e.f12 * e.le1 * e.nx1 + e.f22 * e.le2 * e.nx2 + e.f32 * e.le3 * e.nx3 + e.f42 * e.le4 * e.nx4) / e.Ac + e.B66 * (e.f12 * e.le1 * e.ny1 + e.f22 * e.le2 * e.ny2 + e.f32 * e.le3 * e.ny3 + e.f42 * e.le4 * e.ny4) / e.Ac) * (e.f12 * e.le1 * e.nx1 + e.f22 * e.le2 * e.nx2 + e.f32 * e.le3 * e.nx3 + e.f42 * e.le4 * e.nx4) / e.Ac)),
  (e.i2 * 5 + 3, e.i2 * 5 + 3, e.Ac * ((e.D11 * (e.f12 * e.le1 * e.nx1 + e.f22 * e.le2 * e.nx2 + e.f32 * e.le3 * e.nx3 + e.f42 * e.le4 * e.nx4) / e.Ac + e.D16 * (e.f12 * e.le1 * e.ny1 + e.f22 * e.le2 * e.ny2 + e.f32 * e.le3 * e.ny3 + e.f42 * e.le4 * e.ny4) / e.Ac) * (e.f12 * e.le1 * e.nx1 + e.f22 * e.le2 * e.nx2 + e.f32 * e.le3 * e.nx3 + e.f42 * e.le4 * e.nx4) / e.Ac + (e.D16 * (e.f12 * e.le1 * e.nx1 + e.f22 * e.le2 * e.nx2 + e.f32 * e.le3 * e.nx3 + e.f42 * e.le4 * e.nx4) / e.Ac + e.D66 * (e.f12 * e.le1 * e.ny1 + e.f22 * e.le2 * e.ny2 + e.f32 * e.le3 * e.ny3 + e.f42 * e.le4 * e.ny4) / e.Ac) * (e.f12 * e.le1 * e.ny1 + e.f22 * e.le2 * e.ny2 + e.f32 * e.le3 * e.ny3 + e.f42 * e.le4 * e.ny4) / e.Ac)),
  (e.i2 * 5 + 3, e.i2 * 5 + 4, e.Ac * ((e.D12 * (e.f12 * e.le1 * e.nx1 + e.f22 * e.le2 * e.nx2 + e.f32 * e.le3 * e.nx3 + e.f42 * e.le4 * e.nx4) / e.Ac + e.D26 * (e.f12 * e.le1 * e.ny1 + e.f22 * e.le2 * e.ny2 + e.f32 * e.le3 * e.ny3 + e.f42 * e.le4 * e.ny4) / e.Ac) * (e.f12 * e.le1 * e.ny1 + e.f22 * e.le2 * e.ny2 + e.f32 * e.le3 * e.ny3 + e.f42 * e.le4 * e.ny4) / e.Ac + (e.D16 * (e.f12 * e.le1 * e.nx1 + e.f22 * e.le2 * e.nx2 + e.f32 * e.le3 * e.nx3 + e.f42 * e.le4 * e.nx4) / e.Ac + e.D66 * (e.f12 * e.le1 * e.ny1 + e.f22 * e.le2 * e.ny2 + e.f32 * e.le3 * e.ny3 + e.f42 * e.le4 * e.ny4) / e.Ac) * (e.f12 * e.le1 * e.nx1 + e.f22 * e.le2 * e.nx2 + e.f32 * e.le3 * e.nx3 + e.f42 * e.le4 * e.nx4) / e.Ac)),
  (e.i2 * 5 + 3, e.i3 * 5 + 0, e.Ac * ((e.B11 * (e.f12 * e.le1 * e.nx1 + e.f22 * e.le2 * e.nx2 + e.f32 * e.le3 * e.nx3 + e.f42 * e.le4 * e.nx4) / e.Ac + e.B16 * (e.f12 * e.le1 * e.ny1 + e.f22 * e.le2 * e.ny2 + e.f32 * e.le3 * e.ny3 + e.f42 * e.le4 * e.ny4) / e.Ac) * (e.f13 * e.le1 * e.nx1 + e.f23 * e.le2 * e.nx2 + e.f33 * e.le3 * e.nx3 + e.f43 * e.le4 * e.nx4) / e.Ac + (e.B16 * (e.f12 * e.le1 * e.nx1 + e.f22 * e.le2 * e.nx2 + e.f32 * e.le3 * e.nx3 + e.f42 * e.le4 * e.nx4) / e.Ac + e.B66 * (e.f12 * e.le1 * e.ny1 + e.f22 * e.le2 * e.ny2 + e.f32 * e.le3 * e.ny3 + e.f42 * e.le4 * e.ny4) / e.Ac) * (e.f13 * e.le1 * e.ny1 + e.f23 * e.le2 * e.ny2 + e.f33 * e.le3 * e.ny3 + e.f43 * e.le4 * e.ny4) / e.Ac)),
  (e.i2 * 5 + 3, e.i3 * 5 + 1, e.Ac * ((e.B12 * (e.f12 * e.le1 * e.nx1 + e.f22 * e.le2 * e.nx2 + e.f32 * e.le3 * e.nx3 + e.f42 * e.le4 * e.nx4) / e.Ac + e.B26 * (e.f12 * e.le1 * e.ny1 + e.f22 * e.le2 * e.ny2 + e.f32 * e.le3 * e.ny3 + e.f42 * e.le4 * e.ny4) / e.Ac) * (e.f13 * e.le1 * e.ny1 + e.f23 * e.le2 * e.ny2 + e.f33 * e.le3 * e.ny3 + e.f43 * e.le4 * e.ny4) / e.Ac + (e.B16 * (e.f12 * e.le1 * e.nx1 + e.f22 * e.le2 * e.nx2 + e.f32 * e.le3 * e.nx3 + e.f42 * e.le4 * e.nx4) / e.Ac + e.B66 * (e.f12 * e.le1 * e.ny1 + e.f22 * e.le2 * e.ny2 + e.f32 * e.le3 * e.ny3 + e.f42 * e.le4 * e.ny4) / e.Ac) * (e.f13 * e.le1 * e.nx1 + e.f23 * e.le2 * e.nx2 + e.f33 * e.le3 * e.nx3 + e.f43 * e.le4 * e.nx4) / e.Ac)),
  (e.i2 * 5 + 3, e.i3 * 5 + 3, e.Ac * ((e.D11 * (e.f12 * e.le1 * e.nx1 + e.f22 * e.le2 * e.nx2 + e.f32 * e.le3 * e.nx3 + e.f42 * e.le4 * e.nx4) / e.Ac + e.D16 * (e.f12 * e.le1 * e.ny1 + e.f22 * e.le2 * e.ny2 + e.f32 * e.le3 * e.ny3 + e.f42 * e.le4 * e.ny4) / e.Ac) * (e.f13 * e.le1 * e.nx1 + e.f23 * e.le2 * e.nx2 + e.f33 * e.le3 * e.nx3 + e.f43 * e.le4 * e.nx4) / e.Ac + (e.D16 * (e.f12 * e.le1 * e.nx1 + e.f22 * e.le2 * e.nx2 + e.f32 * e.le3 * e.nx3 + e.f42 * e.le4 * e.nx4) / e.Ac + e.D66 * (e.f12 * e.le1 * e.ny1 + e.f22 * e.le2 * e.ny2 + e.f32 * e.le3 * e.ny3 + e.f42 * e.le4 * e.ny4) / e.Ac) * (e.f13 * e.le1 * e.ny1 + e.f23 * e.le2 * e.ny2 + e.f33 * e.le3 * e.ny3 + e.f43 * e.le4 * e.ny4) / e.Ac)),
  (e.i2 * 5 + 3, e.i3 * 5 + 4, e.Ac * ((e.D12 * (e.f12 * e.le1 * e.nx1 + e.f22 * e.le2 * e.nx2 + e.f32 * e.le3 * e.nx3 + e.f42 * e.le4 * e.nx4) / e.Ac + e.D26 * (e.f12 * e.le1 * e.ny1 + e.f22 * e.le2 * e.ny2 + e.f32 * e.le3 * e.ny3 + e.f42 * e.le4 * e.ny4) / e.Ac) * (e.f13 * e.le1 * e.ny1 + e.f23 * e.le2 * e.ny2 + e.f33 * e.le3 * e.ny3 + e.f43 * e.le4 * e.ny4) / e.Ac + (e.D16 * (e.f12 * e.le1 * e.nx1 + e.f22 * e.le2 * e.nx2 + e.f32 * e.le3 * e.nx3 + e.f42 * e.le4 * e.nx4) / e.Ac + e.D66 * (e.f12 * e.le1 * e.ny1 + e.f22 * e.le2 * e.ny2 + e.f32 * e.le3 * e.ny3 + e.f42 * e.le4 * e.ny4) / e.Ac) * (e.f13 * e.le1 * e.nx1 + e.f23 * e.le2 * e.nx2 + e.f33 * e.le3 * e.nx3 + e.f43 * e.le4 * e.nx4) / e.Ac)),
  (e.i2 * 5 + 3, e.i4 * 5 + 0, e.Ac * ((e.B11 * (e.f12 * e.le1 * e.nx1 + e.f22 * e.le2 * e.nx2 + e.f32 * e.le3 * e.nx3 + e.f42 * e.le4 * e.nx4) / e.Ac + e.B16 * (e.f12 * e.le1 * e.ny1 + e.f22 * e.le2 * e.ny2 + e.f32 * e.le3 * e.ny3 + e.f42 * e.le4 * e.ny4) / e.Ac) * (e.f14 * e.le1 * e.nx1 + e.f24 * e.le2 * e.nx2 + e.f34 * e.le3 * e.nx3 + e.f44 * e.le4 * e.nx4) / e.Ac + (e.B16 * (e.f12 * e.le1 * e.nx1 + e.f22 * e.le2 * e.nx2 + e.f32 * e.le3 * e.nx3 + e.f42 * e.le4 * e.nx4) / e.Ac + e.B66 * (e.f12 * e.le1 * e.ny1 + e.f22 * e.le2 * e.ny2 + e.f32 * e.le3 * e.ny3 + e.f42 * e.le4 * e.ny4) / e.Ac) * (e.f14 * e.le1 * e.ny1 + e.f24 * e.le2 * e.ny2 + e.f34 * e.le3 * e.ny3 + e.f44 * e.le4 * e.ny4) / e.Ac)),
  (e.i2 * 5 + 3, e.i4 * 5 + 1, e.Ac * ((e.B12 * (e.f12 * e.le1 * e.nx1 + e.f22 * e.le2 * e.nx2 + e.f32 * e.le3 * e.nx3 + e.f42 * e.le4 * e.nx4) / e.Ac + e.B26 * (e.f12 * e.le1 * e.ny1 + e.f22 * e.le2 * e.ny2 + e.f32 * e.le3 * e.ny3 + e.f42 * e.le4 * e.ny4) / e.Ac) * (e.f14 * e.le1 * e.ny1 + e.f24 * e.le2 * e.ny2 + e.f34 * e.le3 * e.ny3 + e.f44 * e.le4 * e.ny4) / e.Ac + (e.B16 * (e.f12 * e.le1 * e.nx1 + e.f22 * e.le2 * e.nx2 + e.f32 * e.le3 * e.nx3 + e.f42 * e.le4 * e.nx4) / e.Ac + e.B66 * (e.f12 * e.le1 * e.ny1 + e.f22 * e.le2 * e.ny2 + e.f32 * e.le3 * e.ny3 + e.f42 * e.le4 * e.ny4) / e.Ac) * (e.f14 * e.le1 * e.nx1 + e.f24 * e.le2 * e.nx2 + e.f34 * e.le3 * e.nx3 + e.f44 * e.le4 * e.nx4) / e.Ac)),
  (e.i2 * 5 + 3, e.i4 * 5 + 3, e.Ac * ((e.D11 * (e.f12 * e.le1 * e.nx1 + e.f22 * e.le2 * e.nx2 + e.f32 * e.le3 * e.nx3 + e.f42 * e.le4 * e.nx4) / e.Ac + e.D16 * (e.f12 * e.le1 * e.ny1 + e.f22 * e.le2 * e.ny2 + e.f32 * e.le3 * e.ny3 + e.f42 * e.le4 * e.ny4) / e.Ac) * (e.f14 * e.le1 * e.nx1 + e.f24 * e.le2 * e.nx2 + e.f34 * e.le3 * e.nx3 + e.f44 * e.le4 * e.nx4) / e.Ac + (e.D16 * (e.f12 * e.le1 * e.nx1 + e.f22 * e.le2 * e.nx2 + e.f32 * e.le3 * e.nx3 + e.f42 * e.le4 * e.nx4) / e.Ac + e.D66 * (e.f12 * e.le1 * e.ny1 + e.f22 * e.le2 * e.ny2 + e.f32 * e.le3 * e.ny3 + e.f42 * e.le4 * e.ny4) / e.Ac) * (e.f14 * e.le1 * e.ny1 + e.f24 * e.le2 * e.ny2 + e.f34 * e.le3 * e.ny3 + e.f44 * e.le4 * e.ny4) / e.Ac)),
  (e.i2 * 5 + 3, e.i4 * 5 + 4, e.Ac * ((e.D12 * (e.f12 * e.le1 * e.nx1 + e.f22 * e.le2 * e.nx2 + e.f32 * e.le3 * e.nx3 + e.f42 * e.le4 * e.nx4) / e.Ac + e.D26 * (e.f12 * e.le1 * e.ny1 + e.f22 * e.le2 * e.ny2 + e.f32 * e.le3 * e.ny3 + e.f42 * e.le4 * e.ny4) / e.Ac) * (e.f14 * e.le1 * e.ny1 + e.f24 * e.le2 * e.ny2 + e.f34 * e.le3 * e.ny3 + e.f44 * e.le4 * e.ny4) / e.Ac + (e.D16 * (e.f12 * e.le1 * e.nx1 + e.f22 * e.le2 * e.nx2 + e.f32 * e.le3 * e.nx3 + e.f42 * e.le4 * e.nx4) / e.Ac + e.D66 * (e.f12 * e.le1 * e.ny1 + e.f22 * e.le2 * e.ny2 + e.f32 * e.le3 * e.ny3 + e.f42 * e.le4 * e.ny4) / e.Ac) * (e.f14 * e.le1 * e.nx1 + e.f24 * e.le2 * e.nx2 + e.f34 * e.le3 * e.nx3 + e.f44 * e.le4 * e.nx4) / e.Ac))]

/-- meshless/espim/plate2d_calc_k0.py:365-380 -/
def k0_i2_4 (e : K0Env K) : List (ℤ × ℤ × K) := [
  (e.i2 * 5 + 4, e.i1 * 5 + 0, e.Ac * ((e.B12 * (e.f12 * e.le1 * e.ny1 + e.f22 * e.le2 * e.ny2 + e.f32 * e.le3 * e.ny3 + e.f42 * e.le4 * e.ny4) / e.Ac + e.B16 * (e.f12 * e.le1 * e.nx1 + e.f22 * e.le2 * e.nx2 + e.f32 * e.le3 * e.nx3 + e.f42 * e.le4 * e.nx4) / e.Ac) * (e.f11 * e.le1 * e.nx1 + e.f21 * e.le2 * e.nx2 + e.f31 * e.le3 * e.nx3 + e.f41 * e.le4 * e.nx4) / e.Ac + (e.B26 * (e.f12 * e.le1 * e.ny1 + e.f22 * e.le2 * e.ny2 + e.f32 * e.le3 * e.ny3 + e.f42 * e.le4 * e.ny4) / e.Ac + e.B66 * (e.f12 * e.le1 * e.nx1 + e.f22 * e.le2 * e.nx2 + e.f32 * e.le3 * e.nx3 + e.f42 * e.le4 * e.nx4) / e.Ac) * (e.f11 * e.le1 * e.ny1 + e.f21 * e.le2 * e.ny2 + e.f31 * e.le3 * e.ny3 + e.f41 * e.le4 * e.ny4) / e.Ac)),
  (e.i2 * 5 + 4, e.i1 * 5 + 1, e.Ac * ((e.B22 * (e.f12 * e.le1 * e.ny1 + e.f22 * e.le2 * e.ny2 + e.f32 * e.le3 * e.ny3 + e.f42 * e.le4 * e.ny4) / e.Ac + e.B26 * (e.f12 * e.le1 * e.nx1 + e.f22 * e.le2 * e.nx2 + e.f32 * e.le3 * e.nx3 + e.f42 * e.le4 * e.nx4) / e.Ac) * (e.f11 * e.le1 * e.ny1 + e.f21 * e.le2 * e.ny2 + e.f31 * e.le3 * e.ny3 + e.f41 * e.le4 * e.ny4) / e.Ac + (e.B26 * (e.f12 * e.le1 * e.ny1 + e.f22 * e.le2 * e.ny2 + e.f32 * e.le3 * e.ny3 + e.f42 * e.le4 * e.ny4) / e.Ac + e.B66 * (e.f12 * e.le1 * e.nx1 + e.f22 * e.le2 * e.nx2 + e.f32 * e.le3 * e.nx3 + e.f42 * e.le4 * e.nx4) / e.Ac) * (e.f11 * e.le1 * e.nx1 + e.f21 * e.le2 * e.nx2 + e.f31 * e.le3 * e.nx3 + e.f41 * e.le4 * e.nx4) / e.Ac)),
  (e.i2 * 5 + 4, e.i1 * 5 + 3, e.Ac * ((e.D12 * (e.f12 * e.le1 * e.ny1 + e.f22 * e.le2 * e.ny2 + e.f32 * e.le3 * e.ny3 + e.f42 * e.le4 * e.ny4) / e.Ac + e.D16 * (e.f12 * e.le1 * e.nx1 + e.f22 * e.le2 * e.nx2 + e.f32 * e.le3 * e.nx3 + e.f42 * e.le4 * e.nx4) / e.Ac) * (e.f11 * e.le1 * e.nx1 + e.f21 * e.le2 * e.nx2 + e.f31 * e.le3 * e.nx3 + e.f41 * e.le4 * e.nx4) / e.Ac + (e.D26 * (e.f12 * e.le1 * e.ny1 + e.f22 * e.le2 * e.ny2 + e.f32 * e.le3 * e.ny3 + e.f42 * e.le4 * e.ny4) / e.Ac + e.D66 * (e.f12 * e.le1 * e.nx1 + e.f22 * e.le2 * e.nx2 + e.f32 * e.le3 * e.nx3 + e.f42 * e.le4 * e.nx4) / e.Ac) * (e.f11 * e.le1 * e.ny1 + e.f21 * e.le2 * e.ny2 + e.f31 * e.le3 * e.ny3 + e.f41 * e.le4 * e.ny4) / e.Ac)),
  (e.i2 * 5 + 4, e.i1 * 5 + 4, e.Ac * ((e.D22 * (e.f12 * e.le1 * e.ny1 + e.f22 * e.le2 * e.ny2 + e.f32 * e.le3 * e.ny3 + e.f42 * e.le4 * e.ny4) / e.Ac + e.D26 * (e.f12 * e.le1 * e.nx1 + e.f22 * e.le2 * e.nx2 + e.f32 * e.le3 * e.nx3 + e.f42 * e.le4 * e.nx4) / e.Ac) * (e.f11 * e.le1 * e.ny1 + e.f21 * e.le2 * e.ny2 + e.f31 * e.le3 * e.ny3 + e.f41 * e.le4 * e.ny4) / e.Ac + (e.D26 * (e.f12 * e.le1 * e.ny1 + e.f22 * e.le2 * e.ny2 + e.f32 * e.le3 * e.ny3 + e.f42 * e.le4 * e.ny4) / e.Ac + e.D66 * (e.f12 * e.le1 * e.nx1 + e.f22 * e.le2 * e.nx2 + e.f32 * e.le3 * e.nx3 + e.f42 * e.le4 * e.nx4) / e.Ac) * (e.f11 * e.le1 * e.nx1 + e.f21 * e.le2 * e.nx2 + e.f31 * e.le3 * e.nx3 + e.f41 * e.le4 * e.nx4) / e.Ac)),
  (e.i2 * 5 + 4, e.i2 * 5 + 0, e.Ac * ((e.B12 * (e.f12 * e.le1 * e.ny1 + e.f22 * e.le2 * e.ny2 + e.f32 * e.le3 * e.ny3 + e.f42 * e.le4 * e.ny4) / e.Ac + e.B16 * (e.f12 * e.le1 * e.nx1 + e.f22 * e.le2 * e.nx2 + e.f32 * e.le3 * e.nx3 + e.f42 * e.le4 * e.nx4) / e.Ac) * (e.f12 * e.le1 * e.nx1 + e.f22 * e.le2 * e.nx2 + e.f32 * e.le3 * e.nx3 + e.f42 * e.le4 * e.nx4) / e.Ac + (e.B26 * (e.f12 * e.le1 * e.ny1 + e.f22 * e.le2 * e.ny2 + e.f32 * e.le3 * e.ny3 + e.f42 * e.le4 * e.ny4) / e.Ac + e.B66 * (e.f12 * e.le1 * e.nx1 + e.f22 * e.le2 * e.nx2 + e.f32 * e.le3 * e.nx3 + e.f42 * e.le4 * e.nx4) / e.Ac) * (e.f12 * e.le1 * e.ny1 + e.f22 * e.le2 * e.ny2 + e.f32 * e.le3 * e.ny3 + e.f42 * e.le4 * e.ny4) / e.Ac)),
  (e.i2 * 5 + 4, e.i2 * 5 + 1, e.Ac * ((e.B22 * (e.f12 * e.le1 * e.ny1 + e.f22 * e.le2 * e.ny2 + e.f32 * e.le3 * e.ny3 + e.f42 * e.le4 * e.ny4) / e.Ac + e.B26 * (e.f12 * e.le1 * e.nx1 + e.f22 * e.le2 * e.nx2 + e.f32 * e.le3 * e.nx3 + e.f42 * e.le4 * e.nx4) / e.Ac) * (e.f12 * e.le1 * e.ny1 + e.f22 * e.le2 * e.ny2 + e.f32 * e.le3 * e.ny3 + e.f42 * e.le4 * e.ny4) / e.Ac + (e.B26 * (e.f12 * e.le1 * e.ny1 + e.f22 * e.le2 * e.ny2 + e.f32 * e.le3 * e.ny3 + e.f42 * e.le4 * e.ny4) / e.Ac + e.B66 * (e.f12 * e.le1 * e.nx1 + e.f22 * e.le2 * e.nx2 + e.f32 * e.le3 * e.nx3 + e.f42 * e.le4 * e.nx4) / e.Ac) * (e.f12 * e.le1 * e.nx1 + e.f22 * e.le2 * e.nx2 + e.f32 * e.le3 * e.nx3 + e.f42 * e.le4 * e.nx4) / e.Ac)),
  (e.i2 * 5 + 4, e.i2 * 5 + 3, e.Ac * ((e.D12 * (e.f12 * e.le1 * e.ny1 + e.f22 * e.le2 * e.ny2 + e.f32 * e.le3 * e.ny3 + e.f42 * e.le4 * e.ny4) / e.Ac + e.D16 * (e.f12 * e.le1 * e.nx1 + e.f22 * e.le2 * e.nx2 + e.f32 * e.le3 * e.nx3 + e.f42 * e.le4 * e.nx4) / e.Ac) * (e.f12 * e.le1 * e.nx1 + e.f22 * e.le2 * e.nx2 + e.f32 * e.le3 * e.nx3 + e.f42 * e.le4 * e.nx4) / e.Ac + (e.D26 * (e.f12 * e.le1 * e.ny1 + e.f22 * e.le2 * e.ny2 + e.f32 * e.le3 * e.ny3 + e.f42 * e.le4 * e.ny4) / e.Ac + e.D66 * (e.f12 * e.le1 * e.nx1 + e.f22 * e.le2 * e.nx2 + e.f32 * e.le3 * e.nx3 + e.f42 * e.le4 * e.nx4) / e.Ac) * (e.f12 * e.le1 * e.ny1 + e.f22 * e.le2 * e.ny2 + e.f32 * e.le3 * e.ny3 + e.f42 * e.le4 * e.ny4) / e.Ac)),
  (e.i2 * 5 + 4, e.i2 * 5 + 4, e.Ac * ((e.D22 * (e.f12 * e.le1 * e.ny1 + e.f22 * e.le2 * e.ny2 + e.f32 * e.le3 * e.ny3 + e.f42 * e.le4 * e.ny4) / e.Ac + e.D26 * (e.f12 * e.le1 * e.nx1 + e.f22 * e.le2 * e.nx2 + e.f32 * e.le3 * e.nx3 + e.f42 * e.le4 * e.nx4) / e.Ac) * (e.f12 * e.le1 * e.ny1 + e.f22 * e.le2 * e.ny2 + e.f32 * e.le3 * e.ny3 + e.f42 * e.le4 * e.ny4) / e.Ac + (e.D26 * (e.f12 * e.le1 * e.ny1 + e.f22 * e.le2 * e.ny2 + e.f32 * e.le3 * e.ny3 + e.f42 * e.le4 * e.ny4) / e.Ac + e.D66 * (e.f12 * e.le1 * e.nx1 + e.f22 * e.le2 * e.nx2 + e.f32 * e.le3 * e.nx3 + e.f42 * e.le4 * e.nx4) / e.Ac) * (e.f12 * e.le1 * e.nx1 + e.f22 * e.le2 * e.nx2 + e.f32 * e.le3 * e.nx3 + e.f42 * e.le4 * e.nx4) / e.Ac)),
  (e.i2 * 5 + 4, e.i3 * 5 + 0, e.Ac * ((e.B12 * (e.f12 * e.le1 * e.ny1 + e.f22 * e.le2 * e.ny2 + e.f32 * e.le3 * e.ny3 + e.f42 * e.le4 * e.ny4) / e.Ac + e.B16 * (e.f12 * e.le1 * e.nx1 + e.f22 * e.le2 * e.nx2 + e.f32 * e.le3 * e.nx3 + e.f42 * e.le4 * e.nx4) / e.Ac) * (e.f13 * e.le1 * e.nx1 + e.f23 * e.le2 * e.nx2 + e.f33 * e.le3 * e.nx3 + e.f43 * e.le4 * e.nx4) / e.Ac + (e.B26 * (e.f12 * e.le1 * e.ny1 + e.f22 * e.le2 * e.ny2 + e.f32 * e.le3 * e.ny3 + e.f42 * e.le4 * e.ny4) / e.Ac + e.B66 * (e.f12 * e.le1 * e.nx1 + e.f22 * e.le2 * e.nx2 + e.f32 * e.le3 * e.nx3 + e.f42 * e.le4 * e.nx4) / e.Ac) * (e.f13 * e.le1 * e.ny1 + e.f23 * e.le2 * e.ny2 + e.f33 * e.le3 * e.ny3 + e.f43 * e.le4 * e.ny4) / e.Ac)),
  (e.i2 * 5 + 4, e.i3 * 5 + 1, e.Ac * ((e.B22 * (e.f12 * e.le1 * e.ny1 + e.f22 * e.le2 * e.ny2 + e.f32 * e.le3 * e.ny3 + e.f42 * e.le4 * e.ny4) / e.Ac + e.B26 * (e.f12 * e.le1 * e.nx1 + e.f22 * e.le2 * e.nx2 + e.f32 * e.le3 * e.nx3 + e.f42 * e.le4 * e.nx4) / e.Ac) * (e.f13 * e.le1 * e.ny1 + e.f23 * e.le2 * e.ny2 + e.f33 * e.le3 * e.ny3 + e.f43 * e.le4 * e.ny4) / e.Ac + (e.B26 * (e.f12 * e.le1 * e.ny1 + e.f22 * e.le2 * e.ny2 + e.f32 * e.le3 * e.ny3 + e.f42 * e.le4 * e.ny4) / e.Ac + e.B66 * (e.f12 * e.le1 * e.nx1 + e.f22 * e.le2 * e.nx2 + e.f32 * e.le3 * e.nx3 + e.f42 * e.le4 * e.nx4) / e.Ac) * (e.f13 * e.le1 * e.nx1 + e.f23 * e.le2 * e.nx2 + e.f33 * e.le3 * e.nx3 + e.f43 * e.le4 * e.nx4) / e.Ac)),
  (e.i2 * 5 + 4, e.i3 * 5 + 3, e.Ac * ((e.D12 * (e.f12 * e.le1 * e.ny1 + e.f22 * e.le2 * e.ny2 + e.f32 * e.le3 * e.ny3 + e.f42 * e.le4 * e.ny4) / e.Ac + e.D16 * (e.f12 * e.le1 * e.nx1 + e.f22 * e.le2 * e.nx2 + e.f32 * e.le3 * e.nx3 + e.f42 * e.le4 * e.nx4) / e.Ac) * (e.f13 * e.le1 * e.nx1 + e.f23 * e.le2 * e.nx2 + e.f33 * e.le3 * e.nx3 + e.f43 * e.le4 * e.nx4) / e.Ac + (e.D26 * (e.f12 * e.le1 * e.ny1 + e.f22 * e.le2 * e.ny2 + e.f32 * e.le3 * e.ny3 + e.f42 * e.le4 * e.ny4) / e.Ac + e.D66 * (e.f12 * e.le1 * e.nx1 + e.f22 * e.le2 * e.nx2 + e.f32 * e.le3 * e.nx3 + e.f42 * e.le4 * e.nx4) / e.Ac) * (e.f13 * e.le1 * e.ny1 + e.f23 * e.le2 * e.ny2 + e.f33 * e.le3 * e.ny3 + e.f43 * e.le4 * e.ny4) / e.Ac)),
  (e.i2 * 5 + 4, e.i3 * 5 + 4, e.Ac * ((e.D22 * (e.f12 * e.le1 * e.ny1 + e.f22 * e.le2 * e.ny2 + e.f32 * e.le3 * e.ny3 + e.f42 * e.le4 * e.ny4) / e.Ac + e.D26 * (e.f12 * e.le1 * e.nx1 + e.f22 * e.le2 * e.nx2 + e.f32 * e.le3 * e.nx3 + e.f42 * e.le4 * e.nx4) / e.Ac) * (e.f13 * e.le1 * e.ny1 + e.f23 * e.le2 * e.ny2 + e.f33 * e.le3 * e.ny3 + e.f43 * e.le4 * e.ny4) / e.Ac + (e.D26 * (e.f12 * e.le1 * e.ny1 + e.f22 * e.le2 * e.ny2 + e.f32 * e.le3 * e.ny3 + e.f42 * e.le4 * e.ny4) / e.Ac + e.D66 * (e.f12 * e.le1 * e.nx1 + e.f22 * e.le2 * e.nx2 + e.f32 * e.le3 * e.nx3 + e.f42 * e.le4 * e.nx4) / e.Ac) * (e.f13 * e.le1 * e.nx1 + e.f23 * e.le2 * e.nx2 + e.f33 * e.le3 * e.nx3 + e.f43 * e.le4 * e.nx4) / e.Ac)),
  (e.i2 * 5 + 4, e.i4 * 5 + 0, e.Ac * ((e.B12 * (e.f12 * e.le1 * e.ny1 + e.f22 * e.le2 * e.ny2 + e.f32 * e.le3 * e.ny3 + e.f42 * e.le4 * e.ny4) / e.Ac + e.B16 * (e.f12 * e.le1 * e.nx1 + e.f22 * e.le2 * e.nx2 + e.f32 * e.le3 * e.nx3 + e.f42 * e.le4 * e.nx4) / e.Ac) * (e.f14 * e.le1 * e.nx1 + e.f24 * e.le2 * e.nx2 + e.f34 * e.le3 * e.nx3 + e.f44 * e.le4 * e.nx4) / e.Ac + (e.B26 * (e.f12 * e.le1 * e.ny1 + e.f22 * e.le2 * e.ny2 + e.f32 * e.le3 * e.ny3 + e.f42 * e.le4 * e.ny4) / e.Ac + e.B66 * (e.f12 * e.le1 * e.nx1 + e.f22 * e.le2 * e.nx2 + e.f32 * e.le3 * e.nx3 + e.f42 * e.le4 * e.nx4) / e.Ac) * (e.f14 * e.le1 * e.ny1 + e.f24 * e.le2 * e.ny2 + e.f34 * e.le3 * e.ny3 + e.f44 * e.le4 * e.ny4) / e.Ac)),
  (e.i2 * 5 + 4, e.i4 * 5 + 1, e.Ac * ((e.B22 * (e.f12 * e.le1 * e.ny1 + e.f22 * e.le2 * e.ny2 + e.f32 * e.le3 * e.ny3 + e.f42 * e.le4 * e.ny4) / e.Ac + e.B26 * (e.f12 * e.le1 * e.nx1 + e.f22 * e.le2 * e.nx2 + e.f32 * e.le3 * e.nx3 + e.f42 * e.le4 * e.nx4) / e.Ac) * (e.f14 * e.le1 * e.ny1 + e.f24 * e.le2 * e.ny2 + e.f34 * e.le3 * e.ny3 + e.f44 * e.le4 * e.ny4) / e.Ac + (e.B26 * (e.f12 * e.le1 * e.ny1 + e.f22 * e.le2 * e.ny2 + e.f32 * e.le3 * e.ny3 + e.f42 * e.le4 * e.ny4) / e.Ac + e.B66 * (e.f12 * e.le1 * e.nx1 + e.f22 * e.le2 * e.nx2 + e.f32 * e.le3 * e.nx3 + e.f42 * e.le4 * e.nx4) / e.Ac) * (e.f14 * e.le1 * e.nx1 + e.f24 * e.le2 * e.nx2 + e.f34 * e.le3 * e.nx3 + e.f44 * e.le4 * e.nx4) / e.Ac)),
  (e.i2 * 5 + 4, e.i4 * 5 + 3, e.Ac * ((e.D12 * (e.f12 * e.le1 * e.ny1 + e.f22 * e.le2 * e.ny2 + e.f32 * e.le3 * e.ny3 + e.f42 * e.le4 * e.ny4) / e.Ac + e.D16 * (e.f12 * e.le1 * e.nx1 + e.f22 * e.le2 * e.nx2 + e.f32 * e.le3 * e.nx3 + e.f42 * e.le4 * e.nx4) / e.Ac) * (e.f14 * e.le1 * e.nx1 + e.f24 * e.le2 * e.nx2 + e.f34 * e.le3 * e.nx3 + e.f44 * e.le4 * e.nx4) / e.Ac + (e.D26 * (e.f12 * e.le1 * e.ny1 + e.f22 * e.le2 * e.ny2 + e.f32 * e.le3 * e.ny3 + e.f42 * e.le4 * e.ny4) / e.Ac + e.D66 * (e.f12 * e.le1 * e.nx1 + e.f22 * e.le2 * e.nx2 + e.f32 * e.le3 * e.nx3 + e.f42 * e.le4 * e.nx4) / e.Ac) * (e.f14 * e.le1 * e.ny1 + e.f24 * e.le2 * e.ny2 + e.f34 * e.le3 * e.ny3 + e.f44 * e.le4 * e.ny4) / e.Ac)),
  (e.i2 * 5 + 4, e.i4 * 5 + 4, e.Ac * ((e.D22 * (e.f12 * e.le1 * e.ny1 + e.f22 * e.le2 * e.ny2 + e.f32 * e.le3 * e.ny3 + e.f42 * e.le4 * e.ny4) / e.Ac + e.D26 * (e.f12 * e.le1 * e.nx1 + e.f22 * e.le2 * e.nx2 + e.f32 * e.le3 * e.nx3 + e.f42 * e.le4 * e.nx4) / e.Ac) * (e.f14 * e.le1 * e.ny1 + e.f24 * e.le2 * e.ny2 + e.f34 * e.le3 * e.ny3 + e.f44 * e.le4 * e.ny4) / e.Ac + (e.D26 * (e.f12 * e.le1 * e.ny1 + e.f22 * e.le2 * e.ny2 + e.f32 * e.le3 * e.ny3 + e.f42 * e.le4 * e.ny4) / e.Ac + e.D66 * (e.f12 * e.le1 * e.nx1 + e.f22 * e.le2 * e.nx2 + e.f32 * e.le3 * e.nx3 + e.f42 * e.le4 * e.nx4) / e.Ac) * (e.f14 * e.le1 * e.nx1 + e.f24 * e.le2 * e.nx2 + e.f34 * e.le3 * e.nx3 + e.f44 * e.le4 * e.nx4) / e.Ac))]

/-- meshless/espim/plate2d_calc_k0.py:381-396 -/
def k0_i3_0 (e : K0Env K) : List (ℤ × ℤ × K) := [
  (e.i3 * 5 + 0, e.i1 * 5 + 0, e.Ac * ((e.A11 * (e.f13 * e.le1 * e.nx1 + e.f23 * e.le2 * e.nx2 + e.f33 * e.le3 * e.nx3 + e.f43 * e.le4 * e.nx4) / e.Ac + e.A16 * (e.f13 * e.le1 * e.ny1 + e.f23 * e.le2 * e.ny2 + e.f33 * e.le3 * e.ny3 + e.f43 * e.le4 * e.ny4) / e.Ac) * (e.f11 * e.le1 * e.nx1 + e.f21 * e.le2 * e.nx2 + e.f31 * e.le3 * e.nx3 + e.f41 * e.le4 * e.nx4) / e.Ac + (e.A16 * (e.f13 * e.le1 * e.nx1 + e.f23 * e.le2 * e.nx2 + e.f33 * e.le3 * e.nx3 + e.f43 * e.le4 * e.nx4) / e.Ac + e.A66 * (e.f13 * e.le1 * e.ny1 + e.f23 * e.le2 * e.ny2 + e.f33 * e.le3 * e.ny3 + e.f43 * e.le4 * e.ny4) / e.Ac) * (e.f11 * e.le1 * e.ny1 + e.f21 * e.le2 * e.ny2 + e.f31 * e.le3 * e.ny3 + e.f41 * e.le4 * e.ny4) / e.Ac)),
  (e.i3 * 5 + 0, e.i1 * 5 + 1, e.Ac * ((e.A12 * (e.f13 * e.le1 * e.nx1 + e.f23 * e.le2 * e.nx2 + e.f33 * e.le3 * e.nx3 + e.f43 * e.le4 * e.nx4) / e.Ac + e.A26 * (e.f13 * e.le1 * e.ny1 + e.f23 * e.le2 * e.ny2 + e.f33 * e.le3 * e.ny3 + e.f43 * e.le4 * e.ny4) / e.Ac) * (e.f11 * e.le1 * e.ny1 + e.f21 * e.le2 * e.ny2 + e.f31 * e.le3 * e.ny3 + e.f41 * e.le4 * e.ny4) / e.Ac + (e.A16 * (e.f13 * e.le1 * e.nx1 + e.f23 * e.le2 * e.nx2 + e.f33 * e.le3 * e.nx3 + e.f43 * e.le4 * e.nx4) / e.Ac + e.A66 * (e.f13 * e.le1 * e.ny1 + e.f23 * e.le2 * e.ny2 + e.f33 * e.le3 * e.ny3 + e.f43 * e.le4 * e.ny4) / e.Ac) * (e.f11 * e.le1 * e.nx1 + e.f21 * e.le2 * e.nx2 + e.f31 * e.le3 * e.nx3 + e.f41 * e.le4 * e.nx4) / e.Ac)),
  (e.i3 * 5 + 0, e.i1 * 5 + 3, e.Ac * ((e.B11 * (e.f13 * e.le1 * e.nx1 + e.f23 * e.le2 * e.nx2 + e.f33 * e.le3 * e.nx3 + e.f43 * e.le4 * e.nx4) / e.Ac + e.B16 * (e.f13 * e.le1 * e.ny1 + e.f23 * e.le2 * e.ny2 + e.f33 * e.le3 * e.ny3 + e.f43 * e.le4 * e.ny4) / e.Ac) * (e.f11 * e.le1 * e.nx1 + e.f21 * e.le2 * e.nx2 + e.f31 * e.le3 * e.nx3 + e.f41 * e.le4 * e.nx4) / e.Ac + (e.B16 * (e.f13 * e.le1 * e.nx1 + e.f23 * e.le2 * e.nx2 + e.f33 * e.le3 * e.nx3 + e.f43 * e.le4 * e.nx4) / e.Ac + e.B66 * (e.f13 * e.le1 * e.ny1 + e.f23 * e.le2 * e.ny2 + e.f33 * e.le3 * e.ny3 + e.f43 * e.le4 * e.ny4) / e.Ac) * (e.f11 * e.le1 * e.ny1 + e.f21 * e.le2 * e.ny2 + e.f31 * e.le3 * e.ny3 + e.f41 * e.le4 * e.ny4) / e.Ac)),
  (e.i3 * 5 + 0, e.i1 * 5 + 4, e.Ac * ((e.B12 * (e.f13 * e.le1 * e.nx1 + e.f23 * e.le2 * e.nx2 + e.f33 * e.le3 * e.nx3 + e.f43 * e.le4 * e.nx4) / e.Ac + e.B26 * (e.f13 * e.le1 * e.ny1 + e.f23 * e.le2 * e.ny2 + e.f33 * e.le3 * e.ny3 + e.f43 * e.le4 * e.ny4) / e.Ac) * (e.f11 * e.le1 * e.ny1 + e.f21 * e.le2 * e.ny2 + e.f31 * e.le3 * e.ny3 + e.f41 * e.le4 * e.ny4) / e.Ac + (e.B16 * (e.f13 * e.le1 * e.nx1 + e.f23 * e.le2 * e.nx2 + e.f33 * e.le3 * e.nx3 + e.f43 * e.le4 * e.nx4) / e.Ac + e.B66 * (e.f13 * e.le1 * e.ny1 + e.f23 * e.le2 * e.ny2 + e.f33 * e.le3 * e.ny3 + e.f43 * e.le4 * e.ny4) / e.Ac) * (e.f11 * e.le1 * e.nx1 + e.f21 * e.le2 * e.nx2 + e.f31 * e.le3 * e.nx3 + e.f41 * e.le4 * e.nx4) / e.Ac)),
  (e.i3 * 5 + 0, e.i2 * 5 + 0, e.Ac * ((e.A11 * (e.f13 * e.le1 * e.nx1 + e.f23 * e.le2 * e.nx2 + e.f33 * e.le3 * e.nx3 + e.f43 * e.le4 * e.nx4) / e.Ac + e.A16 * (e.f13 * e.le1 * e.ny1 + e.f23 * e.le2 * e.ny2 + e.f33 * e.le3 * e.ny3 + e.f43 * e.le4 * e.ny4) / e.Ac) * (e.f12 * e.le1 * e.nx1 + e.f22 * e.le2 * e.nx2 + e.f32 * e.le3 * e.nx3 + e.f42 * e.le4 * e.nx4) / e.Ac + (e.A16 * (e.f13 * e.le1 * e.nx1 + e.f23 * e.le2 * e.nx2 + e.f33 * e.le3 * e.nx3 + e.f43 * e.le4 * e.nx4) / e.Ac + e.A66 * (e.f13 * e.le1 * e.ny1 + e.f23 * e.le2 * e.ny2 + e.f33 * e.le3 * e.ny3 + e.f43 * e.le4 * e.ny4) / e.Ac) * (e.f12 * e.le1 * e.ny1 + e.f22 * e.le2 * e.ny2 + e.f32 * e.le3 * e.ny3 + e.f42 * e.le4 * e.ny4) / e.Ac)),
  (e.i3 * 5 + 0, e.i2 * 5 + 1, e.Ac * ((e.A12 * (e.f13 * e.le1 * e.nx1 + e.f23 * e.le2 * e.nx2 + e.f33 * e.le3 * e.nx3 + e.f43 * e.le4 * e.nx4) / e.Ac + e.A26 * (e.f13 * e.le1 * e.ny1 + e.f23 * e.le2 * e.ny2 + e.f33 * e.le3 * e.ny3 + e.f43 * e.le4 * e.ny4) / e.Ac) * (e.f12 * e.le1 * e.ny1 + e.f22 * e.le2 * e.ny2 + e.f32 * e.le3 * e.ny3 + e.f42 * e.le4 * e.ny4) / e.Ac + (e.A16 * (e.f13 * e.le1 * e.nx1 + e.f23 * e.le2 * e.nx2 + e.f33 * e.le3 * e.nx3 + e.f43 * e.le4 * e.nx4) / e.Ac + e.A66 * (e.f13 * e.le1 * e.ny1 + e.f23 * e.le2 * e.ny2 + e.f33 * e.le3 * e.ny3 + e.f43 * e.le4 * e.ny4) / e.Ac) * (e.f12 * e.le1 * e.nx1 + e.f22 * e.le2 * e.nx2 + e.f32 * e.le3 * e.nx3 + e.f42 * e.le4 * e.nx4) / e.Ac)),
  (e.i3 * 5 + 0, e.i2 * 5 + 3, e.Ac * ((e.B11 * (e.f13 * e.le1 * e.nx1 + e.f23 * e.le2 * e.nx2 + e.f33 * e.le3 * e.nx3 + e.f43 * e.le4 * e.nx4) / e.Ac + e.B16 * (e.f13 * e.le1 * e.ny1 + e.f23 * e.le2 * e.ny2 + e.f33 * e.le3 * e.ny3 + e.f43 * e.le4 * e.ny4) / e.Ac) * (e.f12 * e.le1 * e.nx1 + e.f22 * e.le2 * e.nx2 + e.f32 * e.le3 * e.nx3 + e.f42 * e.le4 * e.nx4) / e.Ac + (e.B16 * (e.f13 * e.le1 * e.nx1 + e.f23 * e.le2 * e.nx2 + e.f33 * e.le3 * e.nx3 + e.f43 * e.le4 * e.nx4) / e.Ac + e.B66 * (e.f13 * e.le1 * e.ny1 + e.f23 * e.le2 * e.ny2 + e.f33 * e.le3 * e.ny3 + e.f43 * e.le4 * e.ny4) / e.Ac) * (e.f12 * e.le1 * e.ny1 + e.f22 * e.le2 * e.ny2 + e.f32 * e.le3 * e.ny3 + e.f42 * e.le4 * e.ny4) / e.Ac)),
  (e.i3 * 5 + 0, e.i2 * 5 + 4, e.Ac * ((e.B12 * (e.f13 * e.le1 * e.nx1 + e.f23 * e.le2 * e.nx2 + e.f33 * e.le3 * e.nx3 + e.f43 * e.le4 * e.nx4) / e.Ac + e.B26 * (e.f13 * e.le1 * e.ny1 + e.f23 * e.le2 * e.ny2 + e.f33 * e.le3 * e.ny3 + e.f43 * e.le4 * e.ny4) / e.Ac) * (e.f12 * e.le1 * e.ny1 + e.f22 * e.le2 * e.ny2 + e.f32 * e.le3 * e.ny3 + e.f42 * e.le4 * e.ny4) / e.Ac + (e.B16 * (e.f13 * e.le1 * e.nx1 + e.f23 * e.le2 * e.nx2 + e.f33 * e.le3 * e.nx3 + e.f43 * e.le4 * e.nx4) / e.Ac + e.B66 * (e.f13 * e.le1 * e.ny1 + e.f23 * e.le2 * e.ny2 + e.f33 * e.le3 * e.ny3 + e.f43 * e.le4 * e.ny4) / e.Ac) * (e.f12 * e.le1 * e.nx1 + e.f22 * e.le2 * e.nx2 + e.f32 * e.le3 * e.nx3 + e.f42 * e.le4 * e.nx4) / e.Ac)),
  (e.i3 * 5 + 0, e.i3 * 5 + 0, e.Ac * ((e.A11 * (e.f13 * e.le1 * e.nx1 + e.f23 * e.le2 * e.nx2 + e.f33 * e.le3 * e.nx3 + e.f43 * e.le4 * e.nx4) / e.Ac + e.A16 * (e.f13 * e.le1 * e.ny1 + e.f23 * e.le2 * e.ny2 + e.f33 * e.le3 * e.ny3 + e.f43 * e.le4 * e.ny4) / e.Ac) * (e.f13 * e.le1 * e.nx1 + e.f23 * e.le2 * e.nx2 + e.f33 * e.le3 * e.nx3 + e.f43 * e.le4 * e.nx4) / e.Ac + (e.A16 * (e.f13 * e.le1 * e.nx1 + e.f23 * e.le2 * e.nx2 + e.f33 * e.le3 * e.nx3 + e.f43 * e.le4 * e.nx4) / e.Ac + e.A66 * (e.f13 * e.le1 * e.ny1 + e.f23 * e.le2 * e.ny2 + e.f33 * e.le3 * e.ny3 + e.f43 * e.le4 * e.ny4) / e.Ac) * (e.f13 * e.le1 * e.ny1 + e.f23 * e.le2 * e.ny2 + e.f33 * e.le3 * e.ny3 + e.f43 * e.le4 * e.ny4) / e.Ac)),
  (e.i3 * 5 + 0, e.i3 * 5 + 1, e.Ac * ((e.A12 * (e.f13 * e.le1 * e.nx1 + e.f23 * e.le2 * e.nx2 + e.f33 * e.le3 * e.nx3 + e.f43 * e.le4 * e.nx4) / e.Ac + e.A26 * (e.f13 * e.le1 * e.ny1 + e.f23 * e.le2 * e.ny2 + e.f33 * e.le3 * e.ny3 + e.f43 * e.le4 * e.ny4) / e.Ac) * (e.f13 * e.le1 * e.ny1 + e.f23 * e.le2 * e.ny2 + e.f33 * e.le3 * e.ny3 + e.f43 * e.le4 * e.ny4) / e.Ac + (e.A16 * (e.f13 * e.le1 * e.nx1 + e.f23 * e.le2 * e.nx2 + e.f33 * e.le3 * e.nx3 + e.f43 * e.le4 * e.nx4) / e.Ac + e.A66 * (e.f13 * e.le1 * e.ny1 + e.f23 * e.le2 * e.ny2 + e.f33 * e.le3 * e.ny3 + e.f43 * e.le4 * e.ny4) / e.Ac) * (e.f13 * e.le1 * e.nx1 + e.f23 * e.le2 * e.nx2 + e.f33 * e.le3 * e.nx3 + e.f43 * e.le4 * e.nx4) / e.Ac)),
  (e.i3 * 5 + 0, e.i3 * 5 + 3, e.Ac * ((e.B11 * (e.f13 * e.le1 * e.nx1 + e.f23 * e.le2 * e.nx2 + e.f33 * e.le3 * e.nx3 + e.f43 * e.le4 * e.nx4) / e.Ac + e.B16 * (e.f13 * e.le1 * e.ny1 + e.f23 * e.le2 * e.ny2 + e.f33 * e.le3 * e.ny3 + e.f43 * e.le4 * e.ny4) / e.Ac) * (e.f13 * e.le1 * e.nx1 + e.f23 * e.le2 * e.nx2 + e.f33 * e.le3 * e.nx3 + e.f43 * e.le4 * e.nx4) / e.Ac + (e.B16 * (e.f13 * e.le1 * e.nx1 + e.f23 * e.le2 * e.nx2 + e.f33 * e.le3 * e.nx3 + e.f43 * e.le4 * e.nx4) / e.Ac + e.B66 * (e.f13 * e.le1 * e.ny1 + e.f23 * e.le2 * e.ny2 + e.f33 * e.le3 * e.ny3 + e.f43 * e.le4 * e.ny4) / e.Ac) * (e.f13 * e.le1 * e.ny1 + e.f23 * e.le2 * e.ny2 + e.f33 * e.le3 * e.ny3 + e.f43 * e.le4 * e.ny4) / e.Ac)),
  (e.i3 * 5 + 0, e.i3 * 5 + 4, e.Ac * ((e.B12 * (e.f13 * e.le1 * e.nx1 + e.f23 * e.le2 * e.nx2 + e.f33 * e.le3 * e.nx3 + e.f43 * e.le4 * e.nx4) / e.Ac + e.B26 * (e.f13 * e.le1 * e.ny1 + e.f23 * e.le2 * e.ny2 + e.f33 * e.le3 * e.ny3 + e.f43 * e.le4 * e.ny4) / e.Ac) * (e.f13 * e.le1 * e.ny1 + e.f23 * e.le2 * e.ny2 + e.f33 * e.le3 * e.ny3 + e.f43 * e.le4 * e.ny4) / e.Ac + (e.B16 * (e.f13 * e.le1 * e.nx1 + e.f23 * e.le2 * e.nx2 + e.f33 * e.le3 * e.nx3 + e.f43 * e.le4 * e.nx4) / e.Ac + e.B66 * (e.f13 * e.le1 * e.ny1 + e.f23 * e.le2 * e.ny2 + e.f33 * e.le3 * e.ny3 + e.f43 * e.le4 * e.ny4) / e.Ac) * (e.f13 * e.le1 * e.nx1 + e.f23 * e.le2 * e.nx2 + e.f33 * e.le3 * e.nx3 + e.f43 * e.le4 * e.nx4) / e.Ac)),
  (e.i3 * 5 + 0, e.i4 * 5 + 0, e.Ac * ((e.A11 * (e.f13 * e.le1 * e.nx1 + e.f23 * e.le2 * e.nx2 + e.f33 * e.le3 * e.nx3 + e.f43 * e.le4 * e.nx4) / e.Ac + e.A16 * (e.f13 * e.le1 * e.ny1 + e.f23 * e.le2 * e.ny2 + e.f33 * e.le3 * e.ny3 + e.f43 * e.le4 * e.ny4) / e.Ac) * (e.f14 * e.le1 * e.nx1 + e.f24 * e.le2 * e.nx2 + e.f34 * e.le3 * e.nx3 + e.f44 * e.le4 * e.nx4) / e.Ac + (e.A16 * (e.f13 * e.le1 * e.nx1 + e.f23 * e.le2 * e.nx2 + e.f33 * e.le3 * e.nx3 + e.f43 * e.le4 * e.nx4) / e.Ac + e.A66 * (e.f13 * e.le1 * e.ny1 + e.f23 * e.le2 * e.ny2 + e.f33 * e.le3 * e.ny3 + e.f43 * e.le4 * e.ny4) / e.Ac) * (e.f14 * e.le1 * e.ny1 + e.f24 * e.le2 * e.ny2 + e.f34 * e.le3 * e.ny3 + e.f44 * e.le4 * e.ny4) / e.Ac)),
  (e.i3 * 5 + 0, e.i4 * 5 + 1, e.Ac * ((e.A12 * (e.f13 * e.le1 * e.nx1 + e.f23 * e.le2 * e.nx2 + e.f33 * e.le3 * e.nx3 + e.f43 * e.le4 * e.nx4) / e.Ac + e.A26 * (e.f13 * e.le1 * e.ny1 + e.f23 * e.le2 * e.ny2 + e.f33 * e.le3 * e.ny3 + e.f43 * e.le4 * e.ny4) / e.Ac) * (e.f14 * e.le1 * e.ny1 + e.f24 * e.le2 * e.ny2 + e.f34 * e.le3 * e.ny3 + e.f44 * e.le4 * e.ny4) / e.Ac + (e.A16 * (e.f13 * e.le1 * e.nx1 + e.f23 * e.le2 * e.nx2 + e.f33 * e.le3 * e.nx3 + e.f43 * e.le4 * e.nx4) / e.Ac + e.A66 * (e.f13 * e.le1 * e.ny1 + e.f23 * e.le2 * e.ny2 + e.f33 * e.le3 * e.ny3 + e.f43 * e.le4 * e.ny4) / e.Ac) * (e.f14 * e.le1 * e.nx1 + e.f24 * e.le2 * e.nx2 + e.f34 * e.le3 * e.nx3 + e.f44 * e.le4 * e.nx4) / e.Ac)),
  (e.i3 * 5 + 0, e.i4 * 5 + 3, e.Ac * ((e.B11 * (e.f13 * e.le1 * e.nx1 + e.f23 * e.le2 * e.nx2 + e.f33 * e.le3 * e.nx3 + e.f43 * e.le4 * e.nx4) / e.Ac + e.B16 * (e.f13 * e.le1 * e.ny1 + e.f23 * e.le2 * e.ny2 + e.f33 * e.le3 * e.ny3 + e.f43 * e.le4 * e.ny4) / e.Ac) * (e.f14 * e.le1 * e.nx1 + e.f24 * e.le2 * e.nx2 + e.f34 * e.le3 * e.nx3 + e.f44 * e.le4 * e.nx4) / e.Ac + (e.B16 * (e.f13 * e.le1 * e.nx1 + e.f23 * e.le2 * e.nx2 + e.f33 * e.le3 * e.nx3 + e.f43 * e.le4 * e.nx4) / e.Ac + e.B66 * (e.f13 * e.le1 * e.ny1 + e.f23 * e.le2 * e.ny2 + e.f33 * e.le3 * e.ny3 + e.f43 * e.le4 * e.ny4) / e.Ac) * (e.f14 * e.le1 * e.ny1 + e.f24 * e.le2 * e.ny2 + e.f34 * e.le3 * e.ny3 + e.f44 * e.le4 * e.ny4) / e.Ac)),
  (e.i3 * 5 + 0, e.i4 * 5 + 4, e.Ac * ((e.B12 * (e.f13 * e.le1 * e.nx1 + e.f23 * e.le2 * e.nx2 + e.f33 * e.le3 * e.nx3 + e.f43 * e.le4 * e.nx4) / e.Ac + e.B26 * (e.f13 * e.le1 * e.ny1 + e.f23 * e.le2 * e.ny2 + e.f33 * e.le3 * e.ny3 + e.f43 * e.le4 * e.ny4) / e.Ac) * (e.f14 * e.le1 * e.ny1 + e.f24 * e.le2 * e.ny2 + e.f34 * e.le3 * e.ny3 + e.f44 * e.le4 * e.ny4) / e.Ac + (e.B16 * (e.f13 * e.le1 * e.nx1 + e.f23 * e.le2 * e.nx2 + e.f33 * e.le3 * e.nx3 + e.f43 * e.le4 * e.nx4) / e.Ac + e.B66 * (e.f13 * e.le1 * e.ny1 + e.f23 * e.le2 * e.ny2 + e.f33 * e.le3 * e.ny3 + e.f43 * e.le4 * e.ny4) / e.Ac) * (e.f14 * e.le1 * e.nx1 + e.f24 * e.le2 * e.nx2 + e.f34 * e.le3 * e.nx3 + e.f44 * e.le4 * e.nx4) / e.Ac))]

/-- meshless/espim/plate2d_calc_k0.py:397-412 -/
def k0_i3_1 (e : K0Env K) : List (ℤ × ℤ × K) := [
  (e.i3 * 5 + 1, e.i1 * 5 + 0, e.Ac * ((e.A12 * (e.f13 * e.le1 * e.ny1 + e.f23 * e.le2 * e.ny2 + e.f33 * e.le3 * e.ny3 + e.f43 * e.le4 * e.ny4) / e.Ac + e.A16 * (e.f13 * e.le1 * e.nx1 + e.f23 * e.le2 * e.nx2 + e.f33 * e.le3 * e.nx3 + e.f43 * e.le4 * e.nx4) / e.Ac) * (e.f11 * e.le1 * e.nx1 + e.f21 * e.le2 * e.nx2 + e.f31 * e.le3 * e.nx3 + e.f41 * e.le4 * e.nx4) / e.Ac + (e.A26 * (e.f13 * e.le1 * e.ny1 + e.f23 * e.le2 * e.ny2 + e.f33 * e.le3 * e.ny3 + e.f43 * e.le4 * e.ny4) / e.Ac + e.A66 * (e.f13 * e.le1 * e.nx1 + e.f23 * e.le2 * e.nx2 + e.f33 * e.le3 * e.nx3 + e.f43 * e.le4 * e.nx4) / e.Ac) * (e.f11 * e.le1 * e.ny1 + e.f21 * e.le2 * e.ny2 + e.f31 * e.le3 * e.ny3 + e.f41 * e.le4 * e.ny4) / e.Ac)),
  (e.i3 * 5 + 1, e.i1 * 5 + 1, e.Ac * ((e.A22 * (e.f13 * e.le1 * e.ny1 + e.f23 * e.le2 * e.ny2 + e.f33 * e.le3 * e.ny3 + e.f43 * e.le4 * e.ny4) / e.Ac + e.A26 * (e.f13 * e.le1 * e.nx1 + e.f23 * e.le2 * e.nx2 + e.f33 * e.le3 * e.nx3 + e.f43 * e.le4 * e.nx4) / e.Ac) * (e.f11 * e.le1 * e.ny1 + e.f21 * e.le2 * e.ny2 + e.f31 * e.le3 * e.ny3 + e.f41 * e.le4 * e.ny4) / e.Ac + (e.A26 * (e.f13 * e.le1 * e.ny1 + e.f23 * e.le2 * e.ny2 + e.f33 * e.le3 * e.ny3 + e.f43 * e.le4 * e.ny4) / e.Ac + e.A66 * (e.f13 * e.le1 * e.nx1 + e.f23 * e.le2 * e.nx2 + e.f33 * e.le3 * e.nx3 + e.f43 * e.le4 * e.nx4) / e.Ac) * (e.f11 * e.le1 * e.nx1 + e.f21 * e.le2 * e.nx2 + e.f31 * e.le3 * e.nx3 + e.f41 * e.le4 * e.nx4) / e.Ac)),
  (e.i3 * 5 + 1, e.i1 * 5 + 3, e.Ac * ((e.B12 * (e.f13 * e.le1 * e.ny1 + e.f23 * e.le2 * e.ny2 + e.f33 * e.le3 * e.ny3 + e.f43 * e.le4 * e.ny4) / e.Ac + e.B16 * (e.f13 * e.le1 * e.nx1 + e.f23 * e.le2 * e.nx2 + e.f33 * e.le3 * e.nx3 + e.f43 * e.le4 * e.nx4) / e.Ac) * (e.f11 * e.le1 * e.nx1 + e.f21 * e.le2 * e.nx2 + e.f31 * e.le3 * e.nx3 + e.f41 * e.le4 * e.nx4) / e.Ac + (e.B26 * (e.f13 * e.le1 * e.ny1 + e.f23 * e.le2 * e.ny2 + e.f33 * e.le3 * e.ny3 + e.f43 * e.le4 * e.ny4) / e.Ac + e.B66 * (e.f13 * e.le1 * e.nx1 + e.f23 * e.le2 * e.nx2 + e.f33 * e.le3 * e.nx3 + e.f43 * e.le4 * e.nx4) / e.Ac) * (e.f11 * e.le1 * e.ny1 + e.f21 * e.le2 * e.ny2 + e.f31 * e.le3 * e.ny3 + e.f41 * e.le4 * e.ny4) / e.Ac)),
  (e.i3 * 5 + 1, e.i1 * 5 + 4, e.Ac * ((e.B22 * (e.f13 * e.le1 * e.ny1 + e.f23 * e.le2 * e.ny2 + e.f33 * e.le3 * e.ny3 + e.f43 * e.le4 * e.ny4) / e.Ac + e.B26 * (e.f13 * e.le1 * e.nx1 + e.f23 * e.le2 * e.nx2 + e.f33 * e.le3 * e.nx3 + e.f43 * e.le4 * e.nx4) / e.Ac) * (e.f11 * e.le1 * e.ny1 + e.f21 * e.le2 * e.ny2 + e.f31 * e.le3 * e.ny3 + e.f41 * e.le4 * e.ny4) / e.Ac + (e.B26 * (e.f13 * e.le1 * e.ny1 + e.f23 * e.le2 * e.ny2 + e.f33 * e.le3 * e.ny3 + e.f43 * e.le4 * e.ny4) / e.Ac + e.B66 * (e.f13 * e.le1 * e.nx1 + e.f23 * e.le2 * e.nx2 + e.f33 * e.le3 * e.nx3 + e.f43 * e.le4 * e.nx4) / e.Ac) * (e.f11 * e.le1 * e.nx1 + e.f21 * e.le2 * e.nx2 + e.f31 * e.le3 * e.nx3 + e.f41 * e.le4 * e.nx4) / e.Ac)),
  (e.i3 * 5 + 1, e.i2 * 5 + 0, e.Ac * ((e.A12 * (e.f13 * e.le1 * e.ny1 + e.f23 * e.le2 * e.ny2 + e.f33 * e.le3 * e.ny3 + e.f43 * e.le4 * e.ny4) / e.Ac + e.A16 * (e.f13 * e.le1 * e.nx1 + e.f23 * e.le2 * e.nx2 + e.f33 * e.le3 * e.nx3 + e.f43 * e.le4 * e.nx4) / e.Ac) * (e.f12 * e.le1 * e.nx1 + e.f22 * e.le2 * e.nx2 + e.f32 * e.le3 * e.nx3 + e.f42 * e.le4 * e.nx4) / e.Ac + (e.A26 * (e.f13 * e.le1 * e.ny1 + e.f23 * e.le2 * e.ny2 + e.f33 * e.le3 * e.ny3 + e.f43 * e.le4 * e.ny4) / e.Ac + e.A66 * (e.f13 * e.le1 * e.nx1 + e.f23 * e.le2 * e.nx2 + e.f33 * e.le3 * e.nx3 + e.f43 * e.le4 * e.nx4) / e.Ac) * (e.f12 * e.le1 * e.ny1 + e.f22 * e.le2 * e.ny2 + e.f32 * e.le3 * e.ny3 + e.f42 * e.le4 * e.ny4) / e.Ac)),
  (e.i3 * 5 + 1, e.i2 * 5 + 1, e.Ac * ((e.A22 * (e.f13 * e.le1 * e.ny1 + e.f23 * e.le2 * e.ny2 + e.f33 * e.le3 * e.ny3 + e.f43 * e.le4 * e.ny4) / e.Ac + e.A26 * (e.f13 * e.le1 * e.nx1 + e.f23 * e.le2 * e.nx2 + e.f33 * e.le3 * e.nx3 + e.f43 * e.le4 * e.nx4) / e.Ac) * (e.f12 * e.le1 * e.ny1 + e.f22 * e.le2 * e.ny2 + e.f32 * e.le3 * e.ny3 + e.f42 * e.le4 * e.ny4) / e.Ac + (e.A26 * (e.f13 * e.le1 * e.ny1 + e.f23 * e.le2 * e.ny2 + e.f33 * e.le3 * e.ny3 + e.f43 * e.le4 * e.ny4) / e.Ac + e.A66 * (e.f13 * e.le1 * e.nx1 + e.f23 * e.le2 * e.nx2 + e.f33 * e.le3 * e.nx3 + e.f43 * e.le4 * e.nx4) / e.Ac) * (e.f12 * e.le1 * e.nx1 + e.f22 * e.le2 * e.nx2 + e.f32 * e.le3 * e.nx3 + e.f42 * e.le4 * e.nx4) / e.Ac)),
  (e.i3 * 5 + 1, e.i2 * 5 + 3, e.Ac * ((e.B12 * (e.f13 * e.le1 * e.ny1 + e.f23 * e.le2 * e.ny2 + e.f33 * e.le3 * e.ny3 + e.f43 * e.le4 * e.ny4) / e.Ac + e.B16 * (e.f13 * e.le1 * e.nx1 + e.f23 * e.le2 * e.nx2 + e.f33 * e.le3 * e.nx3 + e.f43 * e.le4 * e.nx4) / e.Ac) * (e.f12 * e.le1 * e.nx1 + e.f22 * e.le2 * e.nx2 + e.f32 * e.le3 * e.nx3 + e.f42 * e.le4 * e.nx4) / e.Ac + (e.B26 * (e.f13 * e.le1 * e.ny1 + e.f23 * e.le2 * e.ny2 + e.f33 * e.le3 * e.ny3 + e.f43 * e.le4 * e.ny4) / e.Ac + e.B66 * (e.f13 * e.le1 * e.nx1 + e.f23 * e.le2 * e.nx2 + e.f33 * e.le3 * e.nx3 + e.f43 * e.le4 * e.nx4) / e.Ac) * (e.f12 * e.le1 * e.ny1 + e.f22 * e.le2 * e.ny2 + e.f32 * e.le3 * e.ny3 + e.f42 * e.le4 * e.ny4) / e.Ac)),
  (e.i3 * 5 + 1, e.i2 * 5 + 4, e.Ac * ((e.B22 * (e.f13 * e.le1 * e.ny1 + e.f23 * e.le2 * e.ny2 + e.f33 * e.le3 * e.ny3 + e.f43 * e.le4 * e.ny4) / e.Ac + e.B26 * (e.f13 * e.le1 * e.nx1 + e.f23 * e.le2 * e.nx2 + e.f33 * e.le3 * e.nx3 + e.f43 * e.le4 * e.nx4) / e.Ac) * (e.f12 * e.le1 * e.ny1 + e.f22 * e.le2 * e.ny2 + e.f32 * e.le3 * e.ny3 + e.f42 * e.le4 * e.ny4) / e.Ac + (e.B26 * (e.f13 * e.le1 * e.ny1 + e.f23 * e.le2 * e.ny2 + e.f33 * e.le3 * e.ny3 + e.f43 * e.le4 * e.ny4) / e.Ac + e.B66 * (e.f13 * e.le1 * e.nx1 + e.f23 * e.le2 * e.nx2 + e.f33 * e.le3 * e.nx3 + e.f43 * e.le4 * e.nx4) / e.Ac) * (e.f12 * e.le1 * e.nx1 + e.f22 * e.le2 * e.nx2 + e.f32 * e.le3 * e.nx3 + e.f42 * e.le4 * e.nx4) / e.Ac)),
  (e.i3 * 5 + 1, e.i3 * 5 + 0, e.Ac * ((e.A12 * (e.f13 * e.le1 * e.ny1 + e.f23 * e.le2 * e.ny2 + e.f33 * e.le3 * e.ny3 + e.f43 * e.le4 * e.ny4) / e.Ac + e.A16 * (e.f13 * e.le1 * e.nx1 + e.f23 * e.le2 * e.nx2 + e.f33 * e.le3 * e.nx3 + e.f43 * e.le4 * e.nx4) / e.Ac) * (e.f13 * e.le1 * e.nx1 + e.f23 * e.le2 * e.nx2 + e.f33 * e.le3 * e.nx3 + e.f43 * e.le4 * e.nx4) / e.Ac + (e.A26 * (e.f13 * e.le1 * e.ny1 + e.f23 * e.le2 * e.ny2 + e.f33 * e.le3 * e.ny3 + e.f43 * e.le4 * e.ny4) / e.Ac + e.A66 * (e.f13 * e.le1 * e.nx1 + e.f23 * e.le2 * e.nx2 + e.f33 * e.le3 * e.nx3 + e.f43 * e.le4 * e.nx4) / e.Ac) * (e.f13 * e.le1 * e.ny1 + e.f23 * e.le2 * e.ny2 + e.f33 * e.le3 * e.ny3 + e.f43 * e.le4 * e.ny4) / e.Ac)),
  (e.i3 * 5 + 1, e.i3 * 5 + 1, e.Ac * ((e.A22 * (e.f13 * e.le1 * e.ny1 + e.f23 * e.le2 * e.ny2 + e.f33 * e.le3 * e.ny3 + e.f43 * e.le4 * e.ny4) / e.Ac + e.A26 * (e.f13 * e.le1 * e.nx1 + e.f23 * e.le2 * e.nx2 + e.f33 * e.le3 * e.nx3 + e.f43 * e.le4 * e.nx4) / e.Ac) * (e.f13 * e.le1 * e.ny1 + e.f23 * e.le2 * e.ny2 + e.f33 * e.le3 * e.ny3 + e.f43 * e.le4 * e.ny4) / e.Ac + (e.A26 * (e.f13 * e.le1 * e.ny1 + e.f23 * e.le2 * e.ny2 + e.f33 * e.le3 * e.ny3 + e.f43 * e.le4 * e.ny4) / e.Ac + e.A66 * (e.f13 * e.le1 * e.nx1 + e.f23 * e.le2 * e.nx2 + e.f33 * e.le3 * e.nx3 + e.f43 * e.le4 * e.nx4) / e.Ac) * (e.f13 * e.le1 * e.nx1 + e.f23 * e.le2 * e.nx2 + e.f33 * e.le3 * e.nx3 + e.f43 * e.le4 * e.nx4) / e.Ac)),
  (e.i3 * 5 + 1, e.i3 * 5 + 3, e.Ac * ((e.B12 * (e.f13 * e.le1 * e.ny1 + e.f23 * e.le2 * e.ny2 + e.f33 * e.le3 * e.ny3 + e.f43 * e.le4 * e.ny4) / e.Ac + e.B16 * (e.f13 * e.le1 * e.nx1 + e.f23 * e.le2 * e.nx2 + e.f33 * e.le3 * e.nx3 + e.f43 * e.le4 * e.nx4) / e.Ac) * (e.f13 * e.le1 * e.nx1 + e.f23 * e.le2 * e.nx2 + e.f33 * e.le3 * e.nx3 + e.f43 * e.le4 * e.nx4) / e.Ac + (e.B26 * (e.f13 * e.le1 * e.ny1 + e.f23 * e.le2 * e.ny2 + e.f33 * e.le3 * e.ny3 + e.f43 * e.le4 * e.ny4) / e.Ac + e.B66 * (e.f13 * e.le1 * e.nx1 + e.f23 * e.le2 * e.nx2 + e.f33 * e.le3 * e.nx3 + e.f43 * e.le4 * e.nx4) / e.Ac) * (e.f13 * e.le1 * e.ny1 + e.f23 * e.le2 * e.ny2 + e.f33 * e.le3 * e.ny3 + e.f43 * e.le4 * e.ny4) / e.Ac)),
  (e.i3 * 5 + 1, e.i3 * 5 + 4, e.Ac * ((e.B22 * (e.f13 * e.le1 * e.ny1 + e.f23 * e.le2 * e.ny2 + e.f33 * e.le3 * e.ny3 + e.f43 * e.le4 * e.ny4) / e.Ac + e.B26 * (e.f13 * e.le1 * e.nx1 + e.f23 * e.le2 * e.nx2 + e.f33 * e.le3 * e.nx3 + e.f43 * e.le4 * e.nx4) / e.Ac) * (e.f13 * e.le1 * e.ny1 + e.f23 * e.le2 * e.ny2 + e.f33 * e.le3 * e.ny3 + e.f43 * e.le4 * e.ny4) / e.Ac + (e.B26 * (e.f13 * e.le1 * e.ny1 + e.f23 * e.le2 * e.ny2 + e.f33 * e.le3 * e.ny3 + e.f43 * e.le4 * e.ny4) / e.Ac + e.B66 * (e.f13 * e.le1 * e.nx1 + e.f23 * e.le2 * e.nx2 + e.f33 * e.le3 * e.nx3 + e.f43 * e.le4 * e.nx4) / e.Ac) * (e.f13 * e.le1 * e.nx1 + e.f23 * e.le2 * e.nx2 + e.f33 * e.le3 * e.nx3 + e.f43 * e.le4 * e.nx4) / e.Ac)),
  (e.i3 * 5 + 1, e.i4 * 5 + 0, e.Ac * ((e.A12 * (e.f13 * e.le1 * e.ny1 + e.f23 * e.le2 * e.ny2 + e.f33 * e.le3 * e.ny3 + e.f43 * e.le4 * e.ny4) / e.Ac + e.A16 * (e.f13 * e.le1 * e.nx1 + e.f23 * e.le2 * e.nx2 + e.f33 * e.le3 * e.nx3 + e.f43 * e.le4 * e.nx4) / e.Ac) * (e.f14 * e.le1 * e.nx1 + e.f24 * e.le2 * e.nx2 + e.f34 * e.le3 * e.nx3 + e.f44 * e.le4 * e.nx4) / e.Ac + (e.A26 * (e.f13 * e.le1 * e.ny1 + e.f23 * e.le2 * e.ny2 + e.f33 * e.le3 * e.ny3 + e.f43 * e.le4 * e.ny4) / e.Ac + e.A66 * (e.f13 * e.le1 * e.nx1 + e.f23 * e.le2 * e.nx2 + e.f33 * e.le3 * e.nx3 + e.f43 * e.le4 * e.nx4) / e.Ac) * (e.f14 * e.le1 * e.ny1 + e.f24 * e.le2 * e.ny2 + e.f34 * e.le3 * e.ny3 + e.f44 * e.le4 * e.ny4) / e.Ac)),
  (e.i3 * 5 + 1, e.i4 * 5 + 1, e.Ac * ((e.A22 * (e.f13 * e.le1 * e.ny1 + e.f23 * e.le2 * e.ny2 + e.f33 * e.le3 * e.ny3 + e.f43 * e.le4 * e.ny4) / e.Ac + e.A26 * (e.f13 * e.le1 * e.nx1 + e.f23 * e.le2 * e.nx2 + e.f33 * e.le3 * e.nx3 + e.f43 * e.le4 * e.nx4) / e.Ac) * (e.f14 * e.le1 * e.ny1 + e.f24 * e.le2 * e.ny2 + e.f34 * e.le3 * e.ny3 + e.f44 * e.le4 * e.ny4) / e.Ac + (e.A26 * (e.f13 * e.le1 * e.ny1 + e.f23 * e.le2 * e.ny2 + e.f33 * e.le3 * e.ny3 + e.f43 * e.le4 * e.ny4) / e.Ac + e.A66 * (e.f13 * e.le1 * e.nx1 + e.f23 * e.le2 * e.nx2 + e.f33 * e.le3 * e.nx3 + e.f43 * e.le4 * e.nx4) / e.Ac) * (e.f14 * e.le1 * e.nx1 + e.f24 * e.le2 * e.nx2 + e.f34 * e.le3 * e.nx3 + e.f44 * e.le4 * e.nx4) / e.Ac)),
  (e.i3 * 5 + 1, e.i4 * 5 + 3, e.Ac * ((e.B12 * (e.f13 * e.le1 * e.ny1 + e.f23 * e.le2 * e.ny2 + e.f33 * e.le3 * e.ny3 + e.f43 * e.le4 * e.ny4) / e.Ac + e.B16 * (e.f13 * e.le1 * e.nx1 + e.f23 * e.le2 * e.nx2 + e.f33 * e.le3 * e.nx3 + e.f43 * e.le4 * e.nx4) / e.Ac) * (e.f14 * e.le1 * e.nx1 + e.f24 * e.le2 * e.nx2 + e.f34 * e.le3 * e.nx3 + e.f44 * e.le4 * e.nx4) / e.Ac + (e.B26 * (e.f13 * e.le1 * e.ny1 + e.f23 * e.le2 * e.ny2 + e.f33 * e.le3 * e.ny3 + e.f43 * e.le4 * e.ny4) / e.Ac + e.B66 * (e.f13 * e.le1 * e.nx1 + e.f23 * e.le2 * e.nx2 + e.f33 * e.le3 * e.nx3 + e.f43 * e.le4 * e.nx4) / e.Ac) * (e.f14 * e.le1 * e.ny1 + e.f24 * e.le2 * e.ny2 + e.f34 * e.le3 * e.ny3 + e.f44 * e.le4 * e.ny4) / e.Ac)),
  (e.i3 * 5 + 1, e.i4 * 5 + 4, e.Ac * ((e.B22 * (e.f13 * e.le1 * e.ny1 + e.f23 * e.le2 * e.ny2 + e.f33 * e.le3 * e.ny3 + e.f43 * e.le4 * e.ny4) / e.Ac + e.B26 * (e.f13 * e.le1 * e.nx1 + e.f23 * e.le2 * e.nx2 + e.f33 * e.le3 * e.nx3 + e.f43 * e.le4 * e.nx4) / e.Ac) * (e.f14 * e.le1 * e.ny1 + e.f24 * e.le2 * e.ny2 + e.f34 * e.le3 * e.ny3 + e.f44 * e.le4 * e.ny4) / e.Ac + (e.B26 * (e.f13 * e.le1 * e.ny1 + e.f23 * e.le2 * e.ny2 + e.f33 * e.le3 * e.ny3 + e.f43 * e.le4 * e.ny4) / e.Ac + e.B66 * (e.f13 * e.le1 * e.nx1 + e.f23 * e.le2 * e.nx2 + e.f33 * e.le3 * e.nx3 + e.f43 * e.le4 * e.nx4) / e.Ac) * (e.f14 * e.le1 * e.nx1 + e.f24 * e.le2 * e.nx2 + e.f34 * e.le3 * e.nx3 + e.f44 * e.le4 * e.nx4) / e.Ac))]

/-- meshless/espim/plate2d_calc_k0.py:413-428 -/
def k0_i3_3 (e : K0Env K) : List (ℤ × ℤ × K) := [
  (e.i3 * 5 + 3, e.i1 * 5 + 0, e.Ac * ((e.B11 * (e.f13 * e.le1 * e.nx1 + e.f23 * e.le2 * e.nx2 + e.f33 * e.le3 * e.nx3 + e.f43 * e.le4 * e.nx4) / e.Ac + e.B16 * (e.f13 * e.le1 * e.ny1 + e.f23 * e.le2 * e.ny2 + e.f33 * e.le3 * e.ny3 + e.f43 * e.le4 * e.ny4) / e.Ac) * (e.f11 * e.le1 * e.nx1 + e.f21 * e.le2 * e.nx2 + e.f31 * e.le3 * e.nx3 + e.f41 * e.le4 * e.nx4) / e.Ac + (e.B16 * (e.f13 * e.le1 * e.nx1 + e.f23 * e.le2 * e.nx2 + e.f33 * e.le3 * e.nx3 + e.f43 * e.le4 * e.nx4) / e.Ac + e.B66 * (e.f13 * e.le1 * e.ny1 + e.f23 * e.le2 * e.ny2 + e.f33 * e.le3 * e.ny3 + e.f43 * e.le4 * e.ny4) / e.Ac) * (e.f11 * e.le1 * e.ny1 + e.f21 * e.le2 * e.ny2 + e.f31 * e.le3 * e.ny3 + e.f41 * e.le4 * e.ny4) / e.Ac)),
  (e.i3 * 5 + 3, e.i1 * 5 + 1, e.Ac * ((e.B12 * (e.f13 * e.le1 * e.nx1 + e.f23 * e.le2 * e.nx2 + e.f33 * e.le3 * e.nx3 + e.f43 * e.le4 * e.nx4) / e.Ac + e.B26 * (e.f13 * e.le1 * e.ny1 + e.f23 * e.le2 * e.ny2 + e.f33 * e.le3 * e.ny3 + e.f43 * e.le4 * e.ny4) / e.Ac) * (e.f11 * e.le1 * e.ny1 + e.f21 * e.le2 * e.ny2 + e.f31 * e.le3 * e.ny3 + e.f41 * e.le4 * e.ny4) / e.Ac + (e.B16 * (e.f13 * e.le1 * e.nx1 + e.f23 * e.le2 * e.nx2 + e.f33 * e.le3 * e.nx3 + e.f43 * e.le4 * e.nx4) / e.Ac + e.B66 * (e.f13 * e.le1 * e.ny1 + e.f23 * e.le2 * e.ny2 + e.f33 * e.le3 * e.ny3 + e.f43 * e.le4 * e.ny4) / e.Ac) * (e.f11 * e.le1 * e.nx1 + e.f21 * e.le2 * e.nx2 + e.f31 * e.le3 * e.nx3 + e.f41 * e.le4 * e.nx4) / e.Ac)),
  (e.i3 * 5 + 3, e.i1 * 5 + 3, e.Ac * ((e.D11 * (e.f13 * e.le1 * e.nx1 + e.f23 * e.le2 * e.nx2 + e.f33 * e.le3 * e.nx3 + e.f43 * e.le4 * e.nx4) / e.Ac + e.D16 * (e.f13 * e.le1 * e.ny1 + e.f23 * e.le2 * e.ny2 + e.f33 * e.le3 * e.ny3 + e.f43 * e.le4 * e.ny4) / e.Ac) * (e.f11 * e.le1 * e.nx1 + e.f21 * e.le2 * e.nx2 + e.f31 * e.le3 * e.nx3 + e.f41 * e.le4 * e.nx4) / e.Ac + (e.D16 * (e.f13 * e.le1 * e.nx1 + e.f23 * e.le2 * e.nx2 + e.f33 * e.le3 * e.nx3 + e.f43 * e.le4 * e.nx4) / e.Ac + e.D66 * (e.f13 * e.le1 * e.ny1 + e.f23 * e.le2 * e.ny2 + e.f33 * e.le3 * e.ny3 + e.f43 * e.le4 * e.ny4) / e.Ac) * (e.f11 * e.le1 * e.ny1 + e.f21 * e.le2 * e.ny2 + e.f31 * e.le3 * e.ny3 + e.f41 * e.le4 * e.ny4) / e.Ac)),
  (e.i3 * 5 + 3, e.i1 * 5 + 4, e.Ac * ((e.D12 * (e.f13 * e.le1 * e.nx1 + e.f23 * e.le2 * e.nx2 + e.f33 * e.le3 * e.nx3 + e.f43 * e.le4 * e.nx4) / e.Ac + e.D26 * (e.f13 * e.le1 * e.ny1 + e.f23 * e.le2 * e.ny2 + e.f33 * e.le3 * e.ny3 + e.f43 * e.le4 * e.ny4) / e.Ac) * (e.f11 * e.le1 * e.ny1 + e.f21 * e.le2 * e.ny2 + e.f31 * e.le3 * e.ny3 + e.f41 * e.le4 * e.ny4) / e.Ac + (e.D16 * (e.f13 * e.le1 * e.nx1 + e.f23 * e.le2 * e.nx2 + e.f33 * e.le3 * e.nx3 + e.f43 * e.le4 * e.nx4) / e.Ac + e.D66 * (e.f13 * e.le1 * e.ny1 + e.f23 * e.le2 * e.ny2 + e.f33 * e.le3 * e.ny3 + e.f43 * e.le4 * e.ny4) / e.Ac) * (e.f11 * e.le1 * e.nx1 + e.f21 * e.le2 * e.nx2 + e.f31 * e.le3 * e.nx3 + e.f41 * e.le4 * e.nx4) / e.Ac)),
  (e.i3 * 5 + 3, e.i2 * 5 + 0, e.Ac * ((e.B11 * (e.f13 * e.le1 * e.nx1 + e.f23 * e.le2 * e.nx2 + e.f33 * e.le3 * e.nx3 + e.f43 * e.le4 * e.nx4) / e.Ac + e.B16 * (e.f13 * e.le1 * e.ny1 + e.f23 * e.le2 * e.ny2 + e.f33 * e.le3 * e.ny3 + e.f43 * e.le4 * e.ny4) / e.Ac) * (e.f12 * e.le1 * e.nx1 + e.f22 * e.le2 * e.nx2 + e.f32 * e.le3 * e.nx3 + e.f42 * e.le4 * e.nx4) / e.Ac + (e.B16 * (e.f13 * e.le1 * e.nx1 + e.f23 * e.le2 * e.nx2 + e.f33 * e.le3 * e.nx3 + e.f43 * e.le4 * e.nx4) / e.Ac + e.B66 * (e.f13 * e.le1 * e.ny1 + e.f23 * e.le2 * e.ny2 + e.f33 * e.le3 * e.ny3 + e.f43 * e.le4 * e.ny4) / e.Ac) * (e.f12 * e.le1 * e.ny1 + e.f22 * e.le2 * e.ny2 + e.f32 * e.le3 * e.ny3 + e.f42 * e.le4 * e.ny4) / e.Ac)),
  (e.i3 * 5 + 3, e.i2 * 5 + 1, e.Ac * ((e.B12 * (e.f13 * e.le1 * e.nx1 + e.f23 * e.le2 * e.nx2 + e.f33 * e.le3 * e.nx3 + e.f43 * e.le4 * e.nx4) / e.Ac + e.B26 * (e.f13 * e.le1 * e.ny1 + e.f23 * e.le2 * e.ny2 + e.f33 * e.le3 * e.ny3 + e.f43 * e.le4 * e.ny4) / e.Ac) * (e.f12 * e.le1 * e.ny1 + e.f22 * e.le2 * e.ny2 + e.f32 * e.le3 * e.ny3 + e.f42 * e.le4 * e.ny4) / e.Ac + (e.B16 * (e.f13 * e.le1 * e.nx1 + e.f23 * e.le2 * e.nx2 + e.f33 * e.le3 * e.nx3 + e.f43 * e.le4 * e.nx4) / e.Ac + e.B66 * (e.f13 * e.le1 * e.ny1 + e.f23 * e.le2 * e.ny2 + e.f33 * e.le3 * e.ny3 + e.f43 * e.le4 * e.ny4) / e.Ac) * (e.f12 * e.le1 * e.nx1 + e.f22 * e.le2 * e.nx2 + e.f32 * e.le3 * e.nx3 + e.f42 * e.le4 * e.nx4) / e.Ac)),
  (e.i3 * 5 + 3, e.i2 * 5 + 3, e.Ac * ((e.D11 * (e.f13 * e.le1 * e.nx1 + e.f23 * e.le2 * e.nx2 + e.f33 * e.le3 * e.nx3 + e.f43 * e.le4 * e.nx4) / e.Ac + e.D16 * (e.f13 * e.le1 * e.ny1 + e.f23 * e.le2 * e.ny2 + e.f33 * e.le3 * e.ny3 + e.f43 * e.le4 * e.ny4) / e.Ac) * (e.f12 * e.le1 * e.nx1 + e.f22 * e.le2 * e.nx2 + e.f32 * e.le3 * e.nx3 + e.f42 * e.le4 * e.nx4) / e.Ac + (e.D16 * (e.f13 * e.le1 * e.nx1 + e.f23 * e.le2 * e.nx2 + e.f33 * e.le3 * e.nx3 + e.f43 * e.le4 * e.nx4) / e.Ac + e.D66 * (e.f13 * e.le1 * e.ny1 + e.f23 * e.le2 * e.ny2 + e.f33 * e.le3 * e.ny3 + e.f43 * e.le4 * e.ny4) / e.Ac) * (e.f12 * e.le1 * e.ny1 + e.f22 * e.le2 * e.ny2 + e.f32 * e.le3 * e.ny3 + e.f42 * e.le4 * e.ny4) / e.Ac)),
  (e.i3 * 5 + 3, e.i2 * 5 + 4, e.Ac * ((e.D12 * (e.f13 * e.le1 * e.nx1 + e.f23 * e.le2 * e.nx2 + e.f33 * e.le3 * e.nx3 + e.f43 * e.le4 * e.nx4) / e.Ac + e.D26 * (e.f13 * e.le1 * e.ny1 + e.f23 * e.le2 * e.ny2 + e.f33 * e.le3 * e.ny3 + e.f43 * e.le4 * e.ny4) / e.Ac) * (e.f12 * e.le1 * e.ny1 + e.f22 * e.le2 * e.ny2 + e.f32 * e.le3 * e.ny3 + e.f42 * e.le4 * e.ny4) / e.Ac + (e.D16 * (e.f13 * e.le1 * e.nx1 + e.f23 * e.le2 * e.nx2 + e.f33 * e.le3 * e.nx3 + e.f43 * e.le4 * e.nx4) / e.Ac + e.D66 * (e.f13 * e.le1 * e.ny1 + e.f23 * e.le2 * e.ny2 + e.f33 * e.le3 * e.ny3 + e.f43 * e.le4 * e.ny4) / e.Ac) * (e.f12 * e.le1 * e.nx1 + e.f22 * e.le2 * e.nx2 + e.f32 * e.le3 * e.nx3 + e.f42 * e.le4 * e.nx4) / e.Ac)),
  (e.i3 * 5 + 3, e.i3 * 5 + 0, e.Ac * ((e.B11 * (e.f13 * e.le1 * e.nx1 + e.f23 * e.le2 * e.nx2 + e.f33 * e.le3 * e.nx3 + e.f43 * e.le4 * e.nx4) / e.Ac + e.B16 * (e.f13 * e.le1 * e.ny1 + e.f23 * e.le2 * e.ny2 + e.f33 * e.le3 * e.ny3 + e.f43 * e.le4 * e.ny4) / e.Ac) * (e.f13 * e.le1 * e.nx1 + e.f23 * e.le2 * e.nx2 + e.f33 * e.le3 * e.nx3 + e.f43 * e.le4 * e.nx4) / e.Ac + (e.B16 * (e.f13 * e.le1 * e.nx1 + e.f23 * e.le2 * e.nx2 + e.f33 * e.le3 * e.nx3 + e.f43 * e.le4 * e.nx4) / e.Ac + e.B66 * (e.f13 * e.le1 * e.ny1 + e.f23 * e.le2 * e.ny2 + e.f33 * e.le3 * e.ny3 + e.f43 * e.le4 * e.ny4) / e.Ac) * (e.f13 * e.le1 * e.ny1 + e.f23 * e.le2 * e.ny2 + e.f33 * e.le3 * e.ny3 + e.f43 * e.le4 * e.ny4) / e.Ac)),
  (e.i3 * 5 + 3, e.i3 * 5 + 1, e.Ac * ((e.B12 * (e.f13 * e.le1 * e.nx1 + e.f23 * e.le2 * e.nx2 + e.f33 * e.le3 * e.nx3 + e.f43 * e.le4 * e.nx4) / e.Ac + e.B26 * (e.f13 * e.le1 * e.ny1 + e.f23 * e.le2 * e.ny2 + e.f33 * e.le3 * e.ny3 + e.f43 * e.le4 * e.ny4) / e.Ac) * (e.f13 * e.le1 * e.ny1 + e.f23 * e.le2 * e.ny2 + e.f33 * e.le3 * e.ny3 + e.f43 * e.le4 * e.ny4) / e.Ac + (e.B16 * (e.f13 * e.le1 * e.nx1 + e.f23 * e.le2 * e.nx2 + e.f33 * e.le3 * e.nx3 + e.f43 * e.le4 * e.nx4) / e.Ac + e.B66 * (e.f13 * e.le1 * e.ny1 + e.f23 * e.le2 * e.ny2 + e.f33 * e.le3 * e.ny3 + e.f43 * e.le4 * e.ny4) / e.Ac) * (e.f13 * e.le1 * e.nx1 + e.f23 * e.le2 * e.nx2 + e.f33 * e.le3 * e.nx3 + e.f43 * e.le4 * e.nx4) / e.Ac)),
  (e.i3 * 5 + 3, e.i3 * 5 + 3, e.Ac * ((e.D11 * (e.f13 * e.le1 * e.nx1 + e.f23 * e.le2 * e.nx2 + e.f33 * e.le3 * e.nx3 + e.f43 * e.le4 * e.nx4) / e.Ac + e.D16 * (e.f13 * e.le1 * e.ny1 + e.f23 * e.le2 * e.ny2 + e.f33 * e.le3 * e.ny3 + e.f43 * e.le4 * e.ny4) / e.Ac) * (e.f13 * e.le1 * e.nx1 + e.f23 * e.le2 * e.nx2 + e.f33 * e.le3 * e.nx3 + e.f43 * e.le4 * e.nx4) / e.Ac + (e.D16 * (e.f13 * e.le1 * e.nx1 + e.f23 * e.le2 * e.nx2 + e.f33 * e.le3 * e.nx3 + e.f43 * e.le4 * e.nx4) / e.Ac + e.D66 * (e.f13 * e.le1 * e.ny1 + e.f23 * e.le2 * e.ny2 + e.f33 * e.le3 * e.ny3 + e.f43 * e.le4 * e.ny4) / e.Ac) * (e.f13 * e.le1 * e.ny1 + e.f23 * e.le2 * e.ny2 + e.f33 * e.le3 * e.ny3 + e.f43 * e.le4 * e.ny4) / e.Ac)),
  (e.i3 * 5 + 3, e.i3 * 5 + 4, e.Ac * ((e.D12 * (e.f13 * e.le1 * e.nx1 + e.f23 * e.le2 * e.nx2 + e.f33 * e.le3 * e.nx3 + e.f43 * e.le4 * e.nx4) / e.Ac + e.D26 * (e.f13 * e.le1 * e.ny1 + e.f23 * e.le2 * e.ny2 + e.f33 * e.le3 * e.ny3 + e.f43 * e.le4 * e.ny4) / e.Ac) * (e.f13 * e.le1 * e.ny1 + e.f23 * e.le2 * e.ny2 + e.f33 * e.le3 * e.ny3 + e.f43 * e.le4 * e.ny4) / e.Ac + (e.D16 * (e.f13 * e.le1 * e.nx1 + e.f23 * e.le2 * e.nx2 + e.f33 * e.le3 * e.nx3 + e.f43 * e.le4 * e.nx4) / e.Ac + e.D66 * (e.f13 * e.le1 * e.ny1 + e.f23 * e.le2 * e.ny2 + e.f33 * e.le3 * e.ny3 + e.f43 * e.le4 * e.ny4) / e.Ac) * (e.f13 * e.le1 * e.nx1 + e.f23 * e.le2 * e.nx2 + e.f33 * e.le3 * e.nx3 + e.f43 * e.le4 * e.nx4) / e.Ac)),
  (e.i3 * 5 + 3, e.i4 * 5 + 0, e.Ac * ((e.B11 * (e.f13 * e.le1 * e.nx1 + e.f23 * e.le2 * e.nx2 + e.f33 * e.le3 * e.nx3 + e.f43 * e.le4 * e.nx4) / e.Ac + e.B16 * (e.f13 * e.le1 * e.ny1 + e.f23 * e.le2 * e.ny2 + e.f33 * e.le3 * e.ny3 + e.f43 * e.le4 * e.ny4) / e.Ac) * (e.f14 * e.le1 * e.nx1 + e.f24 * e.le2 * e.nx2 + e.f34 * e.le3 * e.nx3 + e.f44 * e.le4 * e.nx4) / e.Ac + (e.B16 * (e.f13 * e.le1 * e.nx1 + e.f23 * e.le2 * e.nx2 + e.f33 * e.le3 * e.nx3 + e.f43 * e.le4 * e.nx4) / e.Ac + e.B66 * (e.f13 * e.le1 * e.ny1 + e.f23 * e.le2 * e.ny2 + e.f33 * e.le3 * e.ny3 + e.f43 * e.le4 * e.ny4) / e.Ac) * (e.f14 * e.le1 * e.ny1 + e.f24 * e.le2 * e.ny2 + e.f34 * e.le3 * e.ny3 + e.f44 * e.le4 * e.ny4) / e.Ac)),
  (e.i3 * 5 + 3, e.i4 * 5 + 1, e.Ac * ((e.B12 * (e.f13 * e.le1 * e.nx1 + e.f23 * e.le2 * e.nx2 + e.f33 * e.le3 * e.nx3 + e.f43 * e.le4 * e.nx4) / e.Ac + e.B26 * (e.f13 * e.le1 * e.ny1 + e.f23 * e.le2 * e.ny2 + e.f33 * e.le3 * e.ny3 + e.f43 * e.le4 * e.ny4) / e.Ac) * (e.f14 * e.le1 * e.ny1 + e.f24 * e.le2 * e.ny2 + e.f34 * e.le3 * e.ny3 + e.f44 * e.le4 * e.ny4) / e.Ac + (e.B16 * (e.f13 * e.le1 * e.nx1 + e.f23 * e.le2 * e.nx2 + e.f33 * e.le3 * e.nx3 + e.f43 * e.le4 * e.nx4) / e.Ac + e.B66 * (e.f13 * e.le1 * e.ny1 + e.f23 * e.le2 * e.ny2 + e.f33 * e.le3 * e.ny3 + e.f43 * e.le4 * e.ny4) / e.Ac) * (e.f14 * e.le1 * e.nx1 + e.f24 * e.le2 * e.nx2 + e.f34 * e.le3 * e.nx3 + e.f44 * e.le4 * e.nx4) / e.Ac)),
  (e.i3 * 5 + 3, e.i4 * 5 + 3, e.Ac * ((e.D11 * (e.f13 * e.le1 * e.nx1 + e.f23 * e.le2 * e.nx2 + e.f33 * e.le3 * e.nx3 + e.f43 * e.le4 * e.nx4) / e.Ac + e.D16 * (e.f13 * e.le1 * e.ny1 + e.f23 * e.le2 * e.ny2 + e.f33 * e.le3 * e.ny3 + e.f43 * e.le4 * e.ny4) / e.Ac) * (e.f14 * e.le1 * e.nx1 + e.f24 * e.le2 * e.nx2 + e.f34 * e.le3 * e.nx3 + e.f44 * e.le4 * e.nx4) / e.Ac + (e.D16 * (e.f13 * e.le1 * e.nx1 + e.f23 * e.le2 * e.nx2 + e.f33 * e.le3 * e.nx3 + e.f43 * e.le4 * e.nx4) / e.Ac + e.D66 * (e.f13 * e.le1 * e.ny1 + e.f23 * e.le2 * e.ny2 + e.f33 * e.le3 * e.ny3 + e.f43 * e.le4 * e.ny4) / e.Ac) * (e.f14 * e.le1 * e.ny1 + e.f24 * e.le2 * e.ny2 + e.f34 * e.le3 * e.ny3 + e.f44 * e.le4 * e.ny4) / e.Ac)),
  (e.i3 * 5 + 3, e.i4 * 5 + 4, e.Ac * ((e.D12 * (e.f13 * e.le1 * e.nx1 + e.f23 * e.le2 * e.nx2 + e.f33 * e.le3 * e.nx3 + e.f43 * e.le4 * e.nx4) / e.Ac + e.D26 * (e.f13 * e.le1 * e.ny1 + e.f23 * e.le2 * e.ny2 + e.f33 * e.le3 * e.ny3 + e.f43 * e.le4 * e.ny4) / e.Ac) * (e.f14 * e.le1 * e.ny1 + e.f24 * e.le2 * e.ny2 + e.f34 * e.le3 * e.ny3 + e.f44 * e.le4 * e.ny4) / e.Ac + (e.D16 * (e.f13 * e.le1 * e.nx1 + e.f23 * e.le2 * e.nx2 + e.f33 * e.le3 * e.nx3 + e.f43 * e.le4 * e.nx4) / e.Ac + e.D66 * (e.f13 * e.le1 * e.ny1 + e.f23 * e.le2 * e.ny2 + e.f33 * e.le3 * e.ny3 + e.f43 * e.le4 * e.ny4) / e.Ac) * (e.f14 * e.le1 * e.nx1 + e.f24 * e.le2 * e.nx2 + e.f34 * e.le3 * e.nx3 + e.f44 * e.le4 * e.nx4) / e.Ac))]

/-- meshless/espim/plate2d_calc_k0.py:429-444 -/
def k0_i3_4 (e : K0Env K) : List (ℤ × ℤ × K) := [
  (e.i3 * 5 + 4, e.i1 * 5 + 0, e.Ac * ((e.B12 * (e.f13 * e.le1 * e.ny1 + e.f23 * e.le2 * e.ny2 + e.f33 * e.le3 * e.ny3 + e.f43 * e.le4 * e.ny4) / e.Ac + e.B16 * (e.f13 * e.le1 * e.nx1 + e.f23 * e.le2 * e.nx2 + e.f33 * e.le3 * e.nx3 + e.f43 * e.le4 * e.nx4) / e.Ac) * (e.f11 * e.le1 * e.nx1 + e.f21 * e.le2 * e.nx2 + e.f31 * e.le3 * e.nx3 + e.f41 * e.le4 * e.nx4) / e.Ac + (e.B26 * (e.f13 * e.le1 * e.ny1 + e.f23 * e.le2 * e.ny2 + e.f33 * e.le3 * e.ny3 + e.f43 * e.le4 * e.ny4) / e.Ac + e.B66 * (e.f13 * e.le1 * e.nx1 + e.f23 * e.le2 * e.nx2 + e.f33 * e.le3 * e.nx3 + e.f43 * e.le4 * e.nx4) / e.Ac) * (e.f11 * e.le1 * e.ny1 + e.f21 * e.le2 * e.ny2 + e.f31 * e.le3 * e.ny3 + e.f41 * e.le4 * e.ny4) / e.Ac)),
  (e.i3 * 5 + 4, e.i1 * 5 + 1, e.Ac * ((e.B22 * (e.f13 * e.le1 * e.ny1 + e.f23 * e.le2 * e.ny2 + e.f33 * e.le3 * e.ny3 + e.f43 * e.le4 * e.ny4) / e.Ac + e.B26 * (e.f13 * e.le1 * e.nx1 + e.f23 * e.le2 * e.nx2 + e.f33 * e.le3 * e.nx3 + e.f43 * e.le4 * e.nx4) / e.Ac) * (e.f11 * e.le1 * e.ny1 + e.f21 * e.le2 * e.ny2 + e.f31 * e.le3 * e.ny3 + e.f41 * e.le4 * e.ny4) / e.Ac + (e.B26 * (e.f13 * e.le1 * e.ny1 + e.f23 * e.le2 * e.ny2 + e.f33 * e.le3 * e.ny3 + e.f43 * e.le4 * e.ny4) / e.Ac + e.B66 * (e.f13 * e.le1 * e.nx1 + e.f23 * e.le2 * e.nx2 + e.f33 * e.le3 * e.nx3 + e.f43 * e.le4 * e.nx4) / e.Ac) * (e.f11 * e.le1 * e.nx1 + e.f21 * e.le2 * e.nx2 + e.f31 * e.le3 * e.nx3 + e.f41 * e.le4 * e.nx4) / e.Ac)),
  (e.i3 * 5 + 4, e.i1 * 5 + 3, e.Ac * ((e.D12 * (e.f13 * e.le1 * e.ny1 + e.f23 * e.le2 * e.ny2 + e.f33 * e.le3 * e.ny3 + e.f43 * e.le4 * e.ny4) / e.Ac + e.D16 * (e.f13 * e.le1 * e.nx1 + e.f23 * e.le2 * e.nx2 + e.f33 * e.le3 * e.nx3 + e.f43 * e.le4 * e.nx4) / e.Ac) * (e.f11 * e.le1 * e.nx1 + e.f21 * e.le2 * e.nx2 + e.f31 * e.le3 * e.nx3 + e.f41 * e.le4 * e.nx4) / e.Ac + (e.D26 * (e.f13 * e.le1 * e.ny1 + e.f23 * e.le2 * e.ny2 + e.f33 * e.le3 * e.ny3 + e.f43 * e.le4 * e.ny4) / e.Ac + e.D66 * (e.f13 * e.le1 * e.nx1 + e.f23 * e.le2 * e.nx2 + e.f33 * e.le3 * e.nx3 + e.f43 * e.le4 * e.nx4) / e.Ac) * (e.f11 * e.le1 * e.ny1 + e.f21 * e.le2 * e.ny2 + e.f31 * e.le3 * e.ny3 + e.f41 * e.le4 * e.ny4) / e.Ac)),
  (e.i3 * 5 + 4, e.i1 * 5 + 4, e.Ac * ((e.D22 * (e.f13 * e.le1 * e.ny1 + e.f23 * e.le2 * e.ny2 + e.f33 * e.le3 * e.ny3 + e.f43 * e.le4 * e.ny4) / e.Ac + e.D26 * (e.f13 * e.le1 * e.nx1 + e.f23 * e.le2 * e.nx2 + e.f33 * e.le3 * e.nx3 + e.f43 * e.le4 * e.nx4) / e.Ac) * (e.f11 * e.le1 * e.ny1 + e.f21 * e.le2 * e.ny2 + e.f31 * e.le3 * e.ny3 + e.f41 * e.le4 * e.ny4) / e.Ac + (e.D26 * (e.f13 * e.le1 * e.ny1 + e.f23 * e.le2 * e.ny2 + e.f33 * e.le3 * e.ny3 + e.f43 * e.le4 * e.ny4) / e.Ac + e.D66 * (e.f13 * e.le1 * e.nx1 + e.f23 * e.le2 * e.nx2 + e.f33 * e.le3 * e.nx3 + e.f43 * e.le4 * e.nx4) / e.Ac) * (e.f11 * e.le1 * e.nx1 + e.f21 * e.le2 * e.nx2 + e.f31 * e.le3 * e.nx3 + e.f41 * e.le4 * e.nx4) / e.Ac)),
  (e.i3 * 5 + 4, e.i2 * 5 + 0, e.Ac * ((e.B12 * (e.f13 * e.le1 * e.ny1 + e.f23 * e.le2 * e.ny2 + e.f33 * e.le3 * e.ny3 + e.f43 * e.le4 * e.ny4) / e.Ac + e.B16 * (e.f13 * e.le1 * e.nx1 + e.f23 * e.le2 * e.nx2 + e.f33 * e.le3 * e.nx3 + e.f43 * e.le4 * e.nx4) / e.Ac) * (e.f12 * e.le1 * e.nx1 + e.f22 * e.le2 * e.nx2 + e.f32 * e.le3 * e.nx3 + e.f42 * e.le4 * e.nx4) / e.Ac + (e.B26 * (e.f13 * e.le1 * e.ny1 + e.f23 * e.le2 * e.ny2 + e.f33 * e.le3 * e.ny3 + e.f43 * e.le4 * e.ny4) / e.Ac + e.B66 * (e.f13 * e.le1 * e.nx1 + e.f23 * e.le2 * e.nx2 + e.f33 * e.le3 * e.nx3 + e.f43 * e.le4 * e.nx4) / e.Ac) * (e.f12 * e.le1 * e.ny1 + e.f22 * e.le2 * e.ny2 + e.f32 * e.le3 * e.ny3 + e.f42 * e.le4 * e.ny4) / e.Ac)),
  (e.i3 * 5 + 4, e.i2 * 5 + 1, e.Ac * ((e.B22 * (e.f13 * e.le1 * e.ny1 + e.f23 * e.le2 * e.ny2 + e.f33 * e.le3 * e.ny3 + e.f43 * e.le4 * e.ny4) / e.Ac + e.B26 * (e.f13 * e.le1 * e.nx1 + e.f23 * e.le2 * e.nx2 + e.f33 * e.le3 * e.nx3 + e.f43 * e.le4 * e.nx4) / e.Ac) * (e.f12 * e.le1 * e.ny1 + e.f22 * e.le2 * e.ny2 + e.f32 * e.le3 * e.ny3 + e.f42 * e.le4 * e.ny4) / e.Ac + (e.B26 * (e.f13 * e.le1 * e.ny1 + e.f23 * e.le2 * e.ny2 + e.f33 * e.le3 * e.ny3 + e.f43 * e.le4 * e.ny4) / e.Ac + e.B66 * (e.f13 * e.le1 * e.nx1 + e.f23 * e.le2 * e.nx2 + e.f33 * e.le3 * e.nx3 + e.f43 * e.le4 * e.nx4) / e.Ac) * (e.f12 * e.le1 * e.nx1 + e.f22 * e.le2 * e.nx2 + e.f32 * e.le3 * e.nx3 + e.f42 * e.le4 * e.nx4) / e.Ac)),
  (e.i3 * 5 + 4, e.i2 * 5 + 3, e.Ac * ((e.D12 * (e.f13 * e.le1 * e.ny1 + e.f23 * e.le2 * e.ny2 + e.f33 * e.le3 * e.ny3 + e.f43 * e.le4 * e.ny4) / e.Ac + e.D16 * (e.f13 * e.le1 * e.nx1 + e.f23 * e.le2 * e.nx2 + e.f33 * e.le3 * e.nx3 + e.f43 * e.le4 * e.nx4) / e.Ac) * (e.f12 * e.le1 * e.nx1 + e.f22 * e.le2 * e.nx2 + e.f32 * e.le3 * e.nx3 + e.f42 * e.le4 * e.nx4) / e.Ac + (e.D26 * (e.f13 * e.le1 * e.ny1 + e.f23 * e.le2 * e.ny2 + e.f33 * e.le3 * e.ny3 + e.f43 * e.le4 * e.ny4) / e.Ac + e.D66 * (e.f13 * e.le1 * e.nx1 + e.f23 * e.le2 * e.nx2 + e.f33 * e.le3 * e.nx3 + e.f43 * e.le4 * e.nx4) / e.Ac) * (e.f12 * e.le1 * e.ny1 + e.f22 * e.le2 * e.ny2 + e.f32 * e.le3 * e.ny3 + e.f42 * e.le4 * e.ny4) / e.Ac)),
  (e.i3 * 5 + 4, e.i2 * 5 + 4, e.Ac * ((e.D22 * (e.f13 * e.le1 * e.ny1 + e.f23 * e.le2 * e.ny2 + e.f33 * e.le3 * e.ny3 + e.f43 * e.le4 * e.ny4) / e.Ac + e.D26 * (e.f13 * e.le1 * e.nx1 + e.f23 * e.le2 * e.nx2 + e.f33 * e.le3 * e.nx3 + e.f43 * e.le4 * e.nx4) / e.Ac) * (e.f12 * e.le1 * e.ny1 + e.f22 * e.le2 * e.ny2 + e.f32 * e.le3 * e.ny3 + e.f42 * e.le4 * e.ny4) / e.Ac + (e.D26 * (e.f13 * e.le1 * e.ny1 + e.f23 * e.le2 * e.ny2 + e.f33 * e.le3 * e.ny3 + e.f43 * e.le4 * e.ny4) / e.Ac + e.D66 * (e.f13 * e.le1 * e.nx1 + e.f23 * e.le2 * e.nx2 + e.f33 * e.le3 * e.nx3 + e.f43 * e.le4 * e.nx4) / e.Ac) * (e.f12 * e.le1 * e.nx1 + e.f22 * e.le2 * e.nx2 + e.f32 * e.le3 * e.nx3 + e.f42 * e.le4 * e.nx4) / e.Ac)),
  (e.i3 * 5 + 4, e.i3 * 5 + 0, e.Ac * ((e.B12 * (e.f13 * e.le1 * e.ny1 + e.f23 * e.le2 * e.ny2 + e.f33 * e.le3 * e.ny3 + e.f43 * e.le4 * e.ny4) / e.Ac + e.B16 * (e.f13 * e.le1 * e.nx1 + e.f23 * e.le2 * e.nx2 + e.f33 * e.le3 * e.nx3 + e.f43 * e.le4 * e.nx4) / e.Ac) * (e.f13 * e.le1 * e.nx1 + e.f23 * e.le2 * e.nx2 + e.f33 * e.le3 * e.nx3 + e.f43 * e.le4 * e.nx4) / e.Ac + (e.B26 * (e.f13 * e.le1 * e.ny1 + e.f23 * e.le2 * e.ny2 + e.f33 * e.le3 * e.ny3 + e.f43 * e.le4 * e.ny4) / e.Ac + e.B66 * (e.f13 * e.le1 * e.nx1 + e.f23 * e.le2 * e.nx2 + e.f33 * e.le3 * e.nx3 + e.f43 * e.le4 * e.nx4) / e.Ac) * (e.f13 * e.le1 * e.ny1 + e.f23 * e.le2 * e.ny2 + e.f33 * e.le3 * e.ny3 + e.f43 * e.le4 * e.ny4) / e.Ac)),
  (e.i3 * 5 + 4, e.i3 * 5 + 1, e.Ac * ((e.B22 * (e.f13 * e.le1 * e.ny1 + e.f23 * e.le2 * e.ny2 + e.f33 * e.le3 * e.ny3 + e.f43 * e.le4 * e.ny4) / e.Ac + e.B26 * (e.f13 * e.le1 * e.nx1 + e.f23 * e.le2 * e.nx2 + e.f33 * e.le3 * e.nx3 + e.f43 * e.le4 * e.nx4) / e.Ac) * (e.f13 * e.le1 * e.ny1 + e.f23 * e.le2 * e.ny2 + e.f33 * e.le3 * e.ny3 + e.f43 * e.le4 * e.ny4) / e.Ac + (e.B26 * (e.f13 * e.le1 * e.ny1 + e.f23 * e.le2 * e.ny2 + e.f33 * e.le3 * e.ny3 + e.f43 * e.le4 * e.ny4) / e.Ac + e.B66 * (e.f13 * e.le1 * e.nx1 + e.f23 * e.le2 * e.nx2 + e.f33 * e.le3 * e.nx3 + e.f43 * e.le4 * e.nx4) / e.Ac) * (e.f13 * e.le1 * e.nx1 + e.f23 * e.le2 * e.nx2 + e.f33 * e.le3 * e.nx3 + e.f43 * e.le4 * e.nx4) / e.Ac)),
  (e.i3 * 5 + 4, e.i3 * 5 + 3, e.Ac * ((e.D12 * (e.f13 * e.le1 * e.ny1 + e.f23 * e.le2 * e.ny2 + e.f33 * e.le3 * e.ny3 + e.f43 * e.le4 * e.ny4) / e.Ac + e.D16 * (e.f13 * e.le1 * e.nx1 + e.f23 * e.le2 * e.nx2 + e.f33 * e.le3 * e.nx3 + e.f43 * e.le4 * e.nx4) / e.Ac) * (e.f13 * e.le1 * e.nx1 + e.f23 * e.le2 * e.nx2 + e.f33 * e.le3 * e.nx3 + e.f43 * e.le4 * e.nx4) / e.Ac + (e.D26 * (e.f13 * e.le1 * e.ny1 + e.f23 * e.le2 * e.ny2 + e.f33 * e.le3 * e.ny3 + e.f43 * e.le4 * e.ny4) / e.Ac + e.D66 * (e.f13 * e.le1 * e.nx1 + e.f23 * e.le2 * e.nx2 + e.f33 * e.le3 * e.nx3 + e.f43 * e.le4 * e.nx4) / e.Ac) * (e.f13 * e.le1 * e.ny1 + e.f23 * e.le2 * e.ny2 + e.f33 * e.le3 * e.ny3 + e.f43 * e.le4 * e.ny4) / e.Ac)),
  (e.i3 * 5 + 4, e.i3 * 5 + 4, e.Ac * ((e.D22 * (e.f13 * e.le1 * e.ny1 + e.f23 * e.le2 * e.ny2 + e.f33 * e.le3 * e.ny3 + e.f43 * e.le4 * e.ny4) / e.Ac + e.D26 * (e.f13 * e.le1 * e.nx1 + e.f23 * e.le2 * e.nx2 + e.f33 * e.le3 * e.nx3 + e.f43 * e.le4 * e.nx4) / e.Ac) * (e.f13 * e.le1 * e.ny1 + e.f23 * e.le2 * e.ny2 + e.f33 * e.le3 * e.ny3 + e.f43 * e.le4 * e.ny4) / e.Ac + (e.D26 * (e.f13 * e.le1 * e.ny1 + e.f23 * e.le2 * e.ny2 + e.f33 * e.le3 * e.ny3 + e.f43 * e.le4 * e.ny4) / e.Ac + e.D66 * (e.f13 * e.le1 * e.nx1 + e.f23 * e.le2 * e.nx2 + e.f33 * e.le3 * e.nx3 + e.f43 * e.le4 * e.nx4) / e.Ac) * (e.f13 * e.le1 * e.nx1 + e.f23 * e.le2 * e.nx2 + e.f33 * e.le3 * e.nx3 + e.f43 * e.le4 * e.nx4) / e.Ac)),
  (e.i3 * 5 + 4, e.i4 * 5 + 0, e.Ac * ((e.B12 * (e.f13 * e.le1 * e.ny1 + e.f23 * e.le2 * e.ny2 + e.f33 * e.le3 * e.ny3 + e.f43 * e.le4 * e.ny4) / e.Ac + e.B16 * (e.f13 * e.le1 * e.nx1 + e.f23 * e.le2 * e.nx2 + e.f33 * e.le3 * e.nx3 + e.f43 * e.le4 * e.nx4) / e.Ac) * (e.f14 * e.le1 * e.nx1 + e.f24 * e.le2 * e.nx2 + e.f34 * e.le3 * e.nx3 + e.f44 * e.le4 * e.nx4) / e.Ac + (e.B26 * (e.f13 * e.le1 * e.ny1 + e.f23 * e.le2 * e.ny2 + e.f33 * e.le3 * e.ny3 + e.f43 * e.le4 * e.ny4) / e.Ac + e.B66 * (e.f13 * e.le1 * e.nx1 + e.f23 * e.le2 * e.nx2 + e.f33 * e.le3 * e.nx3 + e.f43 * e.le4 * e.nx4) / e.Ac) * (e.f14 * e.le1 * e.ny1 + e.f24 * e.le2 * e.ny2 + e.f34 * e.le3 * e.ny3 + e.f44 * e.le4 * e.ny4) / e.Ac)),
  (e.i3 * 5 + 4, e.i4 * 5 + 1, e.Ac * ((e.B22 * (e.f13 * e.le1 * e.ny1 + e.f23 * e.le2 * e.ny2 + e.f33 * e.le3 * e.ny3 + e.f43 * e.le4 * e.ny4) / e.Ac + e.B26 * (e.f13 * e.le1 * e.nx1 + e.f23 * e.le2 * e.nx2 + e.f33 * e.le3 * e.nx3 + e.f43 * e.le4 * e.nx4) / e.Ac) * (e.f14 * e.le1 * e.ny1 + e.f24 * e.le2 * e.ny2 + e.f34 * e.le3 * e.ny3 + e.f44 * e.le4 * e.ny4) / e.Ac + (e.B26 * (e.f13 * e.le1 * e.ny1 + e.f23 * e.le2 * e.ny2 + e.f33 * e.le3 * e.ny3 + e.f43 * e.le4 * e.ny4) / e.Ac + e.B66 * (e.f13 * e.le1 * e.nx1 + e.f23 * e.le2 * e.nx2 + e.f33 * e.le3 * e.nx3 + e.f43 * e.le4 * e.nx4) / e.Ac) * (e.f14 * e.le1 * e.nx1 + e.f24 * e.le2 * e.nx2 + e.f34 * e.le3 * e.nx3 + e.f44 * e.le4 * e.nx4) / e.Ac)),
  (e.i3 * 5 + 4, e.i4 * 5 + 3, e.Ac * ((e.D12 * (e.f13 * e.le1 * e.ny1 + e.f23 * e.le2 * e.ny2 + e.f33 * e.le3 * e.ny3 + e.f43 * e.le4 * e.ny4) / e.Ac + e.D16 * (e.f13 * e.le1 * e.nx1 + e.f23 * e.le2 * e.nx2 + e.f33 * e.le3 * e.nx3 + e.f43 * e.le4 * e.nx4) / e.Ac) * (e.f14 * e.le1 * e.nx1 + e.f24 * e.le2 * e.nx2 + e.f34 * e.le3 * e.nx3 + e.f44 * e.le4 * e.nx4) / e.Ac + (e.D26 * (e.f13 * e.le1 * e.ny1 + e.f23 * e.le2 * e.ny2 + e.f33 * e.le3 * e.ny3 + e.f43 * e.le4 * e.ny4) / e.Ac + e.D66 * (e.f13 * e.le1 * e.nx1 + e.f23 * e.le2 * e.nx2 + e.f33 * e.le3 * e.nx3 + e.f43 * e.le4 * e.nx4) / e.Ac) * (e.f14 * e.le1 * e.ny1 + e.f24 * e.le2 * e.ny2 + e.f34 * e.le3 * e.ny3 + e.f44 * e.le4 * e.ny4) / e.Ac)),
  (e.i3 * 5 + 4, e.i4 * 5 + 4, e.Ac * ((e.D22 * (e.f13 * e.le1 * e.ny1 + e.f23 * e.le2 * e.ny2 + e.f33 * e.le3 * e.ny3 + e.f43 * e.le4 * e.ny4) / e.Ac + e.D26 * (e.f13 * e.le1 * e.nx1 + e.f23 * e.le2 * e.nx2 + e.f33 * e.le3 * e.nx3 + e.f43 * e.le4 * e.nx4) / e.Ac) * (e.f14 * e.le1 * e.ny1 + e.f24 * e.le2 * e.ny2 + e.f34 * e.le3 * e.ny3 + e.f44 * e.le4 * e.ny4) / e.Ac + (e.D26 * (e.f13 * e.le1 * e.ny1 + e.f23 * e.le2 * e.ny2 + e.f33 * e.le3 * e.ny3 + e.f43 * e.le4 * e.ny4) / e.Ac + e.D66 * (e.f13 * e.le1 * e.nx1 + e.f23 * e.le2 * e.nx2 + e.f33 * e.le3 * e.nx3 + e.f43 * e.le4 * e.nx4) / e.Ac) * (e.f14 * e.le1 * e.nx1 + e.f24 * e.le2 * e.nx2 + e.f34 * e.le3 * e.nx3 + e.f44 * e.le4 * e.nx4) / e.Ac))]

/-- meshless/espim/plate2d_calc_k0.py:445-460 -/
def k0_i4_0 (e : K0Env K) : List (ℤ × ℤ × K) := [
  (e.i4 * 5 + 0, e.i1 * 5 + 0, e.Ac * ((e.A11 * (e.f14 * e.le1 * e.nx1 + e.f24 * e.le2 * e.nx2 + e.f34 * e.le3 * e.nx3 + e.f44 * e.le4 * e.nx4) / e.Ac + e.A16 * (e.f14 * e.le1 * e.ny1 + e.f24 * e.le2 * e.ny2 + e.f34 * e.le3 * e.ny3 + e.f44 * e.le4 * e.ny4) / e.Ac) * (e.f11 * e.le1 * e.nx1 + e.f21 * e.le2 * e.nx2 + e.f31 * e.le3 * e.nx3 + e.f41 * e.le4 * e.nx4) / e.Ac + (e.A16 * (e.f14 * e.le1 * e.nx1 + e.f24 * e.le2 * e.nx2 + e.f34 * e.le3 * e.nx3 + e.f44 * e.le4 * e.nx4) / e.Ac + e.A66 * (e.f14 * e.le1 * e.ny1 + e.f24 * e.le2 * e.ny2 + e.f34 * e.le3 * e.ny3 + e.f44 * e.le4 * e.ny4) / e.Ac) * (e.f11 * e.le1 * e.ny1 + e.f21 * e.le2 * e.ny2 + e.f31 * e.le3 * e.ny3 + e.f41 * e.le4 * e.ny4) / e.Ac)),
  (e.i4 * 5 + 0, e.i1 * 5 + 1, e.Ac * ((e.A12 * (e.f14 * e.le1 * e.nx1 + e.f24 * e.le2 * e.nx2 + e.f34 * e.le3 * e.nx3 + e.f44 * e.le4 * e.nx4) / e.Ac + e.A26 * (e.f14 * e.le1 * e.ny1 + e.f24 * e.le2 * e.ny2 + e.f34 * e.le3 * e.ny3 + e.f44 * e.le4 * e.ny4) / e.Ac) * (e.f11 * e.le1 * e.ny1 + e.f21 * e.le2 * e.ny2 + e.f31 * e.le3 * e.ny3 + e.f41 * e.le4 * e.ny4) / e.Ac + (e.A16 * (e.f14 * e.le1 * e.nx1 + e.f24 * e.le2 * e.nx2 + e.f34 * e.le3 * e.nx3 + e.f44 * e.le4 * e.nx4) / e.Ac + e.A66 * (e.f14 * e.le1 * e.ny1 + e.f24 * e.le2 * e.ny2 + e.f34 * e.le3 * e.ny3 + e.f44 * e.le4 * e.ny4) / e.Ac) * (e.f11 * e.le1 * e.nx1 + e.f21 * e.le2 * e.nx2 + e.f31 * e.le3 * e.nx3 + e.f41 * e.le4 * e.nx4) / e.Ac)),
  (e.i4 * 5 + 0, e.i1 * 5 + 3, e.Ac * ((e.B11 * (e.f14 * e.le1 * e.nx1 + e.f24 * e.le2 * e.nx2 + e.f34 * e.le3 * e.nx3 + e.f44 * e.le4 * e.nx4) / e.Ac + e.B16 * (e.f14 * e.le1 * e.ny1 + e.f24 * e.le2 * e.ny2 + e.f34 * e.le3 * e.ny3 + e.f44 * e.le4 * e.ny4) / e.Ac) * (e.f11 * e.le1 * e.nx1 + e.f21 * e.le2 * e.nx2 + e.f31 * e.le3 * e.nx3 + e.f41 * e.le4 * e.nx4) / e.Ac + (e.B16 * (e.f14 * e.le1 * e.nx1 + e.f24 * e.le2 * e.nx2 + e.f34 * e.le3 * e.nx3 + e.f44 * e.le4 * e.nx4) / e.Ac + e.B66 * (e.f14 * e.le1 * e.ny1 + e.f24 * e.le2 * e.ny2 + e.f34 * e.le3 * e.ny3 + e.f44 * e.le4 * e.ny4) / e.Ac) * (e.f11 * e.le1 * e.ny1 + e.f21 * e.le2 * e.ny2 + e.f31 * e.le3 * e.ny3 + e.f41 * e.le4 * e.ny4) / e.Ac)),
  (e.i4 * 5 + 0, e.i1 * 5 + 4, e.Ac * ((e.B12 * (e.f14 * e.le1 * e.nx1 + e.f24 * e.le2 * e.nx2 + e.f34 * e.le3 * e.nx3 + e.f44 * e.le4 * e.nx4) / e.Ac + e.B26 * (e.f14 * e.le1 * e.ny1 + e.f24 * e.le2 * e.ny2 + e.f34 * e.le3 * e.ny3 + e.f44 * e.le4 * e.ny4) / e.Ac) * (e.f11 * e.le1 * e.ny1 + e.f21 * e.le2 * e.ny2 + e.f31 * e.le3 * e.ny3 + e.f41 * e.le4 * e.ny4) / e.Ac + (e.B16 * (e.f14 * e.le1 * e.nx1 + e.f24 * e.le2 * e.nx2 + e.f34 * e.le3 * e.nx3 + e.f44 * e.le4 * e.nx4) / e.Ac + e.B66 * (e.f14 * e.le1 * e.ny1 + e.f24 * e.le2 * e.ny2 + e.f34 * e.le3 * e.ny3 + e.f44 * e.le4 * e.ny4) / e.Ac) * (e.f11 * e.le1 * e.nx1 + e.f21 * e.le2 * e.nx2 + e.f31 * e.le3 * e.nx3 + e.f41 * e.le4 * e.nx4) / e.Ac)),
  (e.i4 * 5 + 0, e.i2 * 5 + 0, e.Ac * ((e.A11 * (e.f14 * e.le1 * e.nx1 + e.f24 * e.le2 * e.nx2 + e.f34 * e.le3 * e.nx3 + e.f44 * e.le4 * e.nx4) / e.Ac + e.A16 * (e.f14 * e.le1 * e.ny1 + e.f24 * e.le2 * e.ny2 + e.f34 * e.le3 * e.ny3 + e.f44 * e.le4 * e.ny4) / e.Ac) * (e.f12 * e.le1 * e.nx1 + e.f22 * e.le2 * e.nx2 + e.f32 * e.le3 * e.nx3 + e.f42 * e.le4 * e.nx4) / e.Ac + (e.A16 * (e.f14 * e.le1 * e.nx1 + e.f24 * e.le2 * e.nx2 + e.f34 * e.le3 * e.nx3 + e.f44 * e.le4 * e.nx4) / e.Ac + e.A66 * (e.f14 * e.le1 * e.ny1 + e.f24 * e.le2 * e.ny2 + e.f34 * e.le3 * e.ny3 + e.f44 * e.le4 * e.ny4) / e.Ac) * (e.f12 * e.le1 * e.ny1 + e.f22 * e.le2 * e.ny2 + e.f32 * e.le3 * e.ny3 + e.f42 * e.le4 * e.ny4) / e.Ac)),
  (e.i4 * 5 + 0, e.i2 * 5 + 1, e.Ac * ((e.A12 * (e.f14 * e.le1 * e.nx1 + e.f24 * e.le2 * e.nx2 + e.f34 * e.le3 * e.nx3 + e.f44 * e.le4 * e.nx4) / e.Ac + e.A26 * (e.f14 * e.le1 * e.ny1 + e.f24 * e.le2 * e.ny2 + e.f34 * e.le3 * e.ny3 + e.f44 * e.le4 * e.ny4) / e.Ac) * (e.f12 * e.le1 * e.ny1 + e.f22 * e.le2 * e.ny2 + e.f32 * e.le3 * e.ny3 + e.f42 * e.le4 * e.ny4) / e.Ac + (e.A16 * (e.f14 * e.le1 * e.nx1 + e.f24 * e.le2 * e.nx2 + e.f34 * e.le3 * e.nx3 + e.f44 * e.le4 * e.nx4) / e.Ac + e.A66 * (e.f14 * e.le1 * e.ny1 + e.f24 * e.le2 * e.ny2 + e.f34 * e.le3 * e.ny3 + e.f44 * e.le4 * e.ny4) / e.Ac) * (e.f12 * e.le1 * e.nx1 + e.f22 * e.le2 * e.nx2 + e.f32 * e.le3 * e.nx3 + e.f42 * e.le4 * e.nx4) / e.Ac)),
  (e.i4 * 5 + 0, e.i2 * 5 + 3, e.Ac * ((e.B11 * (e.f14 * e.le1 * e.nx1 + e.f24 * e.le2 * e.nx2 + e.f34 * e.le3 * e.nx3 + e.f44 * e.le4 * e.nx4) / e.Ac + e.B16 * (e.f14 * e.le1 * e.ny1 + e.f24 * e.le2 * e.ny2 + e.f34 * e.le3 * e.ny3 + e.f44 * e.le4 * e.ny4) / e.Ac) * (e.f12 * e.le1 * e.nx1 + e.f22 * e.le2 * e.nx2 + e.f32 * e.le3 * e.nx3 + e.f42 * e.le4 * e.nx4) / e.Ac + (e.B16 * (e.f14 * e.le1 * e.nx1 + e.f24 * e.le2 * e.nx2 + e.f34 * e.le3 * e.nx3 + e.f44 * e.le4 * e.nx4) / e.Ac + e.B66 * (e.f14 * e.le1 * e.ny1 + e.f24 * e.le2 * e.ny2 + e.f34 * e.le3 * e.ny3 + e.f44 * e.le4 * e.ny4) / e.Ac) * (e.f12 * e.le1 * e.ny1 + e.f22 * e.le2 * e.ny2 + e.f32 * e.le3 * e.ny3 + e.f42 * e.le4 * e.ny4) / e.Ac)),
  (e.i4 * 5 + 0, e.i2 * 5 + 4, e.Ac * ((e.B12 * (e.f14 * e.le1 * e.nx1 + e.f24 * e.le2 * e.nx2 + e.f34 * e.le3 * e.nx3 + e.f44 * e.le4 * e.nx4) / e.Ac + e.B26 * (e.f14 * e.le1 * e.ny1 + e.f24 * e.le2 * e.ny2 + e.f34 * e.le3 * e.ny3 + e.f44 * e.le4 * e.ny4) / e.Ac) * (e.f12 * e.le1 * e.ny1 + e.f22 * e.le2 * e.ny2 + e.f32 * e.le3 * e.ny3 + e.f42 * e.le4 * e.ny4) / e.Ac + (e.B16 * (e.f14 * e.le1 * e.nx1 + e.f24 * e.le2 * e.nx2 + e.f34 * e.le3 * e.nx3 + e.f44 * e.le4 * e.nx4) / e.Ac + e.B66 * (e.f14 * e.le1 * e.ny1 + e.f24 * e.le2 * e.ny2 + e.f34 * e.le3 * e.ny3 + e.f44 * e.le4 * e.ny4) / e.Ac) * (e.f12 * e.le1 * e.nx1 + e.f22 * e.le2 * e.nx2 + e.f32 * e.le3 * e.nx3 + e.f42 * e.le4 * e.nx4) / e.Ac)),
  (e.i4 * 5 + 0, e.i3 * 5 + 0, e.Ac * ((e.A11 * (e.f14 * e.le1 * e.nx1 + e.f24 * e.le2 * e.nx2 + e.f34 * e.le3 * e.nx3 + e.f44 * e.le4 * e.nx4) / e.Ac + e.A16 * (e.f14 * e.le1 * e.ny1 + e.f24 * e.le2 * e.ny2 + e.f34 * e.le3 * e.ny3 + e.f44 * e.le4 * e.ny4) / e.Ac) * (e.f13 * e.le1 * e.nx1 + e.f23 * e.le2 * e.nx2 + e.f33 * e.le3 * e.nx3 + e.f43 * e.le4 * e.nx4) / e.Ac + (e.A16 * (e.f14 * e.le1 * e.nx1 + e.f24 * e.le2 * e.nx2 + e.f34 * e.le3 * e.nx3 + e.f44 * e.le4 * e.nx4) / e.Ac + e.A66 * (e.f14 * e.le1 * e.ny1 + e.f24 * e.le2 * e.ny2 + e.f34 * e.le3 * e.ny3 + e.f44 * e.le4 * e.ny4) / e.Ac) * (e.f13 * e.le1 * e.ny1 + e.f23 * e.le2 * e.ny2 + e.f33 * e.le3 * e.ny3 + e.f43 * e.le4 * e.ny4) / e.Ac)),
  (e.i4 * 5 + 0, e.i3 * 5 + 1, e.Ac * ((e.A12 * (e.f14 * e.le1 * e.nx1 + e.f24 * e.le2 * e.nx2 + e.f34 * e.le3 * e.nx3 + e.f44 * e.le4 * e.nx4) / e.Ac + e.A26 * (e.f14 * e.le1 * e.ny1 + e.f24 * e.le2 * e.ny2 + e.f34 * e.le3 * e.ny3 + e.f44 * e.le4 * e.ny4) / e.Ac) * (e.f13 * e.le1 * e.ny1 + e.f23 * e.le2 * e.ny2 + e.f33 * e.le3 * e.ny3 + e.f43 * e.le4 * e.ny4) / e.Ac + (e.A16 * (e.f14 * e.le1 * e.nx1 + e.f24 * e.le2 * e.nx2 + e.f34 * e.le3 * e.nx3 + e.f44 * e.le4 * e.nx4) / e.Ac + e.A66 * (e.f14 * e.le1 * e.ny1 + e.f24 * e.le2 * e.ny2 + e.f34 * e.le3 * e.ny3 + e.f44 * e.le4 * e.ny4) / e.Ac) * (e.f13 * e.le1 * e.nx1 + e.f23 * e.le2 * e.nx2 + e.f33 * e.le3 * e.nx3 + e.f43 * e.le4 * e.nx4) / e.Ac)),
  (e.i4 * 5 + 0, e.i3 * 5 + 3, e.Ac * ((e.B11 * (e.f14 * e.le1 * e.nx1 + e.f24 * e.le2 * e.nx2 + e.f34 * e.le3 * e.nx3 + e.f44 * e.le4 * e.nx4) / e.Ac + e.B16 * (e.f14 * e.le1 * e.ny1 + e.f24 * e.le2 * e.ny2 + e.f34 * e.le3 * e.ny3 + e.f44 * e.le4 * e.ny4) / e.Ac) * (e.f13 * e.le1 * e.nx1 + e.f23 * e.le2 * e.nx2 + e.f33 * e.le3 * e.nx3 + e.f43 * e.le4 * e.nx4) / e.Ac + (e.B16 * (e.f14 * e.le1 * e.nx1 + e.f24 * e.le2 * e.nx2 + e.f34 * e.le3 * e.nx3 + e.f44 * e.le4 * e.nx4) / e.Ac + e.B66 * (e.f14 * e.le1 * e.ny1 + e.f24 * e.le2 * e.ny2 + e.f34 * e.le3 * e.ny3 + e.f44 * e.le4 * e.ny4) / e.Ac) * (e.f13 * e.le1 * e.ny1 + e.f23 * e.le2 * e.ny2 + e.f33 * e.le3 * e.ny3 + e.f43 * e.le4 * e.ny4) / e.Ac)),
  (e.i4 * 5 + 0, e.i3 * 5 + 4, e.Ac * ((e.B12 * (e.f14 * e.le1 * e.nx1 + e.f24 * e.le2 * e.nx2 + e.f34 * e.le3 * e.nx3 + e.f44 * e.le4 * e.nx4) / e.Ac + e.B26 * (e.f14 * e.le1 * e.ny1 + e.f24 * e.le2 * e.ny2 + e.f34 * e.le3 * e.ny3 + e.f44 * e.le4 * e.ny4) / e.Ac) * (e.f13 * e.le1 * e.ny1 + e.f23 * e.le2 * e.ny2 + e.f33 * e.le3 * e.ny3 + e.f43 * e.le4 * e.ny4) / e.Ac + (e.B16 * (e.f14 * e.le1 * e.nx1 + e.f24 * e.le2 * e.nx2 + e.f34 * e.le3 * e.nx3 + e.f44 * e.le4 * e.nx4) / e.Ac + e.B66 * (e.f14 * e.le1 * e.ny1 + e.f24 * e.le2 * e.ny2 + e.f34 * e.le3 * e.ny3 + e.f44 * e.le4 * e.ny4) / e.Ac) * (e.f13 * e.le1 * e.nx1 + e.f23 * e.le2 * e.nx2 + e.f33 * e.le3 * e.nx3 + e.f43 * e.le4 * e.nx4) / e.Ac)),
  (e.i4 * 5 + 0, e.i4 * 5 + 0, e.Ac * ((e.A11 * (e.f14 * e.le1 * e.nx1 + e.f24 * e.le2 * e.nx2 + e.f34 * e.le3 * e.nx3 + e.f44 * e.le4 * e.nx4) / e.Ac + e.A16 * (e.f14 * e.le1 * e.ny1 + e.f24 * e.le2 * e.ny2 + e.f34 * e.le3 * e.ny3 + e.f44 * e.le4 * e.ny4) / e.Ac) * (e.f14 * e.le1 * e.nx1 + e.f24 * e.le2 * e.nx2 + e.f34 * e.le3 * e.nx3 + e.f44 * e.le4 * e.nx4) / e.Ac + (e.A16 * (e.f14 * e.le1 * e.nx1 + e.f24 * e.le2 * e.nx2 + e.f34 * e.le3 * e.nx3 + e.f44 * e.le4 * e.nx4) / e.Ac + e.A66 * (e.f14 * e.le1 * e.ny1 + e.f24 * e.le2 * e.ny2 + e.f34 * e.le3 * e.ny3 + e.f44 * e.le4 * e.ny4) / e.Ac) * (e.f14 * e.le1 * e.ny1 + e.f24 * e.le2 * e.ny2 + e.f34 * e.le3 * e.ny3 + e.f44 * e.le4 * e.ny4) / e.Ac)),
  (e.i4 * 5 + 0, e.i4 * 5 + 1, e.Ac * ((e.A12 * (e.f14 * e.le1 * e.nx1 + e.f24 * e.le2 * e.nx2 + e.f34 * e.le3 * e.nx3 + e.f44 * e.le4 * e.nx4) / e.Ac + e.A26 * (e.f14 * e.le1 * e.ny1 + e.f24 * e.le2 * e.ny2 + e.f34 * e.le3 * e.ny3 + e.f44 * e.le4 * e.ny4) / e.Ac) * (e.f14 * e.le1 * e.ny1 + e.f24 * e.le2 * e.ny2 + e.f34 * e.le3 * e.ny3 + e.f44 * e.le4 * e.ny4) / e.Ac + (e.A16 * (e.f14 * e.le1 * e.nx1 + e.f24 * e.le2 * e.nx2 + e.f34 * e.le3 * e.nx3 + e.f44 * e.le4 * e.nx4) / e.Ac + e.A66 * (e.f14 * e.le1 * e.ny1 + e.f24 * e.le2 * e.ny2 + e.f34 * e.le3 * e.ny3 + e.f44 * e.le4 * e.ny4) / e.Ac) * (e.f14 * e.le1 * e.nx1 + e.f24 * e.le2 * e.nx2 + e.f34 * e.le3 * e.nx3 + e.f44 * e.le4 * e.nx4) / e.Ac)),
  (e.i4 * 5 + 0, e.i4 * 5 + 3, e.Ac * ((e.B11 * (e.f14 * e.le1 * e.nx1 + e.f24 * e.le2 * e.nx2 + e.f34 * e.le3 * e.nx3 + e.f44 * e.le4 * e.nx4) / e.Ac + e.B16 * (e.f14 * e.le1 * e.ny1 + e.f24 * e.le2 * e.ny2 + e.f34 * e.le3 * e.ny3 + e.f44 * e.le4 * e.ny4) / e.Ac) * (e.f14 * e.le1 * e.nx1 + e.f24 * e.le2 * e.nx2 + e.f34 * e.le3 * e.nx3 + e.f44 * e.le4 * e.nx4) / e.Ac + (e.B16 * (e.f14 * e.le1 * e.nx1 + e.f24 * e.le2 * e.nx2 + e.f34 * e.le3 * e.nx3 + e.f44 * e.le4 * e.nx4) / e.Ac + e.B66 * (e.f14 * e.le1 * e.ny1 + e.f24 * e.le2 * e.ny2 + e.f34 * e.le3 * e.ny3 + e.f44 * e.le4 * e.ny4) / e.Ac) * (e.f14 * e.le1 * e.ny1 + e.f24 * e.le2 * e.ny2 + e.f34 * e.le3 * e.ny3 + e.f44 * e.le4 * e.ny4) / e.Ac)),
  (e.i4 * 5 + 0, e.i4 * 5 + 4, e.Ac * ((e.B12 * (e.f14 * e.le1 * e.nx1 + e.f24 * e.le2 * e.nx2 + e.f34 * e.le3 * e.nx3 + e.f44 * e.le4 * e.nx4) / e.Ac + e.B26 * (e.f14 * e.le1 * e.ny1 + e.f24 * e.le2 * e.ny2 + e.f34 * e.le3 * e.ny3 + e.f44 * e.le4 * e.ny4) / e.Ac) * (e.f14 * e.le1 * e.ny1 + e.f24 * e.le2 * e.ny2 + e.f34 * e.le3 * e.ny3 + e.f44 * e.le4 * e.ny4) / e.Ac + (e.B16 * (e.f14 * e.le1 * e.nx1 + e.f24 * e.le2 * e.nx2 + e.f34 * e.le3 * e.nx3 + e.f44 * e.le4 * e.nx4) / e.Ac + e.B66 * (e.f14 * e.le1 * e.ny1 + e.f24 * e.le2 * e.ny2 + e.f34 * e.le3 * e.ny3 + e.f44 * e.le4 * e.ny4) / e.Ac) * (e.f14 * e.le1 * e.nx1 + e.f24 * e.le2 * e.nx2 + e.f34 * e.le3 * e.nx3 + e.f44 * e.le4 * e.nx4) / e.Ac))]

/-- meshless/espim/plate2d_calc_k0.py:461-476 -/
def k0_i4_1 (e : K0Env K) : List (ℤ × ℤ × K) := [
  (e.i4 * 5 + 1, e.i1 * 5 + 0, e.Ac * ((e.A12 * (e.f14 * e.le1 * e.ny1 + e.f24 * e.le2 * e.ny2 + e.f34 * e.le3 * e.ny3 + e.f44 * e.le4 * e.ny4) / e.Ac + e.A16 * (e.f14 * e.le1 * e.nx1 + e.f24 * e.le2 * e.nx2 + e.f34 * e.le3 * e.nx3 + e.f44 * e.le4 * e.nx4) / e.Ac) * (e.f11 * e.le1 * e.nx1 + e.f21 * e.le2 * e.nx2 + e.f31 * e.le3 * e.nx3 + e.f41 * e.le4 * e.nx4) / e.Ac + (e.A26 * (e.f14 * e.le1 * e.ny1 + e.f24 * e.le2 * e.ny2 + e.f34 * e.le3 * e.ny3 + e.f44 * e.le4 * e.ny4) / e.Ac + e.A66 * (e.f14 * e.le1 * e.nx1 + e.f24 * e.le2 * e.nx2 + e.f34 * e.le3 * e.nx3 + e.f44 * e.le4 * e.nx4) / e.Ac) * (e.f11 * e.le1 * e.ny1 + e.f21 * e.le2 * e.ny2 + e.f31 * e.le3 * e.ny3 + e.f41 * e.le4 * e.ny4) / e.Ac)),
  (e.i4 * 5 + 1, e.i1 * 5 + 1, e.Ac * ((e.A22 * (e.f14 * e.le1 * e.ny1 + e.f24 * e.le2 * e.ny2 + e.f34 * e.le3 * e.ny3 + e.f44 * e.le4 * e.ny4) / e.Ac + e.A26 * (e.f14 * e.le1 * e.nx1 + e.f24 * e.le2 * e.nx2 + e.f34 * e.le3 * e.nx3 + e.f44 * e.le4 * e.nx4) / e.Ac) * (e.f11 * e.le1 * e.ny1 + e.f21 * e.le2 * e.ny2 + e.f31 * e.le3 * e.ny3 + e.f41 * e.le4 * e.ny4) / e.Ac + (e.A26 * (e.f14 * e.le1 * e.ny1 + e.f24 * e.le2 * e.ny2 + e.f34 * e.le3 * e.ny3 + e.f44 * e.le4 * e.ny4) / e.Ac + e.A66 * (e.f14 * e.le1 * e.nx1 + e.f24 * e.le2 * e.nx2 + e.f34 * e.le3 * e.nx3 + e.f44 * e.le4 * e.nx4) / e.Ac) * (e.f11 * e.le1 * e.nx1 + e.f21 * e.le2 * e.nx2 + e.f31 * e.le3 * e.nx3 + e.f41 * e.le4 * e.nx4) / e.Ac)),
  (e.i4 * 5 + 1, e.i1 * 5 + 3, e.Ac * ((e.B12 * (e.f14 * e.le1 * e.ny1 + e.f24 * e.le2 * e.ny2 + e.f34 * e.le3 * e.ny3 + e.f44 * e.le4 * e.ny4) / e.Ac + e.B16 * (e.f14 * e.le1 * e.nx1 + e.f24 * e.le2 * e.nx2 + e.f34 * e.le3 * e.nx3 + e.f44 * e.le4 * e.nx4) / e.Ac) * (e.f11 * e.le1 * e.nx1 + e.f21 * e.le2 * e.nx2 + e.f31 * e.le3 * e.nx3 + e.f41 * e.le4 * e.nx4) / e.Ac + (e.B26 * (e.f14 * e.le1 * e.ny1 + e.f24 * e.le2 * e.ny2 + e.f34 * e.le3 * e.ny3 + e.f44 * e.le4 * e.ny4) / e.Ac + e.B66 * (e.f14 * e.le1 * e.nx1 + e.f24 * e.le2 * e.nx2 + e.f34 * e.le3 * e.nx3 + e.f44 * e.le4 * e.nx4) / e.Ac) * (e.f11 * e.le1 * e.ny1 + e.f21 * e.le2 * e.ny2 + e.f31 * e.le3 * e.ny3 + e.f41 * e.le4 * e.ny4) / e.Ac)),
  (e.i4 * 5 + 1, e.i1 * 5 + 4, e.Ac * ((e.B22 * (e.f14 * e.le1 * e.ny1 + e.f24 * e.le2 * e.ny2 + e.f34 * e.le3 * e.ny3 + e.f44 * e.le4 * e.ny4) / e.Ac + e.B26 * (e.f14 * e.le1 * e.nx1 + e.f24 * e.le2 * e.nx2 + e.f34 * e.le3 * e.nx3 + e.f44 * e.le4 * e.nx4) / e.Ac) * (e.f11 * e.le1 * e.ny1 + e.f21 * e.le2 * e.ny2 + e.f31 * e.le3 * e.ny3 + e.f41 * e.le4 * e.ny4) / e.Ac + (e.B26 * (e.f14 * e.le1 * e.ny1 + e.f24 * e.le2 * e.ny2 + e.f34 * e.le3 * e.ny3 + e.f44 * e.le4 * e.ny4) / e.Ac + e.B66 * (e.f14 * e.le1 * e.nx1 + e.f24 * e.le2 * e.nx2 + e.f34 * e.le3 * e.nx3 + e.f44 * e.le4 * e.nx4) / e.Ac) * (e.f11 * e.le1 * e.nx1 + e.f21 * e.le2 * e.nx2 + e.f31 * e.le3 * e.nx3 + e.f41 * e.le4 * e.nx4) / e.Ac)),
  (e.i4 * 5 + 1, e.i2 * 5 + 0, e.Ac * ((e.A12 * (e.f14 * e.le1 * e.ny1 + e.f24 * e.le2 * e.ny2 + e.f34 * e.le3 * e.ny3 + e.f44 * e.le4 * e.ny4) / e.Ac + e.A16 * (e.f14 * e.le1 * e.nx1 + e.f24 * e.le2 * e.nx2 + e.f34 * e.le3 * e.nx3 + e.f44 * e.le4 * e.nx4) / e.Ac) * (e.f12 * e.le1 * e.nx1 + e.f22 * e.le2 * e.nx2 + e.f32 * e.le3 * e.nx3 + e.f42 * e.le4 * e.nx4) / e.Ac + (e.A26 * (e.f14 * e.le1 * e.ny1 + e.f24 * e.le2 * e.ny2 + e.f34 * e.le3 * e.ny3 + e.f44 * e.le4 * e.ny4) / e.Ac + e.A66 * (e.f14 * e.le1 * e.nx1 + e.f24 * e.le2 * e.nx2 + e.f34 * e.le3 * e.nx3 + e.f44 * e.le4 * e.nx4) / e.Ac) * (e.f12 * e.le1 * e.ny1 + e.f22 * e.le2 * e.ny2 + e.f32 * e.le3 * e.ny3 + e.f42 * e.le4 * e.ny4) / e.Ac)),
  (e.i4 * 5 + 1, e.i2 * 5 + 1, e.Ac * ((e.A22 * (e.f14 * e.le1 * e.ny1 + e.f24 * e.le2 * e.ny2 + e.f34 * e.le3 * e.ny3 + e.f44 * e.le4 * e.ny4) / e.Ac + e.A26 * (e.f14 * e.le1 * e.nx1 + e.f24 * e.le2 * e.nx2 + e.f34 * e.le3 * e.nx3 + e.f44 * e.le4 * e.nx4) / e.Ac) * (e.f12 * e.le1 * e.ny1 + e.f22 * e.le2 * e.ny2 + e.f32 * e.le3 * e.ny3 + e.f42 * e.le4 * e.ny4) / e.Ac + (e.A26 * (e.f14 * e.le1 * e.ny1 + e.f24 * e.le2 * e.ny2 + e.f34 * e.le3 * e.ny3 + e.f44 * e.le4 * e.ny4) / e.Ac + e.A66 * (e.f14 * e.le1 * e.nx1 + e.f24 * e.le2 * e.nx2 + e.f34 * e.le3 * e.nx3 + e.f44 * e.le4 * e.nx4) / e.Ac) * (e.f12 * e.le1 * e.nx1 + e.f22 * e.le2 * e.nx2 + e.f32 * e.le3 * e.nx3 + e.f42 * e.le4 * e.nx4) / e.Ac)),
  (e.i4 * 5 + 1, e.i2 * 5 + 3, e.Ac * ((e.B12 * (e.f14 * e.le1 * e.ny1 + e.f24 * e.le2 * e.ny2 + e.f34 * e.le3 * e.ny3 + e.f44 * e.le4 * e.ny4) / e.Ac + e.B16 * (e.f14 * e.le1 * e.nx1 + e.f24 * e.le2 * e.nx2 + e.f34 * e.le3 * e.nx3 + e.f44 * e.le4 * e.nx4) / e.Ac) * (e.f12 * e.le1 * e.nx1 + e.f22 * e.le2 * e.nx2 + e.f32 * e.le3 * e.nx3 + e.f42 * e.le4 * e.nx4) / e.Ac + (e.B26 * (e.f14 * e.le1 * e.ny1 + e.f24 * e.le2 * e.ny2 + e.f34 * e.le3 * e.ny3 + e.f44 * e.le4 * e.ny4) / e.Ac + e.B66 * (e.f14 * e.le1 * e.nx1 + e.f24 * e.le2 * e.nx2 + e.f34 * e.le3 * e.nx3 + e.f44 * e.le4 * e.nx4) / e.Ac) * (e.f12 * e.le1 * e.ny1 + e.f22 * e.le2 * e.ny2 + e.f32 * e.le3 * e.ny3 + e.f42 * e.le4 * e.ny4) / e.Ac)),
  (e.i4 * 5 + 1, e.i2 * 5 + 4, e.Ac * ((e.B22 * (e.f14 * e.le1 * e.ny1 + e.f24 * e.le2 * e.ny2 + e.f34 * e.le3 * e.ny3 + e.f44 * e.le4 * e.ny4) / e.Ac + e.B26 * (e.f14 * e.le1 * e.nx1 + e.f24 * e.le2 * e.nx2 + e.f34 * e.le3 * e.nx3 + e.f44 * e.le4 * e.nx4) / e.Ac) * (e.f12 * e.le1 * e.ny1 + e.f22 * e.le2 * e.ny2 + e.f32 * e.le3 * e.ny3 + e.f42 * e.le4 * e.ny4) / e.Ac + (e.B26 * (e.f14 * e.le1 * e.ny1 + e.f24 * e.le2 * e.ny2 + e.f34 * e.le3 * e.ny3 + e.f44 * e.le4 * e.ny4) / e.Ac + e.B66 * (e.f14 * e.le1 * e.nx1 + e.f24 * e.le2 * e.nx2 + e.f34 * e.le3 * e.nx3 + e.f44 * e.le4 * e.nx4) / e.Ac) * (e.f12 * e.le1 * e.nx1 + e.f22 * e.le2 * e.nx2 + e.f32 * e.le3 * e.nx3 + e.f42 * e.le4 * e.nx4) / e.Ac)),
  (e.i4 * 5 + 1, e.i3 * 5 + 0, e.Ac * ((e.A12 * (e.f14 * e.le1 * e.ny1 + e.f24 * e.le2 * e.ny2 + e.f34 * e.le3 * e.ny3 + e.f44 * e.le4 * e.ny4) / e.Ac + e.A16 * (e.f14 * e.le1 * e.nx1 + e.f24 * e.le2 * e.nx2 + e.f34 * e.le3 * e.nx3 + e.f44 * e.le4 * e.nx4) / e.Ac) * (e.f13 * e.le1 * e.nx1 + e.f23 * e.le2 * e.nx2 + e.f33 * e.le3 * e.nx3 + e.f43 * e.le4 * e.nx4) / e.Ac + (e.A26 * (e.f14 * e.le1 * e.ny1 + e.f24 * e.le2 * e.ny2 + e.f34 * e.le3 * e.ny3 + e.f44 * e.le4 * e.ny4) / e.Ac + e.A66 * (e.f14 * e.le1 * e.nx1 + e.f24 * e.le2 * e.nx2 + e.f34 * e.le3 * e.nx3 + e.f44 * e.le4 * e.nx4) / e.Ac) * (e.f13 * e.le1 * e.ny1 + e.f23 * e.le2 * e.ny2 + e.f33 * e.le3 * e.ny3 + e.f43 * e.le4 * e.ny4) / e.Ac)),
  (e.i4 * 5 + 1, e.i3 * 5 + 1, e.Ac * ((e.A22 * (e.f14 * e.le1 * e.ny1 + e.f24 * e.le2 * e.ny2 + e.f34 * e.le3 * e.ny3 + e.f44 * e.le4 * e.ny4) / e.Ac + e.A26 * (e.f14 * e.le1 * e.nx1 + e.f24 * e.le2 * e.nx2 + e.f34 * e.le3 * e.nx3 + e.f44 * e.le4 * e.nx4) / e.Ac) * (e.f13 * e.le1 * e.ny1 + e.f23 * e.le2 * e.ny2 + e.f33 * e.le3 * e.ny3 + e.f43 * e.le4 * e.ny4) / e.Ac + (e.A26 * (e.f14 * e.le1 * e.ny1 + e.f24 * e.le2 * e.ny2 + e.f34 * e.le3 * e.ny3 + e.f44 * e.le4 * e.ny4) / e.Ac + e.A66 * (e.f14 * e.le1 * e.nx1 + e.f24 * e.le2 * e.nx2 + e.f34 * e.le3 * e.nx3 + e.f44 * e.le4 * e.nx4) / e.Ac) * (e.f13 * e.le1 * e.nx1 + e.f23 * e.le2 * e.nx2 + e.f33 * e.le3 * e.nx3 + e.f43 * e.le4 * e.nx4) / e.Ac)),
  (e.i4 * 5 + 1, e.i3 * 5 + 3, e.Ac * ((e.B12 * (e.f14 * e.le1 * e.ny1 + e.f24 * e.le2 * e.ny2 + e.f34 * e.le3 * e.ny3 + e.f44 * e.le4 * e.ny4) / e.Ac + e.B16 * (e.f14 * e.le1 * e.nx1 + e.f24 * e.le2 * e.nx2 + e.f34 * e.le3 * e.nx3 + e.f44 * e.le4 * e.nx4) / e.Ac) * (e.f13 * e.le1 * e.nx1 + e.f23 * e.le2 * e.nx2 + e.f33 * e.le3 * e.nx3 + e.f43 * e.le4 * e.nx4) / e.Ac + (e.B26 * (e.f14 * e.le1 * e.ny1 + e.f24 * e.le2 * e.ny2 + e.f34 * e.le3 * e.ny3 + e.f44 * e.le4 * e.ny4) / e.Ac + e.B66 * (e.f14 * e.le1 * e.nx1 + e.f24 * e.le2 * e.nx2 + e.f34 * e.le3 * e.nx3 + e.f44 * e.le4 * e.nx4) / e.Ac) * (e.f13 * e.le1 * e.ny1 + e.f23 * e.le2 * e.ny2 + e.f33 * e.le3 * e.ny3 + e.f43 * e.le4 * e.ny4) / e.Ac)),
  (e.i4 * 5 + 1, e.i3 * 5 + 4, e.Ac * ((e.B22 * (e.f14 * e.le1 * e.ny1 + e.f24 * e.le2 * e.ny2 + e.f34 * e.le3 * e.ny3 + e.f44 * e.le4 * e.ny4) / e.Ac + e.B26 * (e.f14 * e.le1 * e.nx1 + e.f24 * e.le2 * e.nx2 + e.f34 * e.le3 * e.nx3 + e.f44 * e.le4 * e.nx4) / e.Ac) * (e.f13 * e.le1 * e.ny1 + e.f23 * e.le2 * e.ny2 + e.f33 * e.le3 * e.ny3 + e.f43 * e.le4 * e.ny4) / e.Ac + (e.B26 * (e.f14 * e.le1 * e.ny1 + e.f24 * e.le2 * e.ny2 + e.f34 * e.le3 * e.ny3 + e.f44 * e.le4 * e.ny4) / e.Ac + e.B66 * (e.f14 * e.le1 * e.nx1 + e.f24 * e.le2 * e.nx2 + e.f34 * e.le3 * e.nx3 + e.f44 * e.le4 * e.nx4) / e.Ac) * (e.f13 * e.le1 * e.nx1 + e.f23 * e.le2 * e.nx2 + e.f33 * e.le3 * e.nx3 + e.f43 * e.le4 * e.nx4) / e.Ac)),
  (e.i4 * 5 + 1, e.i4 * 5 + 0, e.Ac * ((e.A12 * (e.f14 * e.le1 * e.ny1 + e.f24 * e.le2 * e.ny2 + e.f34 * e.le3 * e.ny3 + e.f44 * e.le4 * e.ny4) / e.Ac + e.A16 * (e.f14 * e.le1 * e.nx1 + e.f24 * e.le2 * e.nx2 + e.f34 * e.le3 * e.nx3 + e.f44 * e.le4 * e.nx4) / e.Ac) * (e.f14 * e.le1 * e.nx1 + e.f24 * e.le2 * e.nx2 + e.f34 * e.le3 * e.nx3 + e.f44 * e.le4 * e.nx4) / e.Ac + (e.A26 * (e.f14 * e.le1 * e.ny1 + e.f24 * e.le2 * e.ny2 + e.f34 * e.le3 * e.ny3 + e.f44 * e.le4 * e.ny4) / e.Ac + e.A66 * (e.f14 * e.le1 * e.nx1 + e.f24 * e.le2 * e.nx2 + e.f34 * e.le3 * e.nx3 + e.f44 * e.le4 * e.nx4) / e.Ac) * (e.f14 * e.le1 * e.ny1 + e.f24 * e.le2 * e.ny2 + e.f34 * e.le3 * e.ny3 + e.f44 * e.le4 * e.ny4) / e.Ac)),
  (e.i4 * 5 + 1, e.i4 * 5 + 1, e.Ac * ((e.A22 * (e.f14 * e.le1 * e.ny1 + e.f24 * e.le2 * e.ny2 + e.f34 * e.le3 * e.ny3 + e.f44 * e.le4 * e.ny4) / e.Ac + e.A26 * (e.f14 * e.le1 * e.nx1 + e.f24 * e.le2 * e.nx2 + e.f34 * e.le3 * e.nx3 + e.f44 * e.le4 * e.nx4) / e.Ac) * (e.f14 * e.le1 * e.ny1 + e.f24 * e.le2 * e.ny2 + e.f34 * e.le3 * e.ny3 + e.f44 * e.le4 * e.ny4) / e.Ac + (e.A26 * (e.f14 * e.le1 * e.ny1 + e.f24 * e.le2 * e.ny2 + e.f34 * e.le3 * e.ny3 + e.f44 * e.le4 * e.ny4) / e.Ac + e.A66 * (e.f14 * e.le1 * e.nx1 + e.f24 * e.le2 * e.nx2 + e.f34 * e.le3 * e.nx3 + e.f44 * e.le4 * e.nx4) / e.Ac) * (e.f14 * e.le1 * e.nx1 + e.f24 * e.le2 * e.nx2 + e.f34 * e.le3 * e.nx3 + e.f44 * e.le4 * e.nx4) / e.Ac)),
  (e.i4 * 5 + 1, e.i4 * 5 + 3, e.Ac * ((e.B12 * (e.f14 * e.le1 * e.ny1 + e.f24 * e.le2 * e.ny2 + e.f34 * e.le3 * e.ny3 + e.f44 * e.le4 * e.ny4) / e.Ac + e.B16 * (e.f14 * e.le1 * e.nx1 + e.f24 * e.le2 * e.nx2 + e.f34 * e.le3 * e.nx3 + e.f44 * e.le4 * e.nx4) / e.Ac) * (e.f14 * e.le1 * e.nx1 + e.f24 * e.le2 * e.nx2 + e.f34 * e.le3 * e.nx3 + e.f44 * e.le4 * e.nx4) / e.Ac + (e.B26 * (e.f14 * e.le1 * e.ny1 + e.f24 * e.le2 * e.ny2 + e.f34 * e.le3 * e.ny3 + e.f44 * e.le4 * e.ny4) / e.Ac + e.B66 * (e.f14 * e.le1 * e.nx1 + e.f24 * e.le2 * e.nx2 + e.f34 * e.le3 * e.nx3 + e.f44 * e.le4 * e.nx4) / e.Ac) * (e.f14 * e.le1 * e.ny1 + e.f24 * e.le2 * e.ny2 + e.f34 * e.le3 * e.ny3 + e.f44 * e.le4 * e.ny4) / e.Ac)),
  (e.i4 * 5 + 1, e.i4 * 5 + 4, e.Ac * ((e.B22 * (e.f14 * e.le1 * e.ny1 + e.f24 * e.le2 * e.ny2 + e.f34 * e.le3 * e.ny3 + e.f44 * e.le4 * e.ny4) / e.Ac + e.B26 * (e.f14 * e.le1 * e.nx1 + e.f24 * e.le2 * e.nx2 + e.f34 * e.le3 * e.nx3 + e.f44 * e.le4 * e.nx4) / e.Ac) * (e.f14 * e.le1 * e.ny1 + e.f24 * e.le2 * e.ny2 + e.f34 * e.le3 * e.ny3 + e.f44 * e.le4 * e.ny4) / e.Ac + (e.B26 * (e.f14 * e.le1 * e.ny1 + e.f24 * e.le2 * e.ny2 + e.f34 * e.le3 * e.ny3 + e.f44 * e.le4 * e.ny4) / e.Ac + e.B66 * (e.f14 * e.le1 * e.nx1 + e.f24 * e.le2 * e.nx2 + e.f34 * e.le3 * e.nx3 + e.f44 * e.le4 * e.nx4) / e.Ac) * (e.f14 * e.le1 * e.nx1 + e.f24 * e.le2 * e.nx2 + e.f34 * e.le3 * e.nx3 + e.f44 * e.le4 * e.nx4) / e.Ac))]

/-- meshless/espim/plate2d_calc_k0.py:477-492 -/
def k0_i4_3 (e : K0Env K) : List (ℤ × ℤ × K) := [
  (e.i4 * 5 + 3, e.i1 * 5 + 0, e.Ac * ((e.B11 * (e.f14 * e.le1 * e.nx1 + e.f24 * e.le2 * e.nx2 + e.f34 * e.le3 * e.nx3 + e.f44 * e.le4 * e.nx4) / e.Ac + e.B16 * (e.f14 * e.le1 * e.ny1 + e.f24 * e.le2 * e.ny2 + e.f34 * e.le3 * e.ny3 + e.f44 * e.le4 * e.ny4) / e.Ac) * (e.f11 * e.le1 * e.nx1 + e.f21 * e.le2 * e.nx2 + e.f31 * e.le3 * e.nx3 + e.f41 * e.le4 * e.nx4) / e.Ac + (e.B16 * (e.f14 * e.le1 * e.nx1 + e.f24 * e.le2 * e.nx2 + e.f34 * e.le3 * e.nx3 + e.f44 * e.le4 * e.nx4) / e.Ac + e.B66 * (e.f14 * e.le1 * e.ny1 + e.f24 * e.le2 * e.ny2 + e.f34 * e.le3 * e.ny3 + e.f44 * e.le4 * e.ny4) / e.Ac) * (e.f11 * e.le1 * e.ny1 + e.f21 * e.le2 * e.ny2 + e.f31 * e.le3 * e.ny3 + e.f41 * e.le4 * e.ny4) / e.Ac)),
  (e.i4 * 5 + 3, e.i1 * 5 + 1, e.Ac * ((e.B12 * (e.f14 * e.le1 * e.nx1 + e.f24 * e.le2 * e.nx2 + e.f34 * e.le3 * e.nx3 + e.f44 * e.le4 * e.nx4) / e.Ac + e.B26 * (e.f14 * e.le1 * e.ny1 + e.f24 * e.le2 * e.ny2 + e.f34 * e.le3 * e.ny3 + e.f44 * e.le4 * e.ny4) / e.Ac) * (e.f11 * e.le1 * e.ny1 + e.f21 * e.le2 * e.ny2 + e.f31 * e.le3 * e.ny3 + e.f41 * e.le4 * e.ny4) / e.Ac + (e.B16 * (e.f14 * e.le1 * e.nx1 + e.f24 * e.le2 * e.nx2 + e.f34 * e.le3 * e.nx3 + e.f44 * e.le4 * e.nx4) / e.Ac + e.B66 * (e.f14 * e.le1 * e.ny1 + e.f24 * e.le2 * e.ny2 + e.f34 * e.le3 * e.ny3 + e.f44 * e.le4 * e.ny4) / e.Ac) * (e.f11 * e.le1 * e.nx1 + e.f21 * e.le2 * e.nx2 + e.f31 * e.le3 * e.nx3 + e.f41 * e.le4 * e.nx4) / e.Ac)),
  (e.i4 * 5 + 3, e.i1 * 5 + 3, e.Ac * ((e.D11 * (e.f14 * e.le1 * e.nx1 + e.f24 * e.le2 * e.nx2 + e.f34 * e.le3 * e.nx3 + e.f44 * e.le4 * e.nx4) / e.Ac + e.D16 * (e.f14 * e.le1 * e.ny1 + e.f24 * e.le2 * e.ny2 + e.f34 * e.le3 * e.ny3 + e.f44 * e.le4 * e.ny4) / e.Ac) * (e.f11 * e.le1 * e.nx1 + e.f21 * e.le2 * e.nx2 + e.f31 * e.le3 * e.nx3 + e.f41 * e.le4 * e.nx4) / e.Ac + (e.D16 * (e.f14 * e.le1 * e.nx1 + e.f24 * e.le2 * e.nx2 + e.f34 * e.le3 * e.nx3 + e.f44 * e.le4 * e.nx4) / e.Ac + e.D66 * (e.f14 * e.le1 * e.ny1 + e.f24 * e.le2 * e.ny2 + e.f34 * e.le3 * e.ny3 + e.f44 * e.le4 * e.ny4) / e.Ac) * (e.f11 * e.le1 * e.ny1 + e.f21 * e.le2 * e.ny2 + e.f31 * e.le3 * e.ny3 + e.f41 * e.le4 * e.ny4) / e.Ac)),
  (e.i4 * 5 + 3, e.i1 * 5 + 4, e.Ac * ((e.D12 * (e.f14 * e.le1 * e.nx1 + e.f24 * e.le2 * e.nx2 + e.f34 * e.le3 * e.nx3 + e.f44 * e.le4 * e.nx4) / e.Ac + e.D26 * (e.f14 * e.le1 * e.ny1 + e.f24 * e.le2 * e.ny2 + e.f34 * e.le3 * e.ny3 + e.f44 * e.le4 * e.ny4) / e.Ac) * (e.f11 * e.le1 * e.ny1 + e.f21 * e.le2 * e.ny2 + e.f31 * e.le3 * e.ny3 + e.f41 * e.le4 * e.ny4) / e.Ac + (e.D16 * (e.f14 * e.le1 * e.nx1 + e.f24 * e.le2 * e.nx2 + e.f34 * e.le3 * e.nx3 + e.f44 * e.le4 * e.nx4) / e.Ac + e.D66 * (e.f14 * e.le1 * e.ny1 + e.f24 * e.le2 * e.ny2 + e.f34 * e.le3 * e.ny3 + e.f44 * e.le4 * e.ny4) / e.Ac) * (e.f11 * e.le1 * e.nx1 + e.f21 * e.le2 * e.nx2 + e.f31 * e.le3 * e.nx3 + e.f41 * e.le4 * e.nx4) / e.Ac)),
  (e.i4 * 5 + 3, e.i2 * 5 + 0, e.Ac * ((e.B11 * (e.f14 * e.le1 * e.nx1 + e.f24 * e.le2 * e.nx2 + e.f34 * e.le3 * e.nx3 + e.f44 * e.le4 * e.nx4) / e.Ac + e.B16 * (e.f14 * e.le1 * e.ny1 + e.f24 * e.le2 * e.ny2 + e.f34 * e.le3 * e.ny3 + e.f44 * e.le4 * e.ny4) / e.Ac) * (e.f12 * e.le1 * e.nx1 + e.f22 * e.le2 * e.nx2 + e.f32 * e.le3 * e.nx3 + e.f42 * e.le4 * e.nx4) / e.Ac + (e.B16 * (e.f14 * e.le1 * e.nx1 + e.f24 * e.le2 * e.nx2 + e.f34 * e.le3 * e.nx3 + e.f44 * e.le4 * e.nx4) / e.Ac + e.B66 * (e.f14 * e.le1 * e.ny1 + e.f24 * e.le2 * e.ny2 + e.f34 * e.le3 * e.ny3 + e.f44 * e.le4 * e.ny4) / e.Ac) * (e.f12 * e.le1 * e.ny1 + e.f22 * e.le2 * e.ny2 + e.f32 * e.le3 * e.ny3 + e.f42 * e.le4 * e.ny4) / e.Ac)),
  (e.i4 * 5 + 3, e.i2 * 5 + 1, e.Ac * ((e.B12 * (e.f14 * e.le1 * e.nx1 + e.f24 * e.le2 * e.nx2 + e.f34 * e.le3 * e.nx3 + e.f44 * e.le4 * e.nx4) / e.Ac + e.B26 * (e.f14 * e.le1 * e.ny1 + e.f24 * e.le2 * e.ny2 + e.f34 * e.le3 * e.ny3 + e.f44 * e.le4 * e.ny4) / e.Ac) * (e.f12 * e.le1 * e.ny1 + e.f22 * e.le2 * e.ny2 + e.f32 * e.le3 * e.ny3 + e.f42 * e.le4 * e.ny4) / e.Ac + (e.B16 * (e.f14 * e.le1 * e.nx1 + e.f24 * e.le2 * e.nx2 + e.f34 * e.le3 * e.nx3 + e.f44 * e.le4 * e.nx4) / e.Ac + e.B66 * (e.f14 * e.le1 * e.ny1 + e.f24 * e.le2 * e.ny2 + e.f34 * e.le3 * e.ny3 + e.f44 * e.le4 * e.ny4) / e.Ac) * (e.f12 * e.le1 * e.nx1 + e.f22 * e.le2 * e.nx2 + e.f32 * e.le3 * e.nx3 + e.f42 * e.le4 * e.nx4) / e.Ac)),
  (e.i4 * 5 + 3, e.i2 * 5 + 3, e.Ac * ((e.D11 * (e.f14 * e.le1 * e.nx1 + e.f24 * e.le2 * e.nx2 + e.f34 * e.le3 * e.nx3 + e.f44 * e.le4 * e.nx4) / e.Ac + e.D16 * (e.f14 * e.le1 * e.ny1 + e.f24 * e.le2 * e.ny2 + e.f34 * e.le3 * e.ny3 + e.f44 * e.le4 * e.ny4) / e.Ac) * (e.f12 * e.le1 * e.nx1 + e.f22 * e.le2 * e.nx2 + e.f32 * e.le3 * e.nx3 + e.f42 * e.le4 * e.nx4) / e.Ac + (e.D16 * (e.f14 * e.le1 * e.nx1 + e.f24 * e.le2 * e.nx2 + e.f34 * e.le3 * e.nx3 + e.f44 * e.le4 * e.nx4) / e.Ac + e.D66 * (e.f14 * e.le1 * e.ny1 + e.f24 * e.le2 * e.ny2 + e.f34 * e.le3 * e.ny3 + e.f44 * e.le4 * e.ny4) / e.Ac) * (e.f12 * e.le1 * e.ny1 + e.f22 * e.le2 * e.ny2 + e.f32 * e.le3 * e.ny3 + e.f42 * e.le4 * e.ny4) / e.Ac)),
  (e.i4 * 5 + 3, e.i2 * 5 + 4, e.Ac * ((e.D12 * (e.f14 * e.le1 * e.nx1 + e.f24 * e.le2 * e.nx2 + e.f34 * e.le3 * e.nx3 + e.f44 * e.le4 * e.nx4) / e.Ac + e.D26 * (e.f14 * e.le1 * e.ny1 + e.f24 * e.le2 * e.ny2 + e.f34 * e.le3 * e.ny3 + e.f44 * e.le4 * e.ny4) / e.Ac) * (e.f12 * e.le1 * e.ny1 + e.f22 * e.le2 * e.ny2 + e.f32 * e.le3 * e.ny3 + e.f42 * e.le4 * e.ny4) / e.Ac + (e.D16 * (e.f14 * e.le1 * e.nx1 + e.f24 * e.le2 * e.nx2 + e.f34 * e.le3 * e.nx3 + e.f44 * e.le4 * e.nx4) / e.Ac + e.D66 * (e.f14 * e.le1 * e.ny1 + e.f24 * e.le2 * e.ny2 + e.f34 * e.le3 * e.ny3 + e.f44 * e.le4 * e.ny4) / e.Ac) * (e.f12 * e.le1 * e.nx1 + e.f22 * e.le2 * e.nx2 + e.f32 * e.le3 * e.nx3 + e.f42 * e.le4 * e.nx4) / e.Ac)),
  (e.i4 * 5 + 3, e.i3 * 5 + 0, e.Ac * ((e.B11 * (e.f14 * e.le1 * e.nx1 + e.f24 * e.le2 * e.nx2 + e.f34 * e.le3 * e.nx3 + e.f44 * e.le4 * e.nx4) / e.Ac + e.B16 * (e.f14 * e.le1 * e.ny1 + e.f24 * e.le2 * e.ny2 + e.f34 * e.le3 * e.ny3 + e.f44 * e.le4 * e.ny4) / e.Ac) * (e.f13 * e.le1 * e.nx1 + e.f23 * e.le2 * e.nx2 + e.f33 * e.le3 * e.nx3 + e.f43 * e.le4 * e.nx4) / e.Ac + (e.B16 * (e.f14 * e.le1 * e.nx1 + e.f24 * e.le2 * e.nx2 + e.f34 * e.le3 * e.nx3 + e.f44 * e.le4 * e.nx4) / e.Ac + e.B66 * (e.f14 * e.le1 * e.ny1 + e.f24 * e.le2 * e.ny2 + e.f34 * e.le3 * e.ny3 + e.f44 * e.le4 * e.ny4) / e.Ac) * (e.f13 * e.le1 * e.ny1 + e.f23 * e.le2 * e.ny2 + e.f33 * e.le3 * e.ny3 + e.f43 * e.le4 * e.ny4) / e.Ac)),
  (e.i4 * 5 + 3, e.i3 * 5 + 1, e.Ac * ((e.B12 * (e.f14 * e.le1 * e.nx1 + e.f24 * e.le2 * e.nx2 + e.f34 * e.le3 * e.nx3 + e.f44 * e.le4 * e.nx4) / e.Ac + e.B26 * (e.f14 * e.le1 * e.ny1 + e.f24 * e.le2 * e.ny2 + e.f34 * e.le3 * e.ny3 + e.f44 * e.le4 * e.ny4) / e.Ac) * (e.f13 * e.le1 * e.ny1 + e.f23 * e.le2 * e.ny2 + e.f33 * e.le3 * e.ny3 + e.f43 * e.le4 * e.ny4) / e.Ac + (e.B16 * (e.f14 * e.le1 * e.nx1 + e.f24 * e.le2 * e.nx2 + e.f34 * e.le3 * e.nx3 + e.f44 * e.le4 * e.nx4) / e.Ac + e.B66 * (e.f14 * e.le1 * e.ny1 + e.f24 * e.le2 * e.ny2 + e.f34 * e.le3 * e.ny3 + e.f44 * e.le4 * e.ny4) / e.Ac) * (e.f13 * e.le1 * e.nx1 + e.f23 * e.le2 * e.nx2 + e.f33 * e.le3 * e.nx3 + e.f43 * e.le4 * e.nx4) / e.Ac)),
  (e.i4 * 5 + 3, e.i3 * 5 + 3, e.Ac * ((e.D11 * (e.f14 * e.le1 * e.nx1 + e.f24 * e.le2 * e.nx2 + e.f34 * e.le3 * e.nx3 + e.f44 * e.le4 * e.nx4) / e.Ac + e.D16 * (e.f14 * e.le1 * e.ny1 + e.f24 * e.le2 * e.ny2 + e.f34 * e.le3 * e.ny3 + e.f44 * e.le4 * e.ny4) / e.Ac) * (e.f13 * e.le1 * e.nx1 + e.f23 * e.le2 * e.nx2 + e.f33 * e.le3 * e.nx3 + e.f43 * e.le4 * e.nx4) / e.Ac + (e.D16 * (e.f14 * e.le1 * e.nx1 + e.f24 * e.le2 * e.nx2 + e.f34 * e.le3 * e.nx3 + e.f44 * e.le4 * e.nx4) / e.Ac + e.D66 * (e.f14 * e.le1 * e.ny1 + e.f24 * e.le2 * e.ny2 + e.f34 * e.le3 * e.ny3 + e.f44 * e.le4 * e.ny4) / e.Ac) * (e.f13 * e.le1 * e.ny1 + e.f23 * e.le2 * e.ny2 + e.f33 * e.le3 * e.ny3 + e.f43 * e.le4 * e.ny4) / e.Ac)),
  (e.i4 * 5 + 3, e.i3 * 5 + 4, e.Ac * ((e.D12 * (e.f14 * e.le1 * e.nx1 + e.f24 * e.le2 * e.nx2 + e.f34 * e.le3 * e.nx3 + e.f44 * e.le4 * e.nx4) / e.Ac + e.D26 * (e.f14 * e.le1 * e.ny1 + e.f24 * e.le2 * e.ny2 + e.f34 * e.le3 * e.ny3 + e.f44 * e.le4 * e.ny4) / e.Ac) * (e.f13 * e.le1 * e.ny1 + e.f23 * e.le2 * e.ny2 + e.f33 * e.le3 * e.ny3 + e.f43 * e.le4 * e.ny4) / e.Ac + (e.D16 * (e.f14 * e.le1 * e.nx1 + e.f24 * e.le2 * e.nx2 + e.f34 * e.le3 * e.nx3 + e.f44 * e.le4 * e.nx4) / e.Ac + e.D66 * (e.f14 * e.le1 * e.ny1 + e.f24 * e.le2 * e.ny2 + e.f34 * e.le3 * e.ny3 + e.f44 * e.le4 * e.ny4) / e.Ac) * (e.f13 * e.le1 * e.nx1 + e.f23 * e.le2 * e.nx2 + e.f33 * e.le3 * e.nx3 + e.f43 * e.le4 * e.nx4) / e.Ac)),
  (e.i4 * 5 + 3, e.i4 * 5 + 0, e.Ac * ((e.B11 * (e.f14 * e.le1 * e.nx1 + e.f24 * e.le2 * e.nx2 + e.f34 * e.le3 * e.nx3 + e.f44 * e.le4 * e.nx4) / e.Ac + e.B16 * (e.f14 * e.le1 * e.ny1 + e.f24 * e.le2 * e.ny2 + e.f34 * e.le3 * e.ny3 + e.f44 * e.le4 * e.ny4) / e.Ac) * (e.f14 * e.le1 * e.nx1 + e.f24 * e.le2 * e.nx2 + e.f34 * e.le3 * e.nx3 + e.f44 * e.le4 * e.nx4) / e.Ac + (e.B16 * (e.f14 * e.le1 * e.nx1 + e.f24 * e.le2 * e.nx2 + e.f34 * e.le3 * e.nx3 + e.f44 * e.le4 * e.nx4) / e.Ac + e.B66 * (e.f14 * e.le1 * e.ny1 + e.f24 * e.le2 * e.ny2 + e.f34 * e.le3 * e.ny3 + e.f44 * e.le4 * e.ny4) / e.Ac) * (e.f14 * e.le1 * e.ny1 + e.f24 * e.le2 * e.ny2 + e.f34 * e.le3 * e.ny3 + e.f44 * e.le4 * e.ny4) / e.Ac)),
  (e.i4 * 5 + 3, e.i4 * 5 + 1, e.Ac * ((e.B12 * (e.f14 * e.le1 * e.nx1 + e.f24 * e.le2 * e.nx2 + e.f34 * e.le3 * e.nx3 + e.f44 * e.le4 * e.nx4) / e.Ac + e.B26 * (e.f14 * e.le1 * e.ny1 + e.f24 * e.le2 * e.ny2 + e.f34 * e.le3 * e.ny3 + e.f44 * e.le4 * e.ny4) / e.Ac) * (e.f14 * e.le1 * e.ny1 + e.f24 * e.le2 * e.ny2 + e.f34 * e.le3 * e.ny3 + e.f44 * e.le4 * e.ny4) / e.Ac + (e.B16 * (e.f14 * e.le1 * e.nx1 + e.f24 * e.le2 * e.nx2 + e.f34 * e.le3 * e.nx3 + e.f44 * e.le4 * e.nx4) / e.Ac + e.B66 * (e.f14 * e.le1 * e.ny1 + e.f24 * e.le2 * e.ny2 + e.f34 * e.le3 * e.ny3 + e.f44 * e.le4 * e.ny4) / e.Ac) * (e.f14 * e.le1 * e.nx1 + e.f24 * e.le2 * e.nx2 + e.f34 * e.le3 * e.nx3 + e.f44 * e.le4 * e.nx4) / e.Ac)),
  (e.i4 * 5 + 3, e.i4 * 5 + 3, e.Ac * ((e.D11 * (e.f14 * e.le1 * e.nx1 + e.f24 * e.le2 * e.nx2 + e.f34 * e.le3 * e.nx3 + e.f44 * e.le4 * e.nx4) / e.Ac + e.D16 * (e.f14 * e.le1 * e.ny1 + e.f24 * e.le2 * e.ny2 + e.f34 * e.le3 * e.ny3 + e.f44 * e.le4 * e.ny4) / e.Ac) * (e.f14 * e.le1 * e.nx1 + e.f24 * e.le2 * e.nx2 + e.f34 * e.le3 * e.nx3 + e.f44 * e.le4 * e.nx4) / e.Ac + (e.D16 * (e.f14 * e.le1 * e.nx1 + e.f24 * e.le2 * e.nx2 + e.f34 * e.le3 * e.nx3 + e.f44 * e.le4 * e.nx4) / e.Ac + e.D66 * (e.f14 * e.le1 * e.ny1 + e.f24 * e.le2 * e.ny2 + e.f34 * e.le3 * e.ny3 + e.f44 * e.le4 * e.ny4) / e.Ac) * (e.f14 * e.le1 * e.ny1 + e.f24 * e.le2 * e.ny2 + e.f34 * e.le3 * e.ny3 + e.f44 * e.le4 * e.ny4) / e.Ac)),
  (e.i4 * 5 + 3, e.i4 * 5 + 4, e.Ac * ((e.D12 * (e.f14 * e.le1 * e.nx1 + e.f24 * e.le2 * e.nx2 + e.f34 * e.le3 * e.nx3 + e.f44 * e.le4 * e.nx4) / e.Ac + e.D26 * (e.f14 * e.le1 * e.ny1 + e.f24 * e.le2 * e.ny2 + e.f34 * e.le3 * e.ny3 + e.f44 * e.le4 * e.ny4) / e.Ac) * (e.f14 * e.le1 * e.ny1 + e.f24 * e.le2 * e.ny2 + e.f34 * e.le3 * e.ny3 + e.f44 * e.le4 * e.ny4) / e.Ac + (e.D16 * (e.f14 * e.le1 * e.nx1 + e.f24 * e.le2 * e.nx2 + e.f34 * e.le3 * e.nx3 + e.f44 * e.le4 * e.nx4) / e.Ac + e.D66 * (e.f14 * e.le1 * e.ny1 + e.f24 * e.le2 * e.ny2 + e.f34 * e.le3 * e.ny3 + e.f44 * e.le4 * e.ny4) / e.Ac) * (e.f14 * e.le1 * e.nx1 + e.f24 * e.le2 * e.nx2 + e.f34 * e.le3 * e.nx3 + e.f44 * e.le4 * e.nx4) / e.Ac))]

/-- meshless/espim/plate2d_calc_k0.py:493-508 -/
def k0_i4_4 (e : K0Env K) : List (ℤ × ℤ × K) := [
  (e.i4 * 5 + 4, e.i1 * 5 + 0, e.Ac * ((e.B12 * (e.f14 * e.le1 * e.ny1 + e.f24 * e.le2 * e.ny2 + e.f34 * e.le3 * e.ny3 + e.f44 * e.le4 * e.ny4) / e.Ac + e.B16 * (e.f14 * e.le1 * e.nx1 + e.f24 * e.le2 * e.nx2 + e.f34 * e.le3 * e.nx3 + e.f44 * e.le4 * e.nx4) / e.Ac) * (e.f11 * e.le1 * e.nx1 + e.f21 * e.le2 * e.nx2 + e.f31 * e.le3 * e.nx3 + e.f41 * e.le4 * e.nx4) / e.Ac + (e.B26 * (e.f14 * e.le1 * e.ny1 + e.f24 * e.le2 * e.ny2 + e.f34 * e.le3 * e.ny3 + e.f44 * e.le4 * e.ny4) / e.Ac + e.B66 * (e.f14 * e.le1 * e.nx1 + e.f24 * e.le2 * e.nx2 + e.f34 * e.le3 * e.nx3 + e.f44 * e.le4 * e.nx4) / e.Ac) * (e.f11 * e.le1 * e.ny1 + e.f21 * e.le2 * e.ny2 + e.f31 * e.le3 * e.ny3 + e.f41 * e.le4 * e.ny4) / e.Ac)),
  (e.i4 * 5 + 4, e.i1 * 5 + 1, e.Ac * ((e.B22 * (e.f14 * e.le1 * e.ny1 + e.f24 * e.le2 * e.ny2 + e.f34 * e.le3 * e.ny3 + e.f44 * e.le4 * e.ny4) / e.Ac + e.B26 * (e.f14 * e.le1 * e.nx1 + e.f24 * e.le2 * e.nx2 + e.f34 * e.le3 * e.nx3 + e.f44 * e.le4 * e.nx4) / e.Ac) * (e.f11 * e.le1 * e.ny1 + e.f21 * e.le2 * e.ny2 + e.f31 * e.le3 * e.ny3 + e.f41 * e.le4 * e.ny4) / e.Ac + (e.B26 * (e.f14 * e.le1 * e.ny1 + e.f24 * e.le2 * e.ny2 + e.f34 * e.le3 * e.ny3 + e.f44 * e.le4 * e.ny4) / e.Ac + e.B66 * (e.f14 * e.le1 * e.nx1 + e.f24 * e.le2 * e.nx2 + e.f34 * e.le3 * e.nx3 + e.f44 * e.le4 * e.nx4) / e.Ac) * (e.f11 * e.le1 * e.nx1 + e.f21 * e.le2 * e.nx2 + e.f31 * e.le3 * e.nx3 + e.f41 * e.le4 * e.nx4) / e.Ac)),
  (e.i4 * 5 + 4, e.i1 * 5 + 3, e.Ac * ((e.D12 * (e.f14 * e.le1 * e.ny1 + e.f24 * e.le2 * e.ny2 + e.f34 * e.le3 * e.ny3 + e.f44 * e.le4 * e.ny4) / e.Ac + e.D16 * (e.f14 * e.le1 * e.nx1 + e.f24 * e.le2 * e.nx2 + e.f34 * e.le3 * e.nx3 + e.f44 * e.le4 * e.nx4) / e.Ac) * (e.f11 * e.le1 * e.nx1 + e.f21 * e.le2 * e.nx2 + e.f31 * e.le3 * e.nx3 + e.f41 * e.le4 * e.nx4) / e.Ac + (e.D26 * (e.f14 * e.le1 * e.ny1 + e.f24 * e.le2 * e.ny2 + e.f34 * e.le3 * e.ny3 + e.f44 * e.le4 * e.ny4) / e.Ac + e.D66 * (e.f14 * e.le1 * e.nx1 + e.f24 * e.le2 * e.nx2 + e.f34 * e.le3 * e.nx3 + e.f44 * e.le4 * e.nx4) / e.Ac) * (e.f11 * e.le1 * e.ny1 + e.f21 * e.le2 * e.ny2 + e.f31 * e.le3 * e.ny3 + e.f41 * e.le4 * e.ny4) / e.Ac)),
  (e.i4 * 5 + 4, e.i1 * 5 + 4, e.Ac * ((e.D22 * (e.f14 * e.le1 * e.ny1 + e.f24 * e.le2 * e.ny2 + e.f34 * e.le3 * e.ny3 + e.f44 * e.le4 * e.ny4) / e.Ac + e.D26 * (e.f14 * e.le1 * e.nx1 + e.f24 * e.le2 * e.nx2 + e.f34 * e.le3 * e.nx3 + e.f44 * e.le4 * e.nx4) / e.Ac) * (e.f11 * e.le1 * e.ny1 + e.f21 * e.le2 * e.ny2 + e.f31 * e.le3 * e.ny3 + e.f41 * e.le4 * e.ny4) / e.Ac + (e.D26 * (e.f14 * e.le1 * e.ny1 + e.f24 * e.le2 * e.ny2 + e.f34 * e.le3 * e.ny3 + e.f44 * e.le4 * e.ny4) / e.Ac + e.D66 * (e.f14 * e.le1 * e.nx1 + e.f24 * e.le2 * e.nx2 + e.f34 * e.le3 * e.nx3 + e.f44 * e.le4 * e.nx4) / e.Ac) * (e.f11 * e.le1 * e.nx1 + e.f21 * e.le2 * e.nx2 + e.f31 * e.le3 * e.nx3 + e.f41 * e.le4 * e.nx4) / e.Ac)),
  (e.i4 * 5 + 4, e.i2 * 5 + 0, e.Ac * ((e.B12 * (e.f14 * e.le1 * e.ny1 + e.f24 * e.le2 * e.ny2 + e.f34 * e.le3 * e.ny3 + e.f44 * e.le4 * e.ny4) / e.Ac + e.B16 * (e.f14 * e.le1 * e.nx1 + e.f24 * e.le2 * e.nx2 + e.f34 * e.le3 * e.nx3 + e.f44 * e.le4 * e.nx4) / e.Ac) * (e.f12 * e.le1 * e.nx1 + e.f22 * e.le2 * e.nx2 + e.f32 * e.le3 * e.nx3 + e.f42 * e.le4 * e.nx4) / e.Ac + (e.B26 * (e.f14 * e.le1 * e.ny1 + e.f24 * e.le2 * e.ny2 + e.f34 * e.le3 * e.ny3 + e.f44 * e.le4 * e.ny4) / e.Ac + e.B66 * (e.f14 * e.le1 * e.nx1 + e.f24 * e.le2 * e.nx2 + e.f34 * e.le3 * e.nx3 + e.f44 * e.le4 * e.nx4) / e.Ac) * (e.f12 * e.le1 * e.ny1 + e.f22 * e.le2 * e.ny2 + e.f32 * e.le3 * e.ny3 + e.f42 * e.le4 * e.ny4) / e.Ac)),
  (e.i4 * 5 + 4, e.i2 * 5 + 1, e.Ac * ((e.B22 * (e.f14 * e.le1 * e.ny1 + e.f24 * e.le2 * e.ny2 + e.f34 * e.le3 * e.ny3 + e.f44 * e.le4 * e.ny4) / e.Ac + e.B26 * (e.f14 * e.le1 * e.nx1 + e.f24 * e.le2 * e.nx2 + e.f34 * e.le3 * e.nx3 + e.f44 * e.le4 * e.nx4) / e.Ac) * (e.f12 * e.le1 * e.ny1 + e.f22 * e.le2 * e.ny2 + e.f32 * e.le3 * e.ny3 + e.f42 * e.le4 * e.ny4) / e.Ac + (e.B26 * (e.f14 * e.le1 * e.ny1 + e.f24 * e.le2 * e.ny2 + e.f34 * e.le3 * e.ny3 + e.f44 * e.le4 * e.ny4) / e.Ac + e.B66 * (e.f14 * e.le1 * e.nx1 + e.f24 * e.le2 * e.nx2 + e.f34 * e.le3 * e.nx3 + e.f44 * e.le4 * e.nx4) / e.Ac) * (e.f12 * e.le1 * e.nx1 + e.f22 * e.le2 * e.nx2 + e.f32 * e.le3 * e.nx3 + e.f42 * e.le4 * e.nx4) / e.Ac)),
  (e.i4 * 5 + 4, e.i2 * 5 + 3, e.Ac * ((e.D12 * (e.f14 * e.le1 * e.ny1 + e.f24 * e.le2 * e.ny2 + e.f34 * e.le3 * e.ny3 + e.f44 * e.le4 * e.ny4) / e.Ac + e.D16 * (e.f14 * e.le1 * e.nx1 + e.f24 * e.le2 * e.nx2 + e.f34 * e.le3 * e.nx3 + e.f44 * e.le4 * e.nx4) / e.Ac) * (e.f12 * e.le1 * e.nx1 + e.f22 * e.le2 * e.nx2 + e.f32 * e.le3 * e.nx3 + e.f42 * e.le4 * e.nx4) / e.Ac + (e.D26 * (e.f14 * e.le1 * e.ny1 + e.f24 * e.le2 * e.ny2 + e.f34 * e.le3 * e.ny3 + e.f44 * e.le4 * e.ny4) / e.Ac + e.D66 * (e.f14 * e.le1 * e.nx1 + e.f24 * e.le2 * e.nx2 + e.f34 * e.le3 * e.nx3 + e.f44 * e.le4 * e.nx4) / e.Ac) * (e.f12 * e.le1 * e.ny1 + e.f22 * e.le2 * e.ny2 + e.f32 * e.le3 * e.ny3 + e.f42 * e.le4 * e.ny4) / e.Ac)),
  (e.i4 * 5 + 4, e.i2 * 5 + 4, e.Ac * ((e.D22 * (e.f14 * e.le1 * e.ny1 + e.f24 * e.le2 * e.ny2 + e.f34 * e.le3 * e.ny3 + e.f44 * e.le4 * e.ny4) / e.Ac + e.D26 * (e.f14 * e.le1 * e.nx1 + e.f24 * e.le2 * e.nx2 + e.f34 * e.le3 * e.nx3 + e.f44 * e.le4 * e.nx4) / e.Ac) * (e.f12 * e.le1 * e.ny1 + e.f22 * e.le2 * e.ny2 + e.f32 * e.le3 * e.ny3 + e.f42 * e.le4 * e.ny4) / e.Ac + (e.D26 * (e.f14 * e.le1 * e.ny1 + e.f24 * e.le2 * e.ny2 + e.f34 * e.le3 * e.ny3 + e.f44 * e.le4 * e.ny4) / e.Ac + e.D66 * (e.f14 * e.le1 * e.nx1 + e.f24 * e.le2 * e.nx2 + e.f34 * e.le3 * e.nx3 + e.f44 * e.le4 * e.nx4) / e.Ac) * (e.f12 * e.le1 * e.nx1 + e.f22 * e.le2 * e.nx2 + e.f32 * e.le3 * e.nx3 + e.f42 * e.le4 * e.nx4) / e.Ac)),
  (e.i4 * 5 + 4, e.i3 * 5 + 0, e.Ac * ((e.B12 * (e.f14 * e.le1 * e.ny1 + e.f24 * e.le2 * e.ny2 + e.f34 * e.le3 * e.ny3 + e.f44 * e.le4 * e.ny4) / e.Ac + e.B16 * (e.f14 * e.le1 * e.nx1 + e.f24 * e.le2 * e.nx2 + e.f34 * e.le3 * e.nx3 + e.f44 * e.le4 * e.nx4) / e.Ac) * (e.f13 * e.le1 * e.nx1 + e.f23 * e.le2 * e.nx2 + e.f33 * e.le3 * e.nx3 + e.f43 * e.le4 * e.nx4) / e.Ac + (e.B26 * (e.f14 * e.le1 * e.ny1 + e.f24 * e.le2 * e.ny2 + e.f34 * e.le3 * e.ny3 + e.f44 * e.le4 * e.ny4) / e.Ac + e.B66 * (e.f14 * e.le1 * e.nx1 + e.f24 * e.le2 * e.nx2 + e.f34 * e.le3 * e.nx3 + e.f44 * e.le4 * e.nx4) / e.Ac) * (e.f13 * e.le1 * e.ny1 + e.f23 * e.le2 * e.ny2 + e.f33 * e.le3 * e.ny3 + e.f43 * e.le4 * e.ny4) / e.Ac)),
  (e.i4 * 5 + 4, e.i3 * 5 + 1, e.Ac * ((e.B22 * (e.f14 * e.le1 * e.ny1 + e.f24 * e.le2 * e.ny2 + e.f34 * e.le3 * e.ny3 + e.f44 * e.le4 * e.ny4) / e.Ac + e.B26 * (e.f14 * e.le1 * e.nx1 + e.f24 * e.le2 * e.nx2 + e.f34 * e.le3 * e.nx3 + e.f44 * e.le4 * e.nx4) / e.Ac) * (e.f13 * e.le1 * e.ny1 + e.f23 * e.le2 * e.ny2 + e.f33 * e.le3 * e.ny3 + e.f43 * e.le4 * e.ny4) / e.Ac + (e.B26 * (e.f14 * e.le1 * e.ny1 + e.f24 * e.le2 * e.ny2 + e.f34 * e.le3 * e.ny3 + e.f44 * e.le4 * e.ny4) / e.Ac + e.B66 * (e.f14 * e.le1 * e.nx1 + e.f24 * e.le2 * e.nx2 + e.f34 * e.le3 * e.nx3 + e.f44 * e.le4 * e.nx4) / e.Ac) * (e.f13 * e.le1 * e.nx1 + e.f23 * e.le2 * e.nx2 + e.f33 * e.le3 * e.nx3 + e.f43 * e.le4 * e.nx4) / e.Ac)),
  (e.i4 * 5 + 4, e.i3 * 5 + 3, e.Ac * ((e.D12 * (e.f14 * e.le1 * e.ny1 + e.f24 * e.le2 * e.ny2 + e.f34 * e.le3 * e.ny3 + e.f44 * e.le4 * e.ny4) / e.Ac + e.D16 * (e.f14 * e.le1 * e.nx1 + e.f24 * e.le2 * e.nx2 + e.f34 * e.le3 * e.nx3 + e.f44 * e.le4 * e.nx4) / e.Ac) * (e.f13 * e.le1 * e.nx1 + e.f23 * e.le2 * e.nx2 + e.f33 * e.le3 * e.nx3 + e.f43 * e.le4 * e.nx4) / e.Ac + (e.D26 * (e.f14 * e.le1 * e.ny1 + e.f24 * e.le2 * e.ny2 + e.f34 * e.le3 * e.ny3 + e.f44 * e.le4 * e.ny4) / e.Ac + e.D66 * (e.f14 * e.le1 * e.nx1 + e.f24 * e.le2 * e.nx2 + e.f34 * e.le3 * e.nx3 + e.f44 * e.le4 * e.nx4) / e.Ac) * (e.f13 * e.le1 * e.ny1 + e.f23 * e.le2 * e.ny2 + e.f33 * e.le3 * e.ny3 + e.f43 * e.le4 * e.ny4) / e.Ac)),
  (e.i4 * 5 + 4, e.i3 * 5 + 4, e.Ac * ((e.D22 * (e.f14 * e.le1 * e.ny1 + e.f24 * e.le2 * e.ny2 + e.f34 * e.le3 * e.ny3 + e.f44 * e.le4 * e.ny4) / e.Ac + e.D26 * (e.f14 * e.le1 * e.nx1 + e.f24 * e.le2 * e.nx2 + e.f34 * e.le3 * e.nx3 + e.f44 * e.le4 * e.nx4) / e.Ac) * (e.f13 * e.le1 * e.ny1 + e.f23 * e.le2 * e.ny2 + e.f33 * e.le3 * e.ny3 + e.f43 * e.le4 * e.ny4) / e.Ac + (e.D26 * (e.f14 * e.le1 * e.ny1 + e.f24 * e.le2 * e.ny2 + e.f34 * e.le3 * e.ny3 + e.f44 * e.le4 * e.ny4) / e.Ac + e.D66 * (e.f14 * e.le1 * e.nx1 + e.f24 * e.le2 * e.nx2 + e.f34 * e.le3 * e.nx3 + e.f44 * e.le4 * e.nx4) / e.Ac) * (e.f13 * e.le1 * e.nx1 + e.f23 * e.le2 * e.nx2 + e.f33 * e.le3 * e.nx3 + e.f43 * e.le4 * e.nx4) / e.Ac)),
  (e.i4 * 5 + 4, e.i4 * 5 + 0, e.Ac * ((e.B12 * (e.f14 * e.le1 * e.ny1 + e.f24 * e.le2 * e.ny2 + e.f34 * e.le3 * e.ny3 + e.f44 * e.le4 * e.ny4) / e.Ac + e.B16 * (e.f14 * e.le1 * e.nx1 + e.f24 * e.le2 * e.nx2 + e.f34 * e.le3 * e.nx3 + e.f44 * e.le4 * e.nx4) / e.Ac) * (e.f14 * e.le1 * e.nx1 + e.f24 * e.le2 * e.nx2 + e.f34 * e.le3 * e.nx3 + e.f44 * e.le4 * e.nx4) / e.Ac + (e.B26 * (e.f14 * e.le1 * e.ny1 + e.f24 * e.le2 * e.ny2 + e.f34 * e.le3 * e.ny3 + e.f44 * e.le4 * e.ny4) / e.Ac + e.B66 * (e.f14 * e.le1 * e.nx1 + e.f24 * e.le2 * e.nx2 + e.f34 * e.le3 * e.nx3 + e.f44 * e.le4 * e.nx4) / e.Ac) * (e.f14 * e.le1 * e.ny1 + e.f24 * e.le2 * e.ny2 + e.f34 * e.le3 * e.ny3 + e.f44 * e.le4 * e.ny4) / e.Ac)),
  (e.i4 * 5 + 4, e.i4 * 5 + 1, e.Ac * ((e.B22 * (e.f14 * e.le1 * e.ny1 + e.f24 * e.le2 * e.ny2 + e.f34 * e.le3 * e.ny3 + e.f44 * e.le4 * e.ny4) / e.Ac + e.B26 * (e.f14 * e.le1 * e.nx1 + e.f24 * e.le2 * e.nx2 + e.f34 * e.le3 * e.nx3 + e.f44 * e.le4 * e.nx4) / e.Ac) * (e.f14 * e.le1 * e.ny1 + e.f24 * e.le2 * e.ny2 + e.f34 * e.le3 * e.ny3 + e.f44 * e.le4 * e.ny4) / e.Ac + (e.B26 * (e.f14 * e.le1 * e.ny1 + e.f24 * e.le2 * e.ny2 + e.f34 * e.le3 * e.ny3 + e.f44 * e.le4 * e.ny4) / e.Ac + e.B66 * (e.f14 * e.le1 * e.nx1 + e.f24 * e.le2 * e.nx2 + e.f34 * e.le3 * e.nx3 + e.f44 * e.le4 * e.nx4) / e.Ac) * (e.f14 * e.le1 * e.nx1 + e.f24 * e.le2 * e.nx2 + e.f34 * e.le3 * e.nx3 + e.f44 * e.le4 * e.nx4) / e.Ac)),
  (e.i4 * 5 + 4, e.i4 * 5 + 3, e.Ac * ((e.D12 * (e.f14 * e.le1 * e.ny1 + e.f24 * e.le2 * e.ny2 + e.f34 * e.le3 * e.ny3 + e.f44 * e.le4 * e.ny4) / e.Ac + e.D16 * (e.f14 * e.le1 * e.nx1 + e.f24 * e.le2 * e.nx2 + e.f34 * e.le3 * e.nx3 + e.f44 * e.le4 * e.nx4) / e.Ac) * (e.f14 * e.le1 * e.nx1 + e.f24 * e.le2 * e.nx2 + e.f34 * e.le3 * e.nx3 + e.f44 * e.le4 * e.nx4) / e.Ac + (e.D26 * (e.f14 * e.le1 * e.ny1 + e.f24 * e.le2 * e.ny2 + e.f34 * e.le3 * e.ny3 + e.f44 * e.le4 * e.ny4) / e.Ac + e.D66 * (e.f14 * e.le1 * e.nx1 + e.f24 * e.le2 * e.nx2 + e.f34 * e.le3 * e.nx3 + e.f44 * e.le4 * e.nx4) / e.Ac) * (e.f14 * e.le1 * e.ny1 + e.f24 * e.le2 * e.ny2 + e.f34 * e.le3 * e.ny3 + e.f44 * e.le4 * e.ny4) / e.Ac)),
  (e.i4 * 5 + 4, e.i4 * 5 + 4, e.Ac * ((e.D22 * (e.f14 * e.le1 * e.ny1 + e.f24 * e.le2 * e.ny2 + e.f34 * e.le3 * e.ny3 + e.f44 * e.le4 * e.ny4) / e.Ac + e.D26 * (e.f14 * e.le1 * e.nx1 + e.f24 * e.le2 * e.nx2 + e.f34 * e.le3 * e.nx3 + e.f44 * e.le4 * e.nx4) / e.Ac) * (e.f14 * e.le1 * e.ny1 + e.f24 * e.le2 * e.ny2 + e.f34 * e.le3 * e.ny3 + e.f44 * e.le4 * e.ny4) / e.Ac + (e.D26 * (e.f14 * e.le1 * e.ny1 + e.f24 * e.le2 * e.ny2 + e.f34 * e.le3 * e.ny3 + e.f44 * e.le4 * e.ny4) / e.Ac + e.D66 * (e.f14 * e.le1 * e.nx1 + e.f24 * e.le2 * e.nx2 + e.f34 * e.le3 * e.nx3 + e.f44 * e.le4 * e.nx4) / e.Ac) * (e.f14 * e.le1 * e.nx1 + e.f24 * e.le2 * e.nx2 + e.f34 * e.le3 * e.nx3 + e.f44 * e.le4 * e.nx4) / e.Ac))]

/-- All increments, in program order. meshless/espim/plate2d_calc_k0.py:253-508 -/
def k0Entries (e : K0Env K) : List (ℤ × ℤ × K) :=
  k0_i1_0 e ++ k0_i1_1 e ++ k0_i1_3 e ++ k0_i1_4 e ++ k0_i2_0 e ++ k0_i2_1 e ++ k0_i2_3 e ++ k0_i2_4 e ++ k0_i3_0 e ++ k0_i3_1 e ++ k0_i3_3 e ++ k0_i3_4 e ++ k0_i4_0 e ++ k0_i4_1 e ++ k0_i4_3 e ++ k0_i4_4 e

end Meshless
