import Verif.Lemmas.MagShear

/-! Explicit bounds for the increments of `add_k0s`: products keep lower bounds, since the code divides by multiples of areas. -/

set_option autoImplicit false

namespace Meshless
open Spec Mg

variable {f : Fmt} {s : Units}

/-- bounds as in `Mg`; products keep lower bounds -/
structure Mh where
  v : Mg

namespace Mh
instance : Add Mh := ⟨fun x y => ⟨x.v + y.v⟩⟩
instance : Sub Mh := ⟨fun x y => ⟨x.v - y.v⟩⟩
instance : Mul Mh := ⟨fun x y => ⟨{ x.v * y.v with lo := max x.v.lo 0 * max y.v.lo 0 }⟩⟩
instance : Div Mh := ⟨fun x y => ⟨x.v / y.v⟩⟩
instance : Neg Mh := ⟨fun x => ⟨-x.v⟩⟩
instance : OfNat Mh 2 := ⟨⟨(lit 2).ref 2 2⟩⟩
instance : OfNat Mh 4 := ⟨⟨(lit 4).ref 4 4⟩⟩
instance : OfNat Mh 8 := ⟨⟨(lit 8).ref 8 8⟩⟩
instance : OfScientific Mh := ⟨fun m s e => ⟨lit (OfScientific.ofScientific m s e : ℚ)⟩⟩
end Mh

theorem mul_lo (hf : Spec.Double f) {x y : Mg} {A B : Flo} {a b : ℝ} (hA : x.Has s A a) (hB : y.Has s B b) :
    ({ x * y with lo := max x.lo 0 * max y.lo 0 } : Mg).Has s (f.mul A B) (a * b) := by
  intro hk
  obtain ⟨v, h1, h2, h3, -⟩ := (hA.mul hf hB) hk
  obtain ⟨kx, ky⟩ := mul_ok (x := x) (y := y) hk
  obtain ⟨_, -, -, -, l1⟩ := hA kx
  obtain ⟨_, -, -, -, l2⟩ := hB ky
  refine ⟨v, h1, h2, h3, ?_⟩
  show s.U (x.g + y.g) * ((max x.lo 0 * max y.lo 0 : ℚ) : ℝ) ≤ |a * b|
  rw [s.U_add, abs_mul]
  push_cast
  have u1 := s.U_pos x.g
  have u2 := s.U_pos y.g
  have t1 : s.U x.g * max (x.lo : ℝ) 0 ≤ |a| := by
    rcases max_cases (x.lo : ℝ) 0 with ⟨h, _⟩ | ⟨h, _⟩ <;> rw [h]
    · exact l1
    · simp
  have t2 : s.U y.g * max (y.lo : ℝ) 0 ≤ |b| := by
    rcases max_cases (y.lo : ℝ) 0 with ⟨h, _⟩ | ⟨h, _⟩ <;> rw [h]
    · exact l2
    · simp
  calc s.U x.g * s.U y.g * (max (x.lo : ℝ) 0 * max (y.lo : ℝ) 0) = (s.U x.g * max (x.lo : ℝ) 0) * (s.U y.g * max (y.lo : ℝ) 0) := by ring
    _ ≤ |a| * |b| := mul_le_mul t1 t2 (mul_nonneg u2.le (le_max_right _ _)) (abs_nonneg _)

theorem lit_lo (hf : Spec.Double f) {c : ℚ} (hc : 0 ≤ c) : ((lit c).ref c c).Has s (f.rnd (c : ℝ)) (c : ℝ) := by
  have hc' : 0 ≤ (c : ℝ) := by exact_mod_cast hc
  have e : s.U (lit c).g = 1 := U_zero
  exact (Has.lit hf c).ref (by rw [e, one_mul, abs_of_nonneg hc']) (by rw [e, one_mul, abs_of_nonneg hc'])

theorem lit2 (hf : Spec.Double f) : ((2 : Mh).v).Has s (f.rnd 2) 2 := by
  have : ((lit 2).ref 2 2).Has s (f.rnd 2) 2 := by simpa using lit_lo (s := s) hf (c := 2) (by norm_num)
  exact this
theorem lit4 (hf : Spec.Double f) : ((4 : Mh).v).Has s (f.rnd 4) 4 := by
  have : ((lit 4).ref 4 4).Has s (f.rnd 4) 4 := by simpa using lit_lo (s := s) hf (c := 4) (by norm_num)
  exact this
theorem lit8 (hf : Spec.Double f) : ((8 : Mh).v).Has s (f.rnd 8) 8 := by
  have : ((lit 8).ref 8 8).Has s (f.rnd 8) 8 := by simpa using lit_lo (s := s) hf (c := 8) (by norm_num)
  exact this

/-- a computed number together with the exact one and bounds -/
structure Bh (f : Fmt) (s : Units) where
  g : Mh
  a : Flo
  x : ℝ
  h : g.v.Has s a x

namespace Bh
variable [hf : Spec.Double f]
noncomputable instance : Add (Bh f s) := ⟨fun x y => ⟨x.g + y.g, f.add x.a y.a, x.x + y.x, x.h.add hf y.h⟩⟩
noncomputable instance : Sub (Bh f s) := ⟨fun x y => ⟨x.g - y.g, f.sub x.a y.a, x.x - y.x, x.h.sub hf y.h⟩⟩
noncomputable instance : Mul (Bh f s) := ⟨fun x y => ⟨x.g * y.g, f.mul x.a y.a, x.x * y.x, mul_lo hf x.h y.h⟩⟩
noncomputable instance : Div (Bh f s) := ⟨fun x y => ⟨x.g / y.g, f.div x.a y.a, x.x / y.x, x.h.div hf y.h⟩⟩
noncomputable instance : Neg (Bh f s) := ⟨fun x => ⟨-x.g, x.a.neg, -x.x, x.h.neg⟩⟩
noncomputable instance : OfNat (Bh f s) 2 := ⟨⟨2, f.rnd 2, 2, lit2 hf⟩⟩
noncomputable instance : OfNat (Bh f s) 4 := ⟨⟨4, f.rnd 4, 4, lit4 hf⟩⟩
noncomputable instance : OfNat (Bh f s) 8 := ⟨⟨8, f.rnd 8, 8, lit8 hf⟩⟩
noncomputable instance : OfScientific (Bh f s) := ⟨fun m t e => ⟨OfScientific.ofScientific m t e, f.rnd (OfScientific.ofScientific m t e : ℝ), OfScientific.ofScientific m t e,
  by have := Has.lit (s := s) hf (OfScientific.ofScientific m t e : ℚ); rw [Rat.cast_ofScientific] at this; exact this⟩⟩
theorem g_add (x y : Bh f s) : (x + y).g = x.g + y.g := rfl
theorem g_sub (x y : Bh f s) : (x - y).g = x.g - y.g := rfl
theorem g_mul (x y : Bh f s) : (x * y).g = x.g * y.g := rfl
theorem g_div (x y : Bh f s) : (x / y).g = x.g / y.g := rfl
omit hf in
theorem g_neg (x : Bh f s) : (-x).g = -x.g := rfl
theorem g_2 : ((2 : Bh f s)).g = 2 := rfl
theorem g_4 : ((4 : Bh f s)).g = 4 := rfl
theorem g_8 : ((8 : Bh f s)).g = 8 := rfl
theorem g_sci (m : ℕ) (t : Bool) (e : ℕ) : ((OfScientific.ofScientific m t e : Bh f s)).g = OfScientific.ofScientific m t e := rfl
end Bh

/-- the shape of the triangles (`σ`), bounds on the rounding errors of the local variables of `add_k0s` (area, areas of the parts, differences of
coordinates, moduli) and on its increments (sizes up to `M`, errors up to `E`) -/
structure ProfS where
  (σ G eA eB eD eM M E : ℚ)

section
variable (p : ProfS)
def wA : Mg := ⟨⟨2, 0, 0, 0⟩, 1, p.eA, p.σ, true⟩
def wB : Mg := ⟨⟨2, 0, 0, 0⟩, 1 / 3, p.eB, p.σ / 3, true⟩
def wD : Mg := ⟨⟨1, 0, 0, 0⟩, 1, p.eD, 0, true⟩
def wE : Mg := ⟨⟨0, 1, 0, 0⟩, 1, p.eM, 0, true⟩
def wZ : Mg := ⟨⟨0, 1, 0, 0⟩, 0, 0, 0, true⟩

/-- the unit of an increment, from its row and column: a length for each rotation -/
def rotG (r c : ℤ) : Grd := ⟨(if r = 2 then 0 else 1) + (if c = 2 then 0 else 1), 1, 0, 0⟩
/-- the bounds of an increment -/
def wX (r c : ℤ) : Mg := ⟨rotG (r % 5) (c % 5), p.M, p.E, 0, true⟩
end

end Meshless
