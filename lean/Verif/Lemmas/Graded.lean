import Verif.Spec.FloatUnits
import Verif.Lemmas.Cert
import Mathlib.Tactic.LinearCombination

/-! Numbers with a unit: a computed value, the value computed in the other units, and the powers of the units of length and force (and the sign) by which
they differ. A formula that is generic in its number type, evaluated at such numbers, carries its own unit. -/

set_option autoImplicit false

namespace Meshless
open Spec

/-- a unit: powers of the units of length and of force, and whether the number changes its sign under a half turn -/
structure Dg where
  p : ℤ
  q : ℤ
  r : Bool
  deriving DecidableEq

namespace Dg
instance : Mul Dg := ⟨fun a b => ⟨a.p + b.p, a.q + b.q, xor a.r b.r⟩⟩
instance : Div Dg := ⟨fun a b => ⟨a.p - b.p, a.q - b.q, xor a.r b.r⟩⟩
/-- pure numbers -/
instance : One Dg := ⟨⟨0, 0, false⟩⟩
/-- lengths -/
def L : Dg := ⟨1, 0, false⟩
/-- lengths along x and y -/
def X : Dg := ⟨1, 0, true⟩
/-- components of unit vectors along x and y -/
def N : Dg := ⟨0, 0, true⟩
/-- areas -/
def A : Dg := ⟨2, 0, false⟩
/-- forces per length -/
def P : Dg := ⟨-1, 1, false⟩
/-- forces -/
def F : Dg := ⟨0, 1, false⟩
/-- moments -/
def M : Dg := ⟨1, 1, false⟩

/-- the number by which values of this unit are multiplied -/
noncomputable def sc (s f ε : ℝ) (g : Dg) : ℝ := s ^ g.p * f ^ g.q * (if g.r then ε else 1)

end Dg

/-- the two factors and the sign are exact for the rounding -/
class Grading (R : Rounding) (s f ε : ℝ) : Prop where
  s_pos : 0 < s
  f_pos : 0 < f
  sign : ε = 1 ∨ ε = -1
  hs : FlExact R s
  hf : FlExact R f
  hε : FlExact R ε

section
variable {R : Rounding}

theorem Spec.FlExact.one : FlExact R 1 := fun x => by rw [one_mul, one_mul]
theorem Spec.FlExact.mul {a b : ℝ} (ha : FlExact R a) (hb : FlExact R b) : FlExact R (a * b) := fun x => by
  rw [mul_assoc, ha, hb, mul_assoc]
theorem Spec.FlExact.inv {a : ℝ} (ha : FlExact R a) (h0 : a ≠ 0) : FlExact R a⁻¹ := fun x => by
  have := ha (a⁻¹ * x)
  rw [mul_inv_cancel_left₀ h0] at this
  rw [this, inv_mul_cancel_left₀ h0]
theorem Spec.FlExact.pow {a : ℝ} (ha : FlExact R a) : ∀ n : ℕ, FlExact R (a ^ n)
  | 0 => by rw [pow_zero]; exact .one
  | n + 1 => by rw [pow_succ]; exact (ha.pow n).mul ha
theorem Spec.FlExact.zpow {a : ℝ} (ha : FlExact R a) (h0 : a ≠ 0) (n : ℤ) : FlExact R (a ^ n) := by
  rcases n with n | n
  · rw [Int.ofNat_eq_natCast, zpow_natCast]; exact ha.pow n
  · rw [zpow_negSucc]; exact (ha.pow _).inv (pow_ne_zero _ h0)

end

section
variable {R : Rounding} {s f ε : ℝ} [G : Grading R s f ε]

include R G in
theorem Grading.ε_ne : ε ≠ 0 := by rcases G.sign with h | h <;> rw [h] <;> norm_num
include R G in
theorem Grading.ε_sq : ε * ε = 1 := by rcases G.sign with h | h <;> rw [h] <;> norm_num

include R G in
theorem Dg.sc_ne (g : Dg) : g.sc s f ε ≠ 0 := by
  have h1 := G.s_pos; have h2 := G.f_pos; have h3 : ε ≠ 0 := Grading.ε_ne (R := R) (s := s) (f := f)
  unfold sc
  refine mul_ne_zero (mul_ne_zero (zpow_pos h1 _).ne' (zpow_pos h2 _).ne') ?_
  split_ifs
  · exact h3
  · exact one_ne_zero

theorem Dg.sc_exact (g : Dg) : FlExact R (g.sc s f ε) := by
  unfold sc
  refine ((G.hs.zpow G.s_pos.ne' _).mul (G.hf.zpow G.f_pos.ne' _)).mul ?_
  split_ifs
  · exact G.hε
  · exact .one

include R G in
theorem Dg.sc_mul (a b : Dg) : (a * b).sc s f ε = a.sc s f ε * b.sc s f ε := by
  have h1 := G.s_pos.ne'; have h2 := G.f_pos.ne'; have h3 : ε * ε = 1 := Grading.ε_sq (R := R) (s := s) (f := f)
  have hm : a * b = ⟨a.p + b.p, a.q + b.q, xor a.r b.r⟩ := rfl
  obtain ⟨p, q, r⟩ := a
  obtain ⟨p', q', r'⟩ := b
  rw [hm]
  unfold sc
  dsimp only
  rw [zpow_add₀ h1, zpow_add₀ h2]
  cases r <;> cases r' <;> simp only [Bool.xor_false, Bool.xor_true, Bool.not_false, Bool.not_true, Bool.false_eq_true, if_true, if_false] <;>
    first | ring1 | linear_combination (-(s ^ p * s ^ p' * f ^ q * f ^ q')) * h3

include R G in
theorem Dg.sc_div (a b : Dg) : (a / b).sc s f ε = a.sc s f ε / b.sc s f ε := by
  have hb := Dg.sc_ne (R := R) (s := s) (f := f) (ε := ε) b
  rw [eq_div_iff hb, ← Dg.sc_mul (R := R)]
  congr 1
  obtain ⟨p, q, r⟩ := a
  obtain ⟨p', q', r'⟩ := b
  show (⟨p - p' + p', q - q' + q', xor (xor r r') r'⟩ : Dg) = ⟨p, q, r⟩
  rw [sub_add_cancel, sub_add_cancel, Bool.xor_assoc, Bool.xor_self, Bool.xor_false]

theorem Dg.sc_one : (1 : Dg).sc s f ε = 1 := by show s ^ (0:ℤ) * f ^ (0:ℤ) * 1 = 1; simp
theorem Dg.sc_L : L.sc s f ε = s := by simp [sc, L]
theorem Dg.sc_X : X.sc s f ε = ε * s := by simp [sc, X, mul_comm]
theorem Dg.sc_N : N.sc s f ε = ε := by simp [sc, N]
theorem Dg.sc_A : A.sc s f ε = s ^ 2 := by simp only [sc, A, zpow_zero, mul_one, Bool.false_eq_true, if_false]; norm_cast
theorem Dg.sc_P : P.sc s f ε = f / s := by simp [sc, P]; ring
theorem Dg.sc_F : F.sc s f ε = f := by simp [sc, F]
theorem Dg.sc_M : M.sc s f ε = f * s := by simp [sc, M, mul_comm]

end

/-- `y` is `x` in the other units -/
def Gd (s f ε : ℝ) (g : Dg) (x y : ℝ) : Prop := y = g.sc s f ε * x

namespace Gd
variable {R : Rounding} {s f ε : ℝ} [G : Grading R s f ε] {a b : Dg} {x y x' y' : ℝ}

theorem mul' (ha : Gd s f ε a x y) (hb : Gd s f ε b x' y') : Gd s f ε (a * b) (R.mul x x') (R.mul y y') := by
  unfold Gd Rounding.mul at *
  rw [ha, hb, ← Dg.sc_exact (R := R), Dg.sc_mul (R := R)]; congr 1; ring
theorem div' (ha : Gd s f ε a x y) (hb : Gd s f ε b x' y') : Gd s f ε (a / b) (R.div x x') (R.div y y') := by
  unfold Gd Rounding.div at *
  rw [ha, hb, ← Dg.sc_exact (R := R), Dg.sc_div (R := R)]; congr 1
  rw [mul_div_mul_comm]
theorem add' (ha : Gd s f ε a x y) (hb : Gd s f ε a x' y') : Gd s f ε a (R.add x x') (R.add y y') := by
  unfold Gd Rounding.add at *
  rw [ha, hb, ← Dg.sc_exact (R := R)]; congr 1; ring
theorem sub' (ha : Gd s f ε a x y) (hb : Gd s f ε a x' y') : Gd s f ε a (R.sub x x') (R.sub y y') := by
  unfold Gd Rounding.sub at *
  rw [ha, hb, ← Dg.sc_exact (R := R)]; congr 1; ring
theorem neg (ha : Gd s f ε a x y) : Gd s f ε a (-x) (-y) := by
  unfold Gd at *; rw [ha]; ring
theorem num (x : ℝ) : Gd s f ε 1 x x := by unfold Gd; rw [Dg.sc_one, one_mul]
theorem zero (g : Dg) : Gd s f ε g 0 0 := by unfold Gd; rw [mul_zero]
theorem sqrt (ha : Gd s f ε Dg.A x y) : Gd s f ε Dg.L (R.sqrt x) (R.sqrt y) := by
  unfold Gd Rounding.sqrt at *
  rw [ha, ← Dg.sc_exact (R := R), Dg.sc_A, Dg.sc_L, Real.sqrt_mul (by positivity), Real.sqrt_sq G.s_pos.le]
include R G in
theorem abs (ha : Gd s f ε Dg.A x y) : Gd s f ε Dg.A |x| |y| := by
  have := G.s_pos
  unfold Gd at *
  rw [ha, Dg.sc_A, abs_mul, abs_of_nonneg (by positivity)]
include R G in
theorem neg_iff (ha : Gd s f ε Dg.A x y) : y < 0 ↔ x < 0 := by
  have := G.s_pos
  unfold Gd at ha
  rw [ha, Dg.sc_A, mul_neg_iff]
  constructor
  · rintro (⟨_, h⟩ | ⟨h, _⟩)
    · exact h
    · exact absurd h (not_lt.2 (by positivity))
  · intro h; exact Or.inl ⟨by positivity, h⟩
include R G in
theorem max (ha : Gd s f ε Dg.L x y) (hb : Gd s f ε Dg.L x' y') : Gd s f ε Dg.L (Max.max x x') (Max.max y y') := by
  unfold Gd at *
  rw [ha, hb, Dg.sc_L, mul_max_of_nonneg _ _ G.s_pos.le]

variable (R)
/-- with the unit of the result spelled out -/
theorem mul {c : Dg} (hc : a * b = c) (ha : Gd s f ε a x y) (hb : Gd s f ε b x' y') : Gd s f ε c (R.mul x x') (R.mul y y') := hc ▸ ha.mul' hb
theorem div {c : Dg} (hc : a / b = c) (ha : Gd s f ε a x y) (hb : Gd s f ε b x' y') : Gd s f ε c (R.div x x') (R.div y y') := hc ▸ ha.div' hb

end Gd

/-- a computed value, the value computed in the other units, their unit, and whether the units matched so far -/
structure Gr (R : Rounding) (s f ε : ℝ) where
  c : ℝ
  d : ℝ
  g : Dg
  ok : Bool
  h : ok = true → Gd s f ε g c d

/-- the units alone -/
structure Gr.Cnt where
  g : Dg
  ok : Bool

/-- Boolean equality of units -/
def Dg.same (a b : Dg) : Bool := decide (a = b)

theorem Dg.same_eq {a b : Dg} (h : a.same b = true) : a = b := of_decide_eq_true h

namespace Gr
variable {R : Rounding} {s f ε : ℝ} [G : Grading R s f ε]

noncomputable instance : Add (Gr R s f ε) := ⟨fun a b => ⟨R.add a.c b.c, R.add a.d b.d, a.g, (a.ok && b.ok) && a.g.same b.g, fun h => by
  simp only [Bool.and_eq_true] at h
  exact (a.h h.1.1).add' (Dg.same_eq h.2 ▸ b.h h.1.2)⟩⟩
noncomputable instance : Sub (Gr R s f ε) := ⟨fun a b => ⟨R.sub a.c b.c, R.sub a.d b.d, a.g, (a.ok && b.ok) && a.g.same b.g, fun h => by
  simp only [Bool.and_eq_true] at h
  exact (a.h h.1.1).sub' (Dg.same_eq h.2 ▸ b.h h.1.2)⟩⟩
noncomputable instance : Mul (Gr R s f ε) := ⟨fun a b => ⟨R.mul a.c b.c, R.mul a.d b.d, a.g * b.g, a.ok && b.ok, fun h => by
  simp only [Bool.and_eq_true] at h
  exact (a.h h.1).mul' (b.h h.2)⟩⟩
noncomputable instance : Div (Gr R s f ε) := ⟨fun a b => ⟨R.div a.c b.c, R.div a.d b.d, a.g / b.g, a.ok && b.ok, fun h => by
  simp only [Bool.and_eq_true] at h
  exact (a.h h.1).div' (b.h h.2)⟩⟩
noncomputable instance : Neg (Gr R s f ε) := ⟨fun a => ⟨-a.c, -a.d, a.g, a.ok, fun h => (a.h h).neg⟩⟩
noncomputable instance : OfNat (Gr R s f ε) 1 := ⟨⟨R.fl 1, R.fl 1, 1, true, fun _ => .num _⟩⟩
noncomputable instance : OfNat (Gr R s f ε) 2 := ⟨⟨R.fl 2, R.fl 2, 1, true, fun _ => .num _⟩⟩
noncomputable instance : OfNat (Gr R s f ε) 4 := ⟨⟨R.fl 4, R.fl 4, 1, true, fun _ => .num _⟩⟩
noncomputable instance : OfNat (Gr R s f ε) 8 := ⟨⟨R.fl 8, R.fl 8, 1, true, fun _ => .num _⟩⟩
noncomputable instance : OfScientific (Gr R s f ε) := ⟨fun m t e => ⟨R.fl (OfScientific.ofScientific m t e : ℝ), R.fl (OfScientific.ofScientific m t e : ℝ), 1, true, fun _ => .num _⟩⟩

namespace Cnt
instance : Add Cnt := ⟨fun a b => ⟨a.g, (a.ok && b.ok) && a.g.same b.g⟩⟩
instance : Sub Cnt := ⟨fun a b => ⟨a.g, (a.ok && b.ok) && a.g.same b.g⟩⟩
instance : Mul Cnt := ⟨fun a b => ⟨a.g * b.g, a.ok && b.ok⟩⟩
instance : Div Cnt := ⟨fun a b => ⟨a.g / b.g, a.ok && b.ok⟩⟩
instance : Neg Cnt := ⟨fun a => ⟨a.g, a.ok⟩⟩
instance : OfNat Cnt 1 := ⟨⟨1, true⟩⟩
instance : OfNat Cnt 2 := ⟨⟨1, true⟩⟩
instance : OfNat Cnt 4 := ⟨⟨1, true⟩⟩
instance : OfNat Cnt 8 := ⟨⟨1, true⟩⟩
instance : OfScientific Cnt := ⟨fun _ _ _ => ⟨1, true⟩⟩
end Cnt

/-- the unit of a number -/
def cnt (a : Gr R s f ε) : Cnt := ⟨a.g, a.ok⟩

/-- a number and its value in the other units -/
def of (g : Dg) {x y : ℝ} (h : Gd s f ε g x y) : Gr R s f ε := ⟨x, y, g, true, fun _ => h⟩

end Gr

/-- unit of the matrix entry of two degrees of freedom (0 to 4) -/
def entryDg (i j : ℤ) : Dg := ⟨(if 3 ≤ i then 1 else 0) + (if 3 ≤ j then 1 else 0) - 1, 1, xor (i != 2) (j != 2)⟩

/-- unit of the matrix entry without the sign of the half turn -/
def entryDg' (i j : ℤ) : Dg := ⟨(if 3 ≤ i then 1 else 0) + (if 3 ≤ j then 1 else 0) - 1, 1, false⟩

theorem Gr.of_cnt {R : Rounding} {s f ε : ℝ} {w : ℤ → ℤ → Dg} {l : List (ℤ × ℤ × Gr R s f ε)} {l' : List (ℤ × ℤ × Gr.Cnt)}
    (h : l.map (fun t => (t.1 % 5, t.2.1 % 5, t.2.2.cnt)) = l'.map fun t => (t.1 % 5, t.2.1 % 5, t.2.2))
    (hb : l'.all (fun t => t.2.2.ok && t.2.2.g.same (w (t.1 % 5) (t.2.1 % 5))) = true) {t : ℤ × ℤ × Gr R s f ε} (ht : t ∈ l) :
    Gd s f ε (w (t.1 % 5) (t.2.1 % 5)) t.2.2.c t.2.2.d := by
  have h1 : (t.1 % 5, t.2.1 % 5, t.2.2.cnt) ∈ l'.map fun t => (t.1 % 5, t.2.1 % 5, t.2.2) := h ▸ List.mem_map_of_mem ht
  obtain ⟨t', ht', e⟩ := List.mem_map.1 h1
  have h2 := List.all_eq_true.1 hb t' ht'
  simp only [Prod.mk.injEq] at e
  obtain ⟨e1, e2, e3⟩ := e
  rw [e1, e2, e3, Bool.and_eq_true] at h2
  have h3 := t.2.2.h h2.1
  have h4 : t.2.2.g = w (t.1 % 5) (t.2.1 % 5) := Dg.same_eq h2.2
  rwa [h4] at h3

end Meshless
