import Verif.Spec.Bound
import Mathlib.Algebra.Order.Field.Power
import Mathlib.Tactic.Positivity
import Mathlib.Tactic.GCongr
import Mathlib.Tactic.FieldSimp
import Mathlib.Tactic.NormNum.Pow
import Mathlib.Data.Rat.Cast.Order

/-! Explicit bounds on sizes and rounding errors: rational numbers that go along with every number computed in a floating-point format. -/

set_option autoImplicit false

namespace Meshless

/-- exponents of a unit: length, and the sizes of the laminate matrices A, B, D -/
structure Grd where
  (a b c d : ℤ)
deriving DecidableEq

namespace Grd
instance : Add Grd := ⟨fun g h => ⟨g.a + h.a, g.b + h.b, g.c + h.c, g.d + h.d⟩⟩
instance : Sub Grd := ⟨fun g h => ⟨g.a - h.a, g.b - h.b, g.c - h.c, g.d - h.d⟩⟩
/-- the sum of the absolute values of the exponents -/
def size (g : Grd) : ℕ := g.a.natAbs + g.b.natAbs + g.c.natAbs + g.d.natAbs
end Grd

/-- the units: a length and the sizes of the laminate matrices, all between 2^-100 and 2^100 -/
structure Units where
  (l p q r : ℝ)
  hl : (2:ℝ) ^ (-100 : ℤ) ≤ l ∧ l ≤ 2 ^ (100 : ℤ)
  hp : (2:ℝ) ^ (-100 : ℤ) ≤ p ∧ p ≤ 2 ^ (100 : ℤ)
  hq : (2:ℝ) ^ (-100 : ℤ) ≤ q ∧ q ≤ 2 ^ (100 : ℤ)
  hr : (2:ℝ) ^ (-100 : ℤ) ≤ r ∧ r ≤ 2 ^ (100 : ℤ)

theorem zpow_range {l : ℝ} (h : (2:ℝ) ^ (-100 : ℤ) ≤ l ∧ l ≤ 2 ^ (100 : ℤ)) (a : ℤ) :
    (2:ℝ) ^ (-(100 * (a.natAbs : ℤ))) ≤ l ^ a ∧ l ^ a ≤ (2:ℝ) ^ (100 * (a.natAbs : ℤ)) := by
  have h0 : (0:ℝ) < 2 ^ (-100 : ℤ) := by positivity
  have hl : 0 < l := h0.trans_le h.1
  have up : ∀ n : ℕ, l ^ n ≤ (2:ℝ) ^ (100 * (n : ℤ)) := fun n => by
    rw [zpow_mul, zpow_natCast]; exact pow_le_pow_left₀ hl.le h.2 n
  have dn : ∀ n : ℕ, (2:ℝ) ^ (-(100 * (n : ℤ))) ≤ l ^ n := fun n => by
    rw [← neg_mul, zpow_mul, zpow_natCast]; exact pow_le_pow_left₀ h0.le h.1 n
  rcases Int.natAbs_eq a with ha | ha <;> rw [ha]
  · simp only [Int.natAbs_natCast, zpow_natCast]
    exact ⟨dn _, up _⟩
  · simp only [Int.natAbs_neg, Int.natAbs_natCast]
    rw [zpow_neg l, zpow_natCast]
    constructor
    · rw [zpow_neg]
      exact inv_anti₀ (by positivity) (up _)
    · have := inv_anti₀ (by positivity) (dn a.natAbs)
      rwa [← zpow_neg, neg_neg] at this

namespace Units
variable (s : Units)

theorem l_pos : 0 < s.l := (by positivity : (0:ℝ) < 2 ^ (-100 : ℤ)).trans_le s.hl.1
theorem p_pos : 0 < s.p := (by positivity : (0:ℝ) < 2 ^ (-100 : ℤ)).trans_le s.hp.1
theorem q_pos : 0 < s.q := (by positivity : (0:ℝ) < 2 ^ (-100 : ℤ)).trans_le s.hq.1
theorem r_pos : 0 < s.r := (by positivity : (0:ℝ) < 2 ^ (-100 : ℤ)).trans_le s.hr.1

/-- the unit of grade `g` -/
noncomputable def U (g : Grd) : ℝ := s.l ^ g.a * s.p ^ g.b * s.q ^ g.c * s.r ^ g.d

theorem U_pos (g : Grd) : 0 < s.U g := by
  have := s.l_pos; have := s.p_pos; have := s.q_pos; have := s.r_pos
  unfold U; positivity

theorem U_add (g h : Grd) : s.U (g + h) = s.U g * s.U h := by
  show s.l ^ (g.a + h.a) * s.p ^ (g.b + h.b) * s.q ^ (g.c + h.c) * s.r ^ (g.d + h.d) = _
  rw [zpow_add₀ s.l_pos.ne', zpow_add₀ s.p_pos.ne', zpow_add₀ s.q_pos.ne', zpow_add₀ s.r_pos.ne']
  unfold U; ring

theorem U_sub (g h : Grd) : s.U (g - h) = s.U g / s.U h := by
  show s.l ^ (g.a - h.a) * s.p ^ (g.b - h.b) * s.q ^ (g.c - h.c) * s.r ^ (g.d - h.d) = _
  rw [zpow_sub₀ s.l_pos.ne', zpow_sub₀ s.p_pos.ne', zpow_sub₀ s.q_pos.ne', zpow_sub₀ s.r_pos.ne']
  unfold U
  have := s.l_pos; have := s.p_pos; have := s.q_pos; have := s.r_pos
  field_simp

theorem U_range {g : Grd} (h : g.size ≤ 10) : (2:ℝ) ^ (-1000 : ℤ) ≤ s.U g ∧ s.U g ≤ 2 ^ (1000 : ℤ) := by
  obtain ⟨a1, a2⟩ := zpow_range s.hl g.a
  obtain ⟨b1, b2⟩ := zpow_range s.hp g.b
  obtain ⟨c1, c2⟩ := zpow_range s.hq g.c
  obtain ⟨d1, d2⟩ := zpow_range s.hr g.d
  have := s.l_pos; have := s.p_pos; have := s.q_pos; have := s.r_pos
  have e : ((g.a.natAbs : ℤ) + g.b.natAbs + g.c.natAbs + g.d.natAbs) ≤ 10 := by
    unfold Grd.size at h; exact_mod_cast h
  have n2 : (2:ℝ) ≠ 0 := two_ne_zero
  constructor
  · have : (2:ℝ) ^ (-(100 * (g.a.natAbs : ℤ))) * 2 ^ (-(100 * (g.b.natAbs : ℤ))) * 2 ^ (-(100 * (g.c.natAbs : ℤ))) * 2 ^ (-(100 * (g.d.natAbs : ℤ))) ≤ s.U g := by
      unfold U; gcongr
    refine le_trans ?_ this
    rw [← zpow_add₀ n2, ← zpow_add₀ n2, ← zpow_add₀ n2]
    exact zpow_le_zpow_right₀ one_le_two (by omega)
  · have : s.U g ≤ (2:ℝ) ^ (100 * (g.a.natAbs : ℤ)) * 2 ^ (100 * (g.b.natAbs : ℤ)) * 2 ^ (100 * (g.c.natAbs : ℤ)) * 2 ^ (100 * (g.d.natAbs : ℤ)) := by
      unfold U; gcongr
    refine this.trans ?_
    rw [← zpow_add₀ n2, ← zpow_add₀ n2, ← zpow_add₀ n2]
    exact zpow_le_zpow_right₀ one_le_two (by omega)

end Units

/-- the roundoff of float64 -/
noncomputable def u64 : ℝ := (2:ℝ) ^ (-53 : ℤ)
theorem u64_pos : 0 < u64 := by unfold u64; positivity
theorem u64_eq : u64 = 1 / 2 ^ 53 := by unfold u64; norm_num

/-- the size `m` of an exact number, the error `e` of the computed one in units of 2^-53 and a lower bound `lo` of the exact one, relative to the unit of
grade `g`; `ok`: no overflow, no loss by underflow -/
structure Mg where
  g : Grd
  (m e lo : ℚ)
  ok : Bool

namespace Mg

/-- the result of an operation: exact size `m`, error `e0` before rounding -/
def rd (g : Grd) (m e0 : ℚ) (ok : Bool) : Mg :=
  ⟨g, m, e0 * (1025 / 1024) + m + 1 / 2 ^ 20, 0, ok && decide (g.size ≤ 10) && decide (m ≤ 2 ^ 20) && decide (e0 * (1025 / 1024) + m + 1 / 2 ^ 20 ≤ 2 ^ 60)⟩

instance : Add Mg := ⟨fun x y => rd x.g (x.m + y.m) (x.e + y.e) (x.ok && y.ok && decide (x.g = y.g))⟩
instance : Neg Mg := ⟨fun x => x⟩
instance : Sub Mg := ⟨fun x y => x + y⟩
instance : Mul Mg := ⟨fun x y => rd (x.g + y.g) (x.m * y.m) (x.m * y.e + y.m * x.e + x.e * y.e / 2 ^ 53) (x.ok && y.ok)⟩
/-- a quotient of size at most `r` -/
def quo (r : ℚ) (x y : Mg) : Mg :=
  rd (x.g - y.g) r ((x.e + r * y.e) / (y.lo * (1023 / 1024))) (x.ok && y.ok && decide (0 < y.lo) && decide (y.e ≤ 2 ^ 43 * y.lo))
instance : Div Mg := ⟨fun x y => quo (x.m / y.lo) x y⟩
/-- a literal -/
def lit (c : ℚ) : Mg := rd ⟨0, 0, 0, 0⟩ |c| 0 true
/-- a number of the input -/
def inp (g : Grd) (m : ℚ) : Mg := ⟨g, m, 0, 0, true⟩
/-- better bounds -/
def ref (x : Mg) (m lo : ℚ) : Mg := ⟨x.g, m, x.e, lo, x.ok⟩
/-- the worse of two -/
def join (x y : Mg) : Mg := ⟨x.g, max x.m y.m, max x.e y.e, min x.lo y.lo, x.ok && y.ok && decide (x.g = y.g)⟩

variable {f : Fmt} {s : Units}

/-- what the bounds say -/
def Is (s : Units) (x : Mg) (A : Flo) (y : ℝ) : Prop :=
  ∃ v, A = .fin v ∧ |y| ≤ s.U x.g * x.m ∧ |v - y| ≤ u64 * (s.U x.g * x.e) ∧ s.U x.g * x.lo ≤ |y|

/-- unless an operation was out of range -/
def Has (s : Units) (x : Mg) (A : Flo) (y : ℝ) : Prop := x.ok = true → x.Is s A y

theorem rnd_is (hf : Spec.Double f) {g : Grd} {m e0 : ℚ} {ok : Bool} (h : (rd g m e0 ok).ok = true) {z y : ℝ} (hy : |y| ≤ s.U g * m)
    (hz : |z - y| ≤ u64 * (s.U g * e0)) : (rd g m e0 ok).Is s (f.rnd z) y := by
  simp only [rd, Bool.and_eq_true, decide_eq_true_eq] at h
  obtain ⟨⟨⟨_, h1⟩, h2⟩, h3⟩ := h
  obtain ⟨r1, r2⟩ := s.U_range h1
  have hU := s.U_pos g
  have he := u64_pos
  set U := s.U g
  have h2' : (m : ℝ) ≤ 2 ^ 20 := by exact_mod_cast h2
  have h3' : (e0 : ℝ) * (1025 / 1024) + m + 1 / 2 ^ 20 ≤ 2 ^ 60 := by
    have := (Rat.cast_le (K := ℝ)).2 h3
    push_cast at this
    exact this
  have e0n : 0 ≤ u64 * (U * e0) := (abs_nonneg _).trans hz
  have mn : 0 ≤ U * (m:ℝ) := (abs_nonneg _).trans hy
  have e1 : |z| ≤ U * m + u64 * (U * e0) := by
    calc |z| = |y + (z - y)| := by congr 1; ring
      _ ≤ |y| + |z - y| := abs_add_le _ _
      _ ≤ _ := add_le_add hy hz
  have e2 : u64 ≤ 1 / 1024 := by rw [u64_eq]; norm_num
  have et : f.eta ≤ u64 * (U * (1 / 2 ^ 20)) := by
    refine hf.eta.trans ?_
    have : (2:ℝ) ^ (-1074 : ℤ) ≤ u64 * ((2:ℝ) ^ (-1000 : ℤ) * (1 / 2 ^ 20)) := by
      unfold u64
      rw [show (1:ℝ) / 2 ^ 20 = 2 ^ (-20 : ℤ) by norm_num, ← zpow_add₀ two_ne_zero, ← zpow_add₀ two_ne_zero]
      exact zpow_le_zpow_right₀ one_le_two (by norm_num)
    exact this.trans (by gcongr)
  have e3 : |f.fl z - z| ≤ u64 * (U * m + u64 * (U * e0)) + u64 * (U * (1 / 2 ^ 20)) := by
    refine (f.err z).trans (add_le_add ?_ et)
    exact (mul_le_mul_of_nonneg_right hf.u (abs_nonneg _)).trans (mul_le_mul_of_nonneg_left e1 he.le)
  have e4 : |f.fl z - y| ≤ u64 * (U * (e0 * (1025 / 1024) + m + 1 / 2 ^ 20)) := by
    calc |f.fl z - y| = |(f.fl z - z) + (z - y)| := by congr 1; ring
      _ ≤ |f.fl z - z| + |z - y| := abs_add_le _ _
      _ ≤ u64 * (U * m + u64 * (U * e0)) + u64 * (U * (1 / 2 ^ 20)) + u64 * (U * e0) := add_le_add e3 hz
      _ ≤ _ := by
        have : u64 * (u64 * (U * e0)) ≤ 1 / 1024 * (u64 * (U * e0)) := mul_le_mul_of_nonneg_right e2 e0n
        nlinarith [this]
  have e5 : |f.fl z| ≤ f.big := by
    calc |f.fl z| = |y + (f.fl z - y)| := by congr 1; ring
      _ ≤ |y| + |f.fl z - y| := abs_add_le _ _
      _ ≤ U * m + u64 * (U * 2 ^ 60) := by
        refine add_le_add hy (e4.trans ?_)
        gcongr
      _ ≤ U * (2 ^ 20 + 2 ^ 7) := by
        have : u64 * 2 ^ 60 = 2 ^ 7 := by rw [u64_eq]; norm_num
        have h4 : U * (m:ℝ) ≤ U * 2 ^ 20 := by gcongr
        rw [show u64 * (U * 2 ^ 60) = U * (u64 * 2 ^ 60) by ring, this]
        linarith
      _ ≤ (2:ℝ) ^ (1000 : ℤ) * 2 ^ 23 := by
        gcongr
        norm_num
      _ = (2:ℝ) ^ (1023 : ℤ) := by
        rw [show (2:ℝ) ^ 23 = 2 ^ (23 : ℤ) by norm_cast, ← zpow_add₀ two_ne_zero]; norm_num
      _ ≤ _ := hf.big
  refine ⟨f.fl z, by unfold Fmt.rnd; rw [if_pos e5], hy, ?_, ?_⟩
  · refine e4.trans_eq ?_
    simp only [rd]; push_cast; rfl
  · simp [rd]

theorem Is.m_nonneg {x : Mg} {A : Flo} {y : ℝ} (h : x.Is s A y) : 0 ≤ (x.m : ℝ) := by
  obtain ⟨v, _, h1, _⟩ := h
  have := (abs_nonneg _).trans h1
  exact nonneg_of_mul_nonneg_right this (s.U_pos _)

theorem Is.e_nonneg {x : Mg} {A : Flo} {y : ℝ} (h : x.Is s A y) : 0 ≤ (x.e : ℝ) := by
  obtain ⟨v, _, _, h1, _⟩ := h
  have := (abs_nonneg _).trans h1
  exact nonneg_of_mul_nonneg_right (nonneg_of_mul_nonneg_right this u64_pos) (s.U_pos _)

variable {x y : Mg} {A B : Flo} {a b : ℝ}

theorem Has.neg (h : x.Has s A a) : (-x).Has s A.neg (-a) := by
  intro hk
  obtain ⟨v, rfl, h1, h2, h3⟩ := h hk
  refine ⟨-v, rfl, by rwa [abs_neg], ?_, by rwa [abs_neg]⟩
  rw [← abs_neg] at h2
  rwa [show -v - -a = -(v - a) by ring]

theorem Has.add (hf : Spec.Double f) (h : x.Has s A a) (g : y.Has s B b) : (x + y).Has s (f.add A B) (a + b) := by
  intro hk
  have hk' := hk
  simp only [HAdd.hAdd, Add.add, rd, Bool.and_eq_true, decide_eq_true_eq] at hk'
  obtain ⟨⟨⟨⟨⟨ha, hb⟩, hg⟩, _⟩, _⟩, _⟩ := hk'
  obtain ⟨v, rfl, v1, v2, _⟩ := h ha
  obtain ⟨w, rfl, w1, w2, _⟩ := g hb
  rw [← hg] at w1 w2
  refine rnd_is hf hk ?_ ?_
  · refine (abs_add_le _ _).trans ((add_le_add v1 w1).trans_eq ?_)
    push_cast; ring
  · rw [show v + w - (a + b) = (v - a) + (w - b) by ring]
    refine (abs_add_le _ _).trans ((add_le_add v2 w2).trans_eq ?_)
    push_cast; ring

theorem Has.sub (hf : Spec.Double f) (h : x.Has s A a) (g : y.Has s B b) : (x - y).Has s (f.sub A B) (a - b) := by
  rw [sub_eq_add_neg]
  exact h.add hf g.neg

theorem Has.mul (hf : Spec.Double f) (h : x.Has s A a) (g : y.Has s B b) : (x * y).Has s (f.mul A B) (a * b) := by
  intro hk
  have hk' := hk
  simp only [HMul.hMul, Mul.mul, rd, Bool.and_eq_true, decide_eq_true_eq] at hk'
  obtain ⟨⟨⟨⟨ha, hb⟩, _⟩, _⟩, _⟩ := hk'
  have hm := (h ha).m_nonneg
  have he := (h ha).e_nonneg
  have hm' := (g hb).m_nonneg
  have he' := (g hb).e_nonneg
  obtain ⟨v, rfl, v1, v2, _⟩ := h ha
  obtain ⟨w, rfl, w1, w2, _⟩ := g hb
  have hU := s.U_pos x.g
  have hV := s.U_pos y.g
  have hE := u64_pos
  refine rnd_is hf hk ?_ ?_
  · rw [abs_mul, s.U_add]
    refine (mul_le_mul v1 w1 (abs_nonneg _) (by positivity)).trans_eq ?_
    push_cast; ring
  · rw [show v * w - a * b = a * (w - b) + b * (v - a) + (v - a) * (w - b) by ring, s.U_add]
    refine (abs_add_le _ _).trans ((add_le_add (abs_add_le _ _) le_rfl).trans ?_)
    rw [abs_mul, abs_mul, abs_mul]
    refine (add_le_add (add_le_add (mul_le_mul v1 w2 (abs_nonneg _) (by positivity)) (mul_le_mul w1 v2 (abs_nonneg _) (by positivity)))
      (mul_le_mul v2 w2 (abs_nonneg _) (by positivity))).trans_eq ?_
    rw [show u64 * (s.U x.g * (x.e:ℝ)) * (u64 * (s.U y.g * y.e)) = u64 * (s.U x.g * s.U y.g * (x.e * y.e * u64)) by ring,
      show (x.e:ℝ) * y.e * u64 = x.e * y.e / 2 ^ 53 by rw [u64_eq]; ring]
    push_cast; ring

theorem Has.quo (hf : Spec.Double f) {r : ℚ} (h : x.Has s A a) (g : y.Has s B b) (hr : x.ok = true → y.ok = true → 0 < (y.lo : ℝ) → |a / b| ≤ s.U (x.g - y.g) * r) :
    (Mg.quo r x y).Has s (f.div A B) (a / b) := by
  intro hk
  have hk' := hk
  simp only [Mg.quo, rd, Bool.and_eq_true, decide_eq_true_eq] at hk'
  obtain ⟨⟨⟨⟨⟨⟨ha, hb⟩, hlo⟩, hle⟩, _⟩, _⟩, _⟩ := hk'
  have he := (h ha).e_nonneg
  have he' := (g hb).e_nonneg
  obtain ⟨v, rfl, v1, v2, _⟩ := h ha
  obtain ⟨w, rfl, w1, w2, w3⟩ := g hb
  have hU := s.U_pos x.g
  have hV := s.U_pos y.g
  have hE := u64_pos
  have hlo' : 0 < (y.lo : ℝ) := by exact_mod_cast hlo
  have hle' : (y.e : ℝ) ≤ 2 ^ 43 * y.lo := by exact_mod_cast hle
  have hb0 : 0 < |b| := (mul_pos hV hlo').trans_le w3
  have hr' := hr ha hb hlo'
  have hw : s.U y.g * (y.lo * (1023 / 1024)) ≤ |w| := by
    have h1 : |b| - |w - b| ≤ |w| := by
      have := abs_sub_abs_le_abs_sub b w
      rw [abs_sub_comm w b]; linarith
    have h2 : |w - b| ≤ s.U y.g * (y.lo / 1024) := by
      refine w2.trans ?_
      rw [show u64 * (s.U y.g * (y.e:ℝ)) = s.U y.g * (u64 * y.e) by ring]
      refine mul_le_mul_of_nonneg_left ?_ hV.le
      refine (mul_le_mul_of_nonneg_left hle' hE.le).trans_eq ?_
      rw [u64_eq]; ring
    nlinarith
  have hw0 : 0 < |w| := (by positivity : 0 < s.U y.g * ((y.lo:ℝ) * (1023 / 1024))).trans_le hw
  have hwn : w ≠ 0 := abs_pos.1 hw0
  have hbn : b ≠ 0 := abs_pos.1 hb0
  show Is s _ (if w = 0 then _ else f.rnd (v / w)) _
  rw [if_neg hwn]
  refine rnd_is hf hk hr' ?_
  rw [show v / w - a / b = ((v - a) - a / b * (w - b)) / w by field_simp; ring, abs_div, s.U_sub, div_le_iff₀ hw0]
  have n1 : |(v - a) - a / b * (w - b)| ≤ u64 * (s.U x.g * x.e) + s.U (x.g - y.g) * r * (u64 * (s.U y.g * y.e)) := by
    refine (abs_sub _ _).trans (add_le_add v2 ?_)
    rw [abs_mul]
    exact mul_le_mul hr' w2 (abs_nonneg _) ((abs_nonneg _).trans hr')
  rw [s.U_sub] at n1
  refine n1.trans ?_
  have rn : 0 ≤ (r:ℝ) := by
    have := (abs_nonneg _).trans hr'
    exact nonneg_of_mul_nonneg_right this (s.U_pos _)
  calc u64 * (s.U x.g * (x.e:ℝ)) + s.U x.g / s.U y.g * r * (u64 * (s.U y.g * y.e)) = u64 * (s.U x.g * (x.e + r * y.e)) := by field_simp
    _ = u64 * (s.U x.g / s.U y.g * ((x.e + r * y.e) / (y.lo * (1023 / 1024)))) * (s.U y.g * (y.lo * (1023 / 1024))) := by field_simp
    _ ≤ _ := by
      push_cast
      exact mul_le_mul_of_nonneg_left hw (by positivity)

theorem Has.div (hf : Spec.Double f) (h : x.Has s A a) (g : y.Has s B b) : (x / y).Has s (f.div A B) (a / b) := by
  refine h.quo hf g fun ha hb hlo => ?_
  have hm := (h ha).m_nonneg
  obtain ⟨v, _, v1, _⟩ := h ha
  obtain ⟨w, _, _, _, w3⟩ := g hb
  have hU := s.U_pos x.g
  have hV := s.U_pos y.g
  rw [abs_div, s.U_sub, div_le_iff₀ ((mul_pos hV hlo).trans_le w3)]
  refine v1.trans ?_
  calc s.U x.g * (x.m:ℝ) = s.U x.g / s.U y.g * (x.m / y.lo) * (s.U y.g * y.lo) := by field_simp
    _ ≤ _ := by
      push_cast
      exact mul_le_mul_of_nonneg_left w3 (by positivity)

theorem Has.lit (hf : Spec.Double f) (c : ℚ) : (lit c).Has s (f.rnd c) c := by
  intro hk
  refine rnd_is hf hk ?_ ?_
  · simp [Units.U]
  · simp

theorem Has.inp {g : Grd} {m : ℚ} (h : |a| ≤ s.U g * m) : (inp g m).Has s (.fin a) a :=
  fun _ => ⟨a, rfl, h, by simp [Mg.inp], by simp [Mg.inp]⟩

theorem Has.ref (h : x.Has s A a) {m lo : ℚ} (h1 : |a| ≤ s.U x.g * m) (h2 : s.U x.g * lo ≤ |a|) : (x.ref m lo).Has s A a := by
  intro hk
  obtain ⟨v, e, _, h4, _⟩ := h hk
  exact ⟨v, e, h1, h4, h2⟩

theorem Has.abs (h : x.Has s A a) : x.Has s A.abs |a| := by
  intro hk
  obtain ⟨v, rfl, h1, h2, h3⟩ := h hk
  exact ⟨|v|, rfl, by rwa [abs_abs], (abs_abs_sub_abs_le _ _).trans h2, by rwa [abs_abs]⟩

theorem Has.joinl (h : x.Has s A a) : (x.join y).Has s A a := by
  intro hk
  simp only [join, Bool.and_eq_true, decide_eq_true_eq] at hk
  obtain ⟨v, e, h1, h2, h3⟩ := h hk.1.1
  have hU := s.U_pos x.g
  have hE := u64_pos
  refine ⟨v, e, h1.trans ?_, h2.trans ?_, le_trans ?_ h3⟩ <;> simp only [join] <;> gcongr
  · exact le_max_left _ _
  · exact le_max_left _ _
  · exact min_le_left _ _

theorem Has.joinr (h : y.Has s A a) : (x.join y).Has s A a := by
  intro hk
  simp only [join, Bool.and_eq_true, decide_eq_true_eq] at hk
  obtain ⟨v, e, h1, h2, h3⟩ := h hk.1.2
  rw [← hk.2] at h1 h2 h3
  have hU := s.U_pos x.g
  have hE := u64_pos
  refine ⟨v, e, h1.trans ?_, h2.trans ?_, le_trans ?_ h3⟩ <;> simp only [join] <;> gcongr
  · exact le_max_right _ _
  · exact le_max_right _ _
  · exact min_le_right _ _

theorem Has.zero (h1 : 0 ≤ x.m) (h2 : 0 ≤ x.e) (h3 : x.lo ≤ 0) : x.Has s (.fin 0) 0 := by
  intro _
  have hU := s.U_pos x.g
  have hE := u64_pos
  have h1' : 0 ≤ (x.m:ℝ) := by exact_mod_cast h1
  have h2' : 0 ≤ (x.e:ℝ) := by exact_mod_cast h2
  have h3' : (x.lo:ℝ) ≤ 0 := by exact_mod_cast h3
  refine ⟨0, rfl, by rw [abs_zero]; positivity, by rw [sub_zero, abs_zero]; positivity, ?_⟩
  rw [abs_zero]
  exact mul_nonpos_of_nonneg_of_nonpos hU.le h3'

end Mg

end Meshless
