import Verif.Model.FloatInterp
import Verif.Lemmas.Cert
import Verif.Lemmas.Interp2
import Mathlib.Algebra.BigOperators.Group.Finset.Basic

/-! Rounding errors of products and of sums, as factors close to 1 on the terms. -/

set_option autoImplicit false

namespace Meshless
open Finset

/-- `ρ` is a product of `k` rounding factors -/
def InR (u : ℝ) (k : ℕ) (ρ : ℝ) : Prop := (1 - u) ^ k ≤ ρ ∧ ρ ≤ ((1 - u)⁻¹) ^ k

/-- `a` is `b` times a product of `k` rounding factors -/
def Fac (u : ℝ) (k : ℕ) (a b : ℝ) : Prop := ∃ ρ, a = b * ρ ∧ InR u k ρ

section
variable {u : ℝ} (h0 : 0 ≤ u) (h1 : u < 1)
include h0 h1

omit h0 in
theorem InR.pos {k : ℕ} {ρ : ℝ} (h : InR u k ρ) : 0 < ρ := (pow_pos (by linarith) k).trans_le h.1

theorem InR.err {k : ℕ} {ρ : ℝ} (h : InR u k ρ) : |ρ - 1| ≤ gam u k := Cert.factor_err h0 h1 h.1 h.2

theorem InR.mono {j k : ℕ} {ρ : ℝ} (hjk : j ≤ k) (h : InR u j ρ) : InR u k ρ :=
  ⟨(pow_le_pow_of_le_one (by linarith) (by linarith) hjk).trans h.1, h.2.trans (pow_le_pow_right₀ (inv_one_le h0 h1) hjk)⟩

omit h1 in
theorem InR.one (h1 : u < 1) (k : ℕ) : InR u k 1 := ⟨pow_le_one₀ (by linarith) (by linarith), one_le_pow₀ (inv_one_le h0 h1)⟩

omit h0 in
theorem InR.mul {j k : ℕ} {ρ σ : ℝ} (h : InR u j ρ) (g : InR u k σ) : InR u (j + k) (ρ * σ) := by
  have hp := h.pos h1
  have hq := g.pos h1
  refine ⟨?_, ?_⟩
  · rw [pow_add]; exact mul_le_mul h.1 g.1 (pow_nonneg (by linarith) k) hp.le
  · rw [pow_add]; exact mul_le_mul h.2 g.2 hq.le (pow_nonneg (inv_nonneg.2 (by linarith)) j)

omit h0 in
theorem InR.inv {k : ℕ} {ρ : ℝ} (h : InR u k ρ) : InR u k ρ⁻¹ := by
  have hp := h.pos h1
  have hb : 0 < (1 - u) ^ k := pow_pos (by linarith) k
  refine ⟨?_, ?_⟩
  · rw [le_inv_comm₀ hb hp, ← inv_pow]; exact h.2
  · rw [inv_pow]; exact inv_anti₀ hb h.1

omit h0 in
/-- the factor of a square root -/
theorem InR.sqrt {k : ℕ} {ρ : ℝ} (h : InR u (2 * k) ρ) : InR u k (Real.sqrt ρ) := by
  have hp := h.pos h1
  refine ⟨?_, ?_⟩
  · refine Real.le_sqrt_of_sq_le ?_
    rw [← pow_mul, mul_comm]; exact h.1
  · rw [Real.sqrt_le_left (pow_nonneg (inv_nonneg.2 (by linarith)) k), ← pow_mul, mul_comm]; exact h.2

theorem Fac.mono {j k : ℕ} {a b : ℝ} (hjk : j ≤ k) (h : Fac u j a b) : Fac u k a b := by
  obtain ⟨ρ, e, r⟩ := h; exact ⟨ρ, e, r.mono h0 h1 hjk⟩

theorem Fac.refl (k : ℕ) (a : ℝ) : Fac u k a a := ⟨1, by ring, InR.one h0 h1 k⟩

theorem Fac.mul {j k : ℕ} {a b c d : ℝ} (h : Fac u j a b) (g : Fac u k c d) : Fac u (j + k) (a * c) (b * d) := by
  obtain ⟨ρ, rfl, r⟩ := h; obtain ⟨σ, rfl, s⟩ := g
  exact ⟨ρ * σ, by ring, r.mul h1 s⟩

theorem Fac.div {j k : ℕ} {a b c d : ℝ} (h : Fac u j a b) (g : Fac u k c d) : Fac u (j + k) (a / c) (b / d) := by
  obtain ⟨ρ, rfl, r⟩ := h; obtain ⟨σ, rfl, s⟩ := g
  exact ⟨ρ * σ⁻¹, by rw [mul_div_mul_comm, div_eq_mul_inv ρ], r.mul h1 (s.inv h1)⟩

/-- sums of numbers of the same sign -/
theorem Fac.add_nonneg {k : ℕ} {a b c d : ℝ} (h : Fac u k a b) (g : Fac u k c d) (hb : 0 ≤ b) (hd : 0 ≤ d) : Fac u k (a + c) (b + d) := by
  obtain ⟨ρ, rfl, r⟩ := h; obtain ⟨σ, rfl, s⟩ := g
  rcases (_root_.add_nonneg hb hd).eq_or_lt with h | h
  · have e1 : b = 0 := by linarith
    have e2 : d = 0 := by linarith
    subst e1; subst e2
    simpa using Fac.refl h0 h1 k 0
  · refine ⟨(b * ρ + d * σ) / (b + d), by field_simp, ?_, ?_⟩
    · rw [le_div_iff₀ h]
      nlinarith [mul_le_mul_of_nonneg_left r.1 hb, mul_le_mul_of_nonneg_left s.1 hd]
    · rw [div_le_iff₀ h]
      nlinarith [mul_le_mul_of_nonneg_left r.2 hb, mul_le_mul_of_nonneg_left s.2 hd]

theorem Fac.sqrt {k : ℕ} {a b : ℝ} (h : Fac u (2 * k) a b) (hb : 0 ≤ b) : Fac u k (Real.sqrt a) (Real.sqrt b) := by
  obtain ⟨ρ, rfl, r⟩ := h
  exact ⟨Real.sqrt ρ, Real.sqrt_mul hb _, r.sqrt h1⟩

theorem Fac.err {k : ℕ} {a b : ℝ} (h : Fac u k a b) : |a - b| ≤ gam u k * |b| := by
  obtain ⟨ρ, rfl, r⟩ := h
  rw [show b * ρ - b = (ρ - 1) * b by ring, abs_mul]
  exact mul_le_mul_of_nonneg_right (r.err h0 h1) (abs_nonneg _)

end

namespace Rounding
variable (R : Rounding)

theorem fl_inR (x : ℝ) : ∃ ρ, R.fl x = x * ρ ∧ InR R.u 1 ρ := by
  have h0 := R.u_nonneg
  have h1 := R.u_lt
  rcases eq_or_ne x 0 with rfl | hx
  · exact ⟨1, by simp [R.fl_zero], InR.one h0 h1 1⟩
  · refine ⟨R.fl x / x, by field_simp, ?_, ?_⟩
    · have h := R.err x
      have h2 : |R.fl x / x - 1| ≤ R.u := by
        rw [show R.fl x / x - 1 = (R.fl x - x) / x by field_simp, abs_div, div_le_iff₀ (abs_pos.2 hx)]; exact h
      rw [pow_one]; linarith [(abs_le.1 h2).1]
    · have h := R.err x
      have h2 : |R.fl x / x - 1| ≤ R.u := by
        rw [show R.fl x / x - 1 = (R.fl x - x) / x by field_simp, abs_div, div_le_iff₀ (abs_pos.2 hx)]; exact h
      rw [pow_one]
      have h3 : 1 + R.u ≤ (1 - R.u)⁻¹ := by
        have := le_gam_one h0 h1; unfold gam at this; rw [pow_one] at this; linarith
      linarith [(abs_le.1 h2).2]

theorem fl_fac {k : ℕ} {a b : ℝ} (h : Fac R.u k a b) : Fac R.u (k + 1) (R.fl a) b := by
  obtain ⟨ρ, rfl, r⟩ := h
  obtain ⟨σ, e, s⟩ := R.fl_inR (b * ρ)
  exact ⟨ρ * σ, by rw [e]; ring, r.mul R.u_lt s⟩

/-! ### the factor loop -/

/-- the factor loop for one query point -/
noncomputable def lagR (x : ℝ) (m : ℕ) (xm : ℝ) : List (ℝ × ℕ) → ℝ → ℝ
  | [], fx => fx
  | (xi, i) :: l, fx => if i ≠ m ∧ R.sub xm xi ≠ 0 then lagR x m xm l (R.mul fx (R.div (R.sub x xi) (R.sub xm xi))) else lagR x m xm l fx

theorem lagLoop_sc (x : ℝ) (m : ℕ) (xm : ℝ) : ∀ (l : List (ℝ × ℕ)) (fx : ℝ), R.lagLoop (.sc x) m xm l (.sc fx) = .ok (.sc (R.lagR x m xm l fx)) := by
  intro l
  induction l with
  | nil => intro fx; rfl
  | cons a l ih =>
    intro fx
    obtain ⟨xi, i⟩ := a
    unfold lagLoop lagR
    by_cases hc : i ≠ m ∧ R.sub xm xi ≠ 0
    · rw [if_pos hc, if_pos hc]
      simp only [Val.lift2, bind, Except.bind]
      exact ih _
    · rw [if_neg hc, if_neg hc]; exact ih _

theorem lagLoop_rep {Q : Type} {q : List Q} {x : Val} {gx : Q → ℝ} (hx : Rep q x gx) (m : ℕ) (xm : ℝ) :
    ∀ (l : List (ℝ × ℕ)) (fx : Val) (g : Q → ℝ), Rep q fx g →
      ∃ r, R.lagLoop x m xm l fx = .ok r ∧ Rep q r (fun p => R.lagR (gx p) m xm l (g p)) := by
  intro l
  induction l with
  | nil => intro fx g h; exact ⟨fx, rfl, h⟩
  | cons a l ih =>
    intro fx g h
    obtain ⟨xi, i⟩ := a
    unfold lagLoop
    by_cases hc : i ≠ m ∧ R.sub xm xi ≠ 0
    · obtain ⟨r1, e1, p1, -⟩ := lift2_rep R.sub hx (rep_const q xi)
      obtain ⟨r2, e2, p2, -⟩ := lift2_rep R.div p1 (rep_const q (R.sub xm xi))
      obtain ⟨r3, e3, p3, -⟩ := lift2_rep R.mul h p2
      obtain ⟨r4, e4, p4⟩ := ih r3 _ p3
      refine ⟨r4, ?_, ?_⟩
      · rw [if_pos hc]; simp only [e1, bind, Except.bind, e2, e3, e4]
      · have : (fun p => R.lagR (gx p) m xm ((xi, i) :: l) (g p)) =
            fun p => R.lagR (gx p) m xm l (R.mul (g p) (R.div (R.sub (gx p) xi) (R.sub xm xi))) := by
          funext p; rw [lagR, if_pos hc]
        rw [this]; exact p4
    · obtain ⟨r4, e4, p4⟩ := ih fx g h
      refine ⟨r4, ?_, ?_⟩
      · rw [if_neg hc]; exact e4
      · have : (fun p => R.lagR (gx p) m xm ((xi, i) :: l) (g p)) = fun p => R.lagR (gx p) m xm l (g p) := by
          funext p; rw [lagR, if_neg hc]
        rw [this]; exact p4

theorem guard_iff (a b : ℝ) : R.sub a b ≠ 0 ↔ a - b ≠ 0 := by unfold Rounding.sub; rw [Ne, R.fl_eq_zero]

theorem lagR_fac (x : ℝ) (m : ℕ) (xm : ℝ) : ∀ (l : List (ℝ × ℕ)) (fx g : ℝ) (k : ℕ), Fac R.u k fx g →
    Fac R.u (k + 4 * l.length) (R.lagR x m xm l fx) (g * lagS x m xm l) := by
  have h0 := R.u_nonneg
  have h1 := R.u_lt
  intro l
  induction l with
  | nil => intro fx g k h; simpa [lagR, lagS] using h
  | cons a l ih =>
    intro fx g k h
    obtain ⟨xi, i⟩ := a
    unfold lagR
    by_cases hc : i ≠ m ∧ R.sub xm xi ≠ 0
    · have hc' : i ≠ m ∧ xm - xi ≠ 0 := ⟨hc.1, (R.guard_iff _ _).1 hc.2⟩
      rw [if_pos hc]
      have e : g * lagS x m xm ((xi, i) :: l) = g * ((x - xi) / (xm - xi)) * lagS x m xm l := by
        simp [lagS, lagFactor, hc']; ring
      rw [e, List.length_cons, show k + 4 * (l.length + 1) = (k + (0 + 1 + (0 + 1) + 1) + 1) + 4 * l.length by ring]
      exact ih _ _ _ (R.fl_fac (h.mul h0 h1 (R.fl_fac ((R.fl_fac (Fac.refl h0 h1 0 _)).div h0 h1 (R.fl_fac (Fac.refl h0 h1 0 _))))))
    · have hc' : ¬ (i ≠ m ∧ xm - xi ≠ 0) := fun h => hc ⟨h.1, (R.guard_iff _ _).2 h.2⟩
      rw [if_neg hc]
      have e : g * lagS x m xm ((xi, i) :: l) = g * lagS x m xm l := by simp [lagS, lagFactor, hc']
      rw [e]
      exact (ih _ _ _ h).mono h0 h1 (by simp)

/-- at its own node every factor is exactly 1 -/
theorem lagR_self (m : ℕ) (xm : ℝ) : ∀ l : List (ℝ × ℕ), R.lagR xm m xm l 1 = 1 := by
  intro l
  induction l with
  | nil => rfl
  | cons a l ih =>
    obtain ⟨xi, i⟩ := a
    unfold lagR
    split_ifs with hc
    · have : R.mul 1 (R.div (R.sub xm xi) (R.sub xm xi)) = 1 := by
        unfold Rounding.mul Rounding.div
        rw [div_self hc.2, R.fl_one, one_mul, R.fl_one]
      rw [this]; exact ih
    · exact ih

theorem lagR_zero (x : ℝ) (m : ℕ) (xm : ℝ) : ∀ l : List (ℝ × ℕ), R.lagR x m xm l 0 = 0 := by
  intro l
  induction l with
  | nil => rfl
  | cons a l ih =>
    obtain ⟨xi, i⟩ := a
    unfold lagR
    have : ∀ t, R.mul 0 t = 0 := fun t => by unfold Rounding.mul; rw [zero_mul, R.fl_zero]
    rw [this]
    split_ifs <;> exact ih

/-- at another node one factor is exactly 0 -/
theorem lagR_other {x : ℝ} {m k : ℕ} {xm : ℝ} (hk : k ≠ m) (hx : x ≠ xm) : ∀ (l : List (ℝ × ℕ)) (fx : ℝ), (x, k) ∈ l → R.lagR x m xm l fx = 0 := by
  intro l
  induction l with
  | nil => intro fx h; simp at h
  | cons a l ih =>
    intro fx h
    obtain ⟨xi, i⟩ := a
    unfold lagR
    rcases List.mem_cons.1 h with h | h
    · obtain ⟨rfl, rfl⟩ := Prod.mk.inj h
      rw [if_pos ⟨hk, (R.guard_iff _ _).2 (sub_ne_zero.2 hx.symm)⟩]
      have : R.mul fx (R.div (R.sub x x) (R.sub xm x)) = 0 := by
        unfold Rounding.mul Rounding.div Rounding.sub
        rw [sub_self, R.fl_zero, zero_div, R.fl_zero, mul_zero, R.fl_zero]
      rw [this]; exact R.lagR_zero _ _ _ _
    · split_ifs <;> exact ih _ h

end Rounding

/-! ### accumulation -/

/-- An accumulation `F` of the terms `t i`, `i ∈ s`: the result is the start value and the terms, each with rounding factors. -/
def Bs {ι : Type} (u : ℝ) (c0 c : ℕ) (s : Finset ι) (t : ι → ℝ) (F : ℝ → ℝ) : Prop :=
  ∀ acc, ∃ (ρ0 : ℝ) (ρ : ι → ℝ), F acc = acc * ρ0 + ∑ i ∈ s, t i * ρ i ∧ InR u c ρ0 ∧ ∀ i, InR u (c0 + c) (ρ i)

section
variable {ι : Type} {u : ℝ} (h0 : 0 ≤ u) (h1 : u < 1) {c0 : ℕ} {t : ι → ℝ}
include h0 h1

theorem Bs.id : Bs u c0 0 ∅ t fun a => a := fun acc => ⟨1, fun _ => 1, by simp, InR.one h0 h1 _, fun _ => InR.one h0 h1 _⟩

theorem Bs.comp [DecidableEq ι] {c c' : ℕ} {s s' : Finset ι} {F G : ℝ → ℝ} (hF : Bs u c0 c s t F) (hG : Bs u c0 c' s' t G) (hd : Disjoint s s') :
    Bs u c0 (c + c') (s ∪ s') t fun a => G (F a) := by
  intro acc
  obtain ⟨ρ0, ρ, e, r0, r⟩ := hF acc
  obtain ⟨σ0, σ, f, s0, sr⟩ := hG (F acc)
  refine ⟨ρ0 * σ0, fun i => if i ∈ s then ρ i * σ0 else σ i, ?_, r0.mul h1 s0, fun i => ?_⟩
  · beta_reduce
    rw [f, e, sum_union hd, add_mul, sum_mul]
    have e1 : ∑ i ∈ s, t i * (if i ∈ s then ρ i * σ0 else σ i) = ∑ i ∈ s, t i * ρ i * σ0 :=
      sum_congr rfl fun i hi => by rw [if_pos hi]; ring
    have e2 : ∑ i ∈ s', t i * (if i ∈ s then ρ i * σ0 else σ i) = ∑ i ∈ s', t i * σ i :=
      sum_congr rfl fun i hi => by rw [if_neg (disjoint_right.1 hd hi)]
    rw [e1, e2]; ring
  · beta_reduce
    split_ifs
    · rw [← add_assoc]; exact (r i).mul h1 s0
    · exact (sr i).mono h0 h1 (by omega)

end

/-- one addition -/
theorem Rounding.bs_add (R : Rounding) {ι : Type} {c0 : ℕ} {t : ι → ℝ} (i : ι) {τ : ℝ} (h : Fac R.u c0 τ (t i)) : Bs R.u c0 1 {i} t fun a => R.add a τ := by
  intro acc
  obtain ⟨σ, e, s⟩ := R.fl_inR (acc + τ)
  obtain ⟨ρ, rfl, r⟩ := h
  refine ⟨σ, fun _ => ρ * σ, ?_, s, fun _ => r.mul R.u_lt s⟩
  rw [sum_singleton]
  show R.fl _ = _
  rw [e]; ring

theorem zipIdx_nodup (l : List ℝ) : l.zipIdx.Nodup := by
  apply List.Nodup.of_map Prod.snd
  rw [List.zipIdx_map_snd]
  exact List.nodup_range'

theorem sum_nodup {α : Type} [DecidableEq α] {l : List α} (h : l.Nodup) (f : α → ℝ) : (l.map f).sum = ∑ a ∈ l.toFinset, f a := (List.sum_toFinset f h).symm

namespace Rounding
variable (R : Rounding)

/-! ### two dimensions -/

/-- the `n` loop for one query point -/
noncomputable def innerR (y : ℝ) (ys : List ℝ) (fld : ℕ → ℕ → ℝ) (fx : ℝ) (m : ℕ) : List (ℝ × ℕ) → ℝ → ℝ
  | [], f => f
  | (yn, n) :: l, f => innerR y ys fld fx m l (R.add f (R.mul (R.mul fx (R.lagR y n yn ys.zipIdx 1)) (fld m n)))

/-- the `m` loop for one query point -/
noncomputable def outerR (x y : ℝ) (xs ys : List ℝ) (fld : ℕ → ℕ → ℝ) : List (ℝ × ℕ) → ℝ → ℝ
  | [], f => f
  | (xm, m) :: l, f => outerR x y xs ys fld l (R.innerR y ys fld (R.lagR x m xm xs.zipIdx 1) m ys.zipIdx f)

theorem inner_sc (y : ℝ) (ys : List ℝ) (fld : ℕ → ℕ → ℝ) (fx : ℝ) (m : ℕ) : ∀ (l : List (ℝ × ℕ)) (f : ℝ),
    R.interp2Inner (.sc y) ys fld (.sc fx) m l (.sc f) = .ok (.sc (R.innerR y ys fld fx m l f)) := by
  intro l
  induction l with
  | nil => intro f; rfl
  | cons a l ih =>
    intro f
    obtain ⟨yn, n⟩ := a
    unfold interp2Inner innerR
    simp only [R.lagLoop_sc, Val.lift2, bind, Except.bind]
    exact ih _

theorem outer_sc (x y : ℝ) (xs ys : List ℝ) (fld : ℕ → ℕ → ℝ) : ∀ (l : List (ℝ × ℕ)) (f : ℝ),
    R.interp2Outer (.sc x) (.sc y) xs ys fld l (.sc f) = .ok (.sc (R.outerR x y xs ys fld l f)) := by
  intro l
  induction l with
  | nil => intro f; rfl
  | cons a l ih =>
    intro f
    obtain ⟨xm, m⟩ := a
    unfold interp2Outer outerR
    simp only [R.lagLoop_sc, R.inner_sc, bind, Except.bind]
    exact ih _

theorem interp2_sc (x y : ℝ) (xs ys : List ℝ) (field : Arr) (hs : field.shape = [xs.length, ys.length]) :
    R.interp2 (.sc x) (.sc y) xs ys field = .ok (.sc (R.outerR x y xs ys (fun m n => field.get [m, n]) xs.zipIdx 0)) := by
  unfold interp2; rw [hs]
  simp only [if_true]
  exact R.outer_sc _ _ _ _ _ _ _

theorem inner_rep {Q : Type} {q : List Q} {y : Val} {gy : Q → ℝ} (hy : Rep q y gy) (ys : List ℝ) (fld : ℕ → ℕ → ℝ)
    {fx : Val} {gfx : Q → ℝ} (hfx : Rep q fx gfx) (m : ℕ) : ∀ (l : List (ℝ × ℕ)) (field : Val) (g : Q → ℝ), Rep q field g →
      ∃ r, R.interp2Inner y ys fld fx m l field = .ok r ∧ Rep q r (fun p => R.innerR (gy p) ys fld (gfx p) m l (g p)) := by
  intro l
  induction l with
  | nil => intro field g h; exact ⟨field, rfl, h⟩
  | cons a l ih =>
    intro field g h
    obtain ⟨yn, n⟩ := a
    obtain ⟨r0, e0, p0⟩ := R.lagLoop_rep hy n yn ys.zipIdx (.sc 1) _ (rep_const q 1)
    obtain ⟨r1, e1, p1, -⟩ := lift2_rep R.mul hfx p0
    obtain ⟨r2, e2, p2, -⟩ := lift2_rep R.mul p1 (rep_const q (fld m n))
    obtain ⟨r3, e3, p3, -⟩ := lift2_rep R.add h p2
    obtain ⟨r4, e4, p4⟩ := ih r3 _ p3
    refine ⟨r4, ?_, p4⟩
    unfold interp2Inner
    simp only [e0, bind, Except.bind, e1, e2, e3, e4]

theorem outer_rep {Q : Type} {q : List Q} {x y : Val} {gx gy : Q → ℝ} (hx : Rep q x gx) (hy : Rep q y gy) (xs ys : List ℝ) (fld : ℕ → ℕ → ℝ) :
    ∀ (l : List (ℝ × ℕ)) (field : Val) (g : Q → ℝ), Rep q field g →
      ∃ r, R.interp2Outer x y xs ys fld l field = .ok r ∧ Rep q r (fun p => R.outerR (gx p) (gy p) xs ys fld l (g p)) := by
  intro l
  induction l with
  | nil => intro field g h; exact ⟨field, rfl, h⟩
  | cons a l ih =>
    intro field g h
    obtain ⟨xm, m⟩ := a
    obtain ⟨r0, e0, p0⟩ := R.lagLoop_rep hx m xm xs.zipIdx (.sc 1) _ (rep_const q 1)
    obtain ⟨r1, e1, p1⟩ := R.inner_rep hy ys fld p0 m ys.zipIdx field g h
    obtain ⟨r4, e4, p4⟩ := ih r1 _ p1
    refine ⟨r4, ?_, p4⟩
    unfold interp2Outer
    simp only [e0, bind, Except.bind, e1, e4]

/-- the terms of the two-dimensional sum, by pairs of enumerated nodes -/
noncomputable def term2 (x y : ℝ) (xs ys : List ℝ) (fld : ℕ → ℕ → ℝ) (p : (ℝ × ℕ) × (ℝ × ℕ)) : ℝ :=
  lagS x p.1.2 p.1.1 xs.zipIdx * lagS y p.2.2 p.2.1 ys.zipIdx * fld p.1.2 p.2.2

theorem inner_bs (x y : ℝ) (xs ys : List ℝ) (fld : ℕ → ℕ → ℝ) (b : ℝ × ℕ) : ∀ l : List (ℝ × ℕ), l.Nodup →
    Bs R.u (4 * xs.length + 4 * ys.length + 2) l.length ({b} ×ˢ l.toFinset) (term2 x y xs ys fld)
      (R.innerR y ys fld (R.lagR x b.2 b.1 xs.zipIdx 1) b.2 l) := by
  have h0 := R.u_nonneg
  have h1 := R.u_lt
  intro l
  induction l with
  | nil => intro _; simp only [List.toFinset_nil, product_empty, List.length_nil]; exact Bs.id h0 h1
  | cons a l ih =>
    intro hl
    rw [List.nodup_cons] at hl
    have hx := R.lagR_fac x b.2 b.1 xs.zipIdx 1 1 0 (Fac.refl h0 h1 _ _)
    have hy := R.lagR_fac y a.2 a.1 ys.zipIdx 1 1 0 (Fac.refl h0 h1 _ _)
    have ht := R.fl_fac ((R.fl_fac (hx.mul h0 h1 hy)).mul h0 h1 (Fac.refl h0 h1 0 (fld b.2 a.2)))
    rw [one_mul, one_mul, List.length_zipIdx, List.length_zipIdx] at ht
    have ht' : Fac R.u (4 * xs.length + 4 * ys.length + 2) (R.mul (R.mul (R.lagR x b.2 b.1 xs.zipIdx 1) (R.lagR y a.2 a.1 ys.zipIdx 1)) (fld b.2 a.2))
        (term2 x y xs ys fld (b, a)) := ht.mono h0 h1 (by omega)
    have := (R.bs_add (t := term2 x y xs ys fld) (b, a) ht').comp h0 h1 (ih hl.2) (by
      simp [hl.1])
    rw [show ({b} ×ˢ (a :: l).toFinset : Finset ((ℝ × ℕ) × (ℝ × ℕ))) = {(b, a)} ∪ {b} ×ˢ l.toFinset by
      rw [List.toFinset_cons, insert_eq, product_union, singleton_product_singleton], List.length_cons, add_comm l.length 1]
    exact this

theorem outer_bs (x y : ℝ) (xs ys : List ℝ) (fld : ℕ → ℕ → ℝ) : ∀ l : List (ℝ × ℕ), l.Nodup →
    Bs R.u (4 * xs.length + 4 * ys.length + 2) (l.length * ys.length) (l.toFinset ×ˢ ys.zipIdx.toFinset) (term2 x y xs ys fld)
      (R.outerR x y xs ys fld l) := by
  have h0 := R.u_nonneg
  have h1 := R.u_lt
  intro l
  induction l with
  | nil => intro _; simp only [List.toFinset_nil, empty_product, List.length_nil, zero_mul]; exact Bs.id h0 h1
  | cons b l ih =>
    intro hl
    rw [List.nodup_cons] at hl
    have := (R.inner_bs x y xs ys fld b ys.zipIdx (zipIdx_nodup ys)).comp h0 h1 (ih hl.2) (by
      rw [disjoint_left]; rintro ⟨p, r⟩ h h'
      rw [mem_product] at h h'
      obtain rfl := mem_singleton.1 h.1
      exact hl.1 (List.mem_toFinset.1 h'.1))
    rw [show ((b :: l).toFinset ×ˢ ys.zipIdx.toFinset : Finset ((ℝ × ℕ) × (ℝ × ℕ))) = {b} ×ˢ ys.zipIdx.toFinset ∪ l.toFinset ×ˢ ys.zipIdx.toFinset by
      rw [List.toFinset_cons, insert_eq, union_product], List.length_cons, Nat.add_mul, one_mul, add_comm (l.length * ys.length)]
    rw [List.length_zipIdx] at this
    exact this

theorem zipIdx_mem {l : List ℝ} {a : ℝ × ℕ} (h : a ∈ l.zipIdx) : a = (l.getD a.2 0, a.2) := by
  obtain ⟨v, i⟩ := a
  have := List.mem_zipIdx' h
  simp only [Prod.mk.injEq, and_true]
  rw [this.2]; simp [List.getD, this.1]

/-- the value computed for one query point is the exact value for a nearby field -/
theorem interp2_back (x y : ℝ) (xs ys : List ℝ) (fld : ℕ → ℕ → ℝ) : ∃ ρ : ℕ → ℕ → ℝ,
    (∀ m n, InR R.u (4 * xs.length + 4 * ys.length + 2 + xs.length * ys.length) (ρ m n)) ∧
    R.outerR x y xs ys fld xs.zipIdx 0 = interp2S x y xs ys fun m n => fld m n * ρ m n := by
  obtain ⟨ρ0, ρ, e, r0, r⟩ := R.outer_bs x y xs ys fld xs.zipIdx (zipIdx_nodup xs) 0
  rw [List.length_zipIdx] at r
  refine ⟨fun m n => ρ ((xs.getD m 0, m), (ys.getD n 0, n)), fun m n => r _, ?_⟩
  rw [e, zero_mul, zero_add, sum_product]
  unfold interp2S
  rw [sum_nodup (zipIdx_nodup xs)]
  refine sum_congr rfl fun b hb => ?_
  rw [sum_nodup (zipIdx_nodup ys)]
  refine sum_congr rfl fun a ha => ?_
  beta_reduce
  rw [← zipIdx_mem (List.mem_toFinset.1 hb), ← zipIdx_mem (List.mem_toFinset.1 ha)]
  unfold term2; ring

/-! ### three dimensions -/

/-- the `p` loop for one query point -/
noncomputable def pR (z : ℝ) (ys : List ℝ) (fld : ℕ → ℕ → ℕ → ℝ) (fx fy : ℝ) (m n : ℕ) : List (ℝ × ℕ) → ℝ → ℝ
  | [], f => f
  | (zp, p) :: l, f => pR z ys fld fx fy m n l (R.add f (R.mul (R.mul (R.mul fx fy) (R.lagR z p zp ys.zipIdx 1)) (fld m n p)))

/-- the `n` loop for one query point -/
noncomputable def nR (y z : ℝ) (ys zs : List ℝ) (fld : ℕ → ℕ → ℕ → ℝ) (fx : ℝ) (m : ℕ) : List (ℝ × ℕ) → ℝ → ℝ
  | [], f => f
  | (yn, n) :: l, f => nR y z ys zs fld fx m l (R.pR z ys fld fx (R.lagR y n yn ys.zipIdx 1) m n zs.zipIdx f)

/-- the `m` loop for one query point -/
noncomputable def mR (x y z : ℝ) (xs ys zs : List ℝ) (fld : ℕ → ℕ → ℕ → ℝ) : List (ℝ × ℕ) → ℝ → ℝ
  | [], f => f
  | (xm, m) :: l, f => mR x y z xs ys zs fld l (R.nR y z ys zs fld (R.lagR x m xm xs.zipIdx 1) m ys.zipIdx f)

theorem p_sc (z : ℝ) (ys : List ℝ) (fld : ℕ → ℕ → ℕ → ℝ) (fx fy : ℝ) (m n : ℕ) : ∀ (l : List (ℝ × ℕ)) (f : ℝ),
    R.interp3P (.sc z) ys fld (.sc fx) (.sc fy) m n l (.sc f) = .ok (.sc (R.pR z ys fld fx fy m n l f)) := by
  intro l
  induction l with
  | nil => intro f; rfl
  | cons a l ih =>
    intro f
    obtain ⟨zp, p⟩ := a
    unfold interp3P pR
    simp only [R.lagLoop_sc, Val.lift2, bind, Except.bind]
    exact ih _

theorem n_sc (y z : ℝ) (ys zs : List ℝ) (fld : ℕ → ℕ → ℕ → ℝ) (fx : ℝ) (m : ℕ) : ∀ (l : List (ℝ × ℕ)) (f : ℝ),
    R.interp3N (.sc y) (.sc z) ys zs fld (.sc fx) m l (.sc f) = .ok (.sc (R.nR y z ys zs fld fx m l f)) := by
  intro l
  induction l with
  | nil => intro f; rfl
  | cons a l ih =>
    intro f
    obtain ⟨yn, n⟩ := a
    unfold interp3N nR
    simp only [R.lagLoop_sc, R.p_sc, bind, Except.bind]
    exact ih _

theorem m_sc (x y z : ℝ) (xs ys zs : List ℝ) (fld : ℕ → ℕ → ℕ → ℝ) : ∀ (l : List (ℝ × ℕ)) (f : ℝ),
    R.interp3M (.sc x) (.sc y) (.sc z) xs ys zs fld l (.sc f) = .ok (.sc (R.mR x y z xs ys zs fld l f)) := by
  intro l
  induction l with
  | nil => intro f; rfl
  | cons a l ih =>
    intro f
    obtain ⟨xm, m⟩ := a
    unfold interp3M mR
    simp only [R.lagLoop_sc, R.n_sc, bind, Except.bind]
    exact ih _

theorem interp3_sc (x y z : ℝ) (xs ys zs : List ℝ) (field : Arr) (hs : field.shape = [xs.length, ys.length, zs.length]) :
    R.interp3 (.sc x) (.sc y) (.sc z) xs ys zs field = .ok (.sc (R.mR x y z xs ys zs (fun m n p => field.get [m, n, p]) xs.zipIdx 0)) := by
  unfold interp3; rw [hs]
  simp only [if_true]
  exact R.m_sc _ _ _ _ _ _ _ _ _

/-- the terms of the three-dimensional sum -/
noncomputable def term3 (x y z : ℝ) (xs ys : List ℝ) (fld : ℕ → ℕ → ℕ → ℝ) (p : (ℝ × ℕ) × (ℝ × ℕ) × (ℝ × ℕ)) : ℝ :=
  lagS x p.1.2 p.1.1 xs.zipIdx * lagS y p.2.1.2 p.2.1.1 ys.zipIdx * lagS z p.2.2.2 p.2.2.1 ys.zipIdx * fld p.1.2 p.2.1.2 p.2.2.2

theorem p_bs (x y z : ℝ) (xs ys : List ℝ) (fld : ℕ → ℕ → ℕ → ℝ) (c b : ℝ × ℕ) : ∀ l : List (ℝ × ℕ), l.Nodup →
    Bs R.u (4 * xs.length + 8 * ys.length + 3) l.length ({c} ×ˢ {b} ×ˢ l.toFinset) (term3 x y z xs ys fld)
      (R.pR z ys fld (R.lagR x c.2 c.1 xs.zipIdx 1) (R.lagR y b.2 b.1 ys.zipIdx 1) c.2 b.2 l) := by
  have h0 := R.u_nonneg
  have h1 := R.u_lt
  intro l
  induction l with
  | nil => intro _; simp only [List.toFinset_nil, product_empty, List.length_nil]; exact Bs.id h0 h1
  | cons a l ih =>
    intro hl
    rw [List.nodup_cons] at hl
    have hx := R.lagR_fac x c.2 c.1 xs.zipIdx 1 1 0 (Fac.refl h0 h1 _ _)
    have hy := R.lagR_fac y b.2 b.1 ys.zipIdx 1 1 0 (Fac.refl h0 h1 _ _)
    have hz := R.lagR_fac z a.2 a.1 ys.zipIdx 1 1 0 (Fac.refl h0 h1 _ _)
    have ht := R.fl_fac ((R.fl_fac ((R.fl_fac (hx.mul h0 h1 hy)).mul h0 h1 hz)).mul h0 h1 (Fac.refl h0 h1 0 (fld c.2 b.2 a.2)))
    rw [one_mul, one_mul, one_mul, List.length_zipIdx, List.length_zipIdx] at ht
    have ht' : Fac R.u (4 * xs.length + 8 * ys.length + 3) (R.mul (R.mul (R.mul (R.lagR x c.2 c.1 xs.zipIdx 1) (R.lagR y b.2 b.1 ys.zipIdx 1))
        (R.lagR z a.2 a.1 ys.zipIdx 1)) (fld c.2 b.2 a.2)) (term3 x y z xs ys fld (c, b, a)) := ht.mono h0 h1 (by omega)
    have := (R.bs_add (t := term3 x y z xs ys fld) (c, b, a) ht').comp h0 h1 (ih hl.2) (by simp [hl.1])
    rw [show ({c} ×ˢ {b} ×ˢ (a :: l).toFinset : Finset ((ℝ × ℕ) × (ℝ × ℕ) × (ℝ × ℕ))) = {(c, b, a)} ∪ {c} ×ˢ {b} ×ˢ l.toFinset by
      rw [List.toFinset_cons, insert_eq, product_union, product_union, singleton_product_singleton, singleton_product_singleton],
      List.length_cons, add_comm l.length 1]
    exact this

theorem n_bs (x y z : ℝ) (xs ys zs : List ℝ) (fld : ℕ → ℕ → ℕ → ℝ) (c : ℝ × ℕ) : ∀ l : List (ℝ × ℕ), l.Nodup →
    Bs R.u (4 * xs.length + 8 * ys.length + 3) (l.length * zs.length) ({c} ×ˢ l.toFinset ×ˢ zs.zipIdx.toFinset) (term3 x y z xs ys fld)
      (R.nR y z ys zs fld (R.lagR x c.2 c.1 xs.zipIdx 1) c.2 l) := by
  have h0 := R.u_nonneg
  have h1 := R.u_lt
  intro l
  induction l with
  | nil => intro _; simp only [List.toFinset_nil, empty_product, product_empty, List.length_nil, zero_mul]; exact Bs.id h0 h1
  | cons b l ih =>
    intro hl
    rw [List.nodup_cons] at hl
    have := (R.p_bs x y z xs ys fld c b zs.zipIdx (zipIdx_nodup zs)).comp h0 h1 (ih hl.2) (by
      rw [disjoint_left]; rintro ⟨p, r, q⟩ h h'
      simp only [mem_product, mem_singleton, List.mem_toFinset] at h h'
      obtain rfl := h.2.1
      exact hl.1 h'.2.1)
    rw [show ({c} ×ˢ (b :: l).toFinset ×ˢ zs.zipIdx.toFinset : Finset ((ℝ × ℕ) × (ℝ × ℕ) × (ℝ × ℕ))) =
        {c} ×ˢ {b} ×ˢ zs.zipIdx.toFinset ∪ {c} ×ˢ l.toFinset ×ˢ zs.zipIdx.toFinset by
      rw [List.toFinset_cons, insert_eq, union_product, product_union], List.length_cons, Nat.add_mul, one_mul, add_comm (l.length * zs.length)]
    rw [List.length_zipIdx] at this
    exact this

theorem m_bs (x y z : ℝ) (xs ys zs : List ℝ) (fld : ℕ → ℕ → ℕ → ℝ) : ∀ l : List (ℝ × ℕ), l.Nodup →
    Bs R.u (4 * xs.length + 8 * ys.length + 3) (l.length * (ys.length * zs.length)) (l.toFinset ×ˢ ys.zipIdx.toFinset ×ˢ zs.zipIdx.toFinset)
      (term3 x y z xs ys fld) (R.mR x y z xs ys zs fld l) := by
  have h0 := R.u_nonneg
  have h1 := R.u_lt
  intro l
  induction l with
  | nil => intro _; simp only [List.toFinset_nil, empty_product, List.length_nil, zero_mul]; exact Bs.id h0 h1
  | cons c l ih =>
    intro hl
    rw [List.nodup_cons] at hl
    have := (R.n_bs x y z xs ys zs fld c ys.zipIdx (zipIdx_nodup ys)).comp h0 h1 (ih hl.2) (by
      rw [disjoint_left]; rintro ⟨p, r⟩ h h'
      rw [mem_product] at h h'
      obtain rfl := mem_singleton.1 h.1
      exact hl.1 (List.mem_toFinset.1 h'.1))
    rw [show ((c :: l).toFinset ×ˢ ys.zipIdx.toFinset ×ˢ zs.zipIdx.toFinset : Finset ((ℝ × ℕ) × (ℝ × ℕ) × (ℝ × ℕ))) =
        {c} ×ˢ ys.zipIdx.toFinset ×ˢ zs.zipIdx.toFinset ∪ l.toFinset ×ˢ ys.zipIdx.toFinset ×ˢ zs.zipIdx.toFinset by
      rw [List.toFinset_cons, insert_eq, union_product], List.length_cons, Nat.add_mul, one_mul, add_comm (l.length * (ys.length * zs.length))]
    rw [List.length_zipIdx] at this
    exact this

theorem interp3_back (x y z : ℝ) (xs ys zs : List ℝ) (fld : ℕ → ℕ → ℕ → ℝ) : ∃ ρ : ℕ → ℕ → ℕ → ℝ,
    (∀ m n p, InR R.u (4 * xs.length + 8 * ys.length + 3 + xs.length * (ys.length * zs.length)) (ρ m n p)) ∧
    R.mR x y z xs ys zs fld xs.zipIdx 0 = interp3S x y z xs ys zs fun m n p => fld m n p * ρ m n p := by
  obtain ⟨ρ0, ρ, e, r0, r⟩ := R.m_bs x y z xs ys zs fld xs.zipIdx (zipIdx_nodup xs) 0
  rw [List.length_zipIdx] at r
  refine ⟨fun m n p => ρ ((xs.getD m 0, m), (ys.getD n 0, n), (zs.getD p 0, p)), fun m n p => r _, ?_⟩
  rw [e, zero_mul, zero_add, sum_product]
  unfold interp3S
  rw [sum_nodup (zipIdx_nodup xs)]
  refine sum_congr rfl fun c hc => ?_
  rw [sum_nodup (zipIdx_nodup ys), sum_product]
  refine sum_congr rfl fun b hb => ?_
  rw [sum_nodup (zipIdx_nodup zs)]
  refine sum_congr rfl fun a ha => ?_
  beta_reduce
  rw [← zipIdx_mem (List.mem_toFinset.1 hc), ← zipIdx_mem (List.mem_toFinset.1 hb), ← zipIdx_mem (List.mem_toFinset.1 ha)]
  unfold term3; ring

/-! ### at the nodes -/

theorem mul_zero_left (a : ℝ) : R.mul 0 a = 0 := by unfold Rounding.mul; rw [zero_mul, R.fl_zero]
theorem mul_zero_right (a : ℝ) : R.mul a 0 = 0 := by unfold Rounding.mul; rw [mul_zero, R.fl_zero]

/-- adding exact zeros does not change a float -/
theorem inner_zero (y : ℝ) (ys : List ℝ) (fld : ℕ → ℕ → ℝ) (m : ℕ) : ∀ (l : List (ℝ × ℕ)) (f : ℝ), R.fl f = f → R.innerR y ys fld 0 m l f = f := by
  intro l
  induction l with
  | nil => intro f _; rfl
  | cons a l ih =>
    intro f hf
    unfold innerR
    rw [R.mul_zero_left, R.mul_zero_left]
    unfold Rounding.add
    rw [add_zero, hf]; exact ih f hf

theorem inner_skip {y : ℝ} {ys : List ℝ} (hy : ys.Nodup) {n : ℕ} (hn : n < ys.length) (hyn : y = ys[n]) (fld : ℕ → ℕ → ℝ) (fx : ℝ) (m : ℕ) :
    ∀ (l : List (ℝ × ℕ)) (f : ℝ), R.fl f = f → (∀ a ∈ l, a ∈ ys.zipIdx) → (∀ a ∈ l, a.2 ≠ n) → R.innerR y ys fld fx m l f = f := by
  intro l
  induction l with
  | nil => intro f _ _ _; rfl
  | cons a l ih =>
    intro f hf h1 h2
    obtain ⟨yn, k⟩ := a
    unfold innerR
    have hk := h2 _ List.mem_cons_self
    have hm := List.mem_zipIdx' (h1 _ List.mem_cons_self)
    have h0 : R.lagR y k yn ys.zipIdx 1 = 0 := by
      refine R.lagR_other (k := n) (fun h => hk h.symm) ?_ _ _ ?_
      · rw [hyn, hm.2]; exact fun h => hk ((List.Nodup.getElem_inj_iff hy).1 h).symm
      · rw [hyn]; exact List.mem_zipIdx_iff_getElem?.2 (by simp [hn])
    rw [h0, R.mul_zero_right, R.mul_zero_left]
    unfold Rounding.add
    rw [add_zero, hf]
    exact ih f hf (fun a h => h1 a (List.mem_cons_of_mem _ h)) fun a h => h2 a (List.mem_cons_of_mem _ h)

theorem inner_node {y : ℝ} {ys : List ℝ} (hy : ys.Nodup) {n : ℕ} (hn : n < ys.length) (hyn : y = ys[n]) (fld : ℕ → ℕ → ℝ) (m : ℕ) :
    ∀ l : List (ℝ × ℕ), (∀ a ∈ l, a ∈ ys.zipIdx) → (l.map Prod.snd).Nodup → n ∈ l.map Prod.snd → R.innerR y ys fld 1 m l 0 = R.fl (fld m n) := by
  intro l
  induction l with
  | nil => intro _ _ h; simp at h
  | cons a l ih =>
    intro h1 h2 h3
    rw [List.map_cons, List.nodup_cons] at h2
    have hm := List.mem_zipIdx' (h1 _ List.mem_cons_self)
    obtain ⟨yn, k⟩ := a
    by_cases hk : k = n
    · subst hk
      unfold innerR
      have e : yn = y := by rw [hyn]; exact hm.2
      subst e
      rw [R.lagR_self]
      have e2 : R.add 0 (R.mul (R.mul 1 1) (fld m k)) = R.fl (fld m k) := by
        unfold Rounding.add Rounding.mul
        rw [one_mul, R.fl_one, one_mul, zero_add, R.idem]
      rw [e2]
      exact R.inner_skip hy hn hyn fld 1 m l _ (R.idem _) (fun a h => h1 a (List.mem_cons_of_mem _ h)) fun a h h' =>
        h2.1 (List.mem_map.2 ⟨a, h, h'⟩)
    · have e := R.inner_skip hy hn hyn fld 1 m [(yn, k)] 0 R.fl_zero (fun a h => h1 a (by simp at h; simp [h])) (fun a h => by simp at h; rw [h]; exact hk)
      have e' : R.innerR y ys fld 1 m ((yn, k) :: l) 0 = R.innerR y ys fld 1 m l (R.innerR y ys fld 1 m [(yn, k)] 0) := rfl
      rw [e', e]
      refine ih (fun a h => h1 a (List.mem_cons_of_mem _ h)) h2.2 ?_
      rw [List.map_cons, List.mem_cons] at h3
      exact h3.resolve_left fun h => hk h.symm

theorem outer_skip {x : ℝ} {xs : List ℝ} (hx : xs.Nodup) {m : ℕ} (hm : m < xs.length) (hxm : x = xs[m]) (y : ℝ) (ys : List ℝ) (fld : ℕ → ℕ → ℝ) :
    ∀ (l : List (ℝ × ℕ)) (f : ℝ), R.fl f = f → (∀ a ∈ l, a ∈ xs.zipIdx) → (∀ a ∈ l, a.2 ≠ m) → R.outerR x y xs ys fld l f = f := by
  intro l
  induction l with
  | nil => intro f _ _ _; rfl
  | cons a l ih =>
    intro f hf h1 h2
    obtain ⟨xn, k⟩ := a
    unfold outerR
    have hk := h2 _ List.mem_cons_self
    have hk' := List.mem_zipIdx' (h1 _ List.mem_cons_self)
    have h0 : R.lagR x k xn xs.zipIdx 1 = 0 := by
      refine R.lagR_other (k := m) (fun h => hk h.symm) ?_ _ _ ?_
      · rw [hxm, hk'.2]; exact fun h => hk ((List.Nodup.getElem_inj_iff hx).1 h).symm
      · rw [hxm]; exact List.mem_zipIdx_iff_getElem?.2 (by simp [hm])
    rw [h0, R.inner_zero _ _ _ _ _ _ hf]
    exact ih f hf (fun a h => h1 a (List.mem_cons_of_mem _ h)) fun a h => h2 a (List.mem_cons_of_mem _ h)

theorem zipIdx_snd (l : List ℝ) : (l.zipIdx.map Prod.snd).Nodup := by rw [List.zipIdx_map_snd]; exact List.nodup_range'

theorem zipIdx_snd_mem {l : List ℝ} {n : ℕ} (h : n < l.length) : n ∈ l.zipIdx.map Prod.snd := by
  rw [List.zipIdx_map_snd]; simp [h]

theorem outer_node {x y : ℝ} {xs ys : List ℝ} (hx : xs.Nodup) (hy : ys.Nodup) {m n : ℕ} (hm : m < xs.length) (hn : n < ys.length) (hxm : x = xs[m])
    (hyn : y = ys[n]) (fld : ℕ → ℕ → ℝ) :
    ∀ l : List (ℝ × ℕ), (∀ a ∈ l, a ∈ xs.zipIdx) → (l.map Prod.snd).Nodup → m ∈ l.map Prod.snd → R.outerR x y xs ys fld l 0 = R.fl (fld m n) := by
  intro l
  induction l with
  | nil => intro _ _ h; simp at h
  | cons a l ih =>
    intro h1 h2 h3
    rw [List.map_cons, List.nodup_cons] at h2
    have hm' := List.mem_zipIdx' (h1 _ List.mem_cons_self)
    obtain ⟨xn, k⟩ := a
    by_cases hk : k = m
    · subst hk
      unfold outerR
      have e : xn = x := by rw [hxm]; exact hm'.2
      subst e
      rw [R.lagR_self, R.inner_node hy hn hyn fld k ys.zipIdx (fun _ h => h) (zipIdx_snd ys) (zipIdx_snd_mem hn)]
      exact R.outer_skip hx hm hxm y ys fld l _ (R.idem _) (fun a h => h1 a (List.mem_cons_of_mem _ h)) fun a h h' =>
        h2.1 (List.mem_map.2 ⟨a, h, h'⟩)
    · have e := R.outer_skip hx hm hxm y ys fld [(xn, k)] 0 R.fl_zero (fun a h => h1 a (by simp at h; simp [h])) (fun a h => by simp at h; rw [h]; exact hk)
      have e' : R.outerR x y xs ys fld ((xn, k) :: l) 0 = R.outerR x y xs ys fld l (R.outerR x y xs ys fld [(xn, k)] 0) := rfl
      rw [e', e]
      refine ih (fun a h => h1 a (List.mem_cons_of_mem _ h)) h2.2 ?_
      rw [List.map_cons, List.mem_cons] at h3
      exact h3.resolve_left fun h => hk h.symm

end Rounding
end Meshless
