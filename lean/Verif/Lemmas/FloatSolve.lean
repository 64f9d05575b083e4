import Verif.Lemmas.FloatMat
import Mathlib.LinearAlgebra.FiniteDimensional.Basic

/-!
Linear systems with accurate matrices: a system that has one solution keeps having one when its coefficients are perturbed a little, and every
vector that solves the perturbed system up to a residual of the size of the roundoff is close to the exact solution.
-/

set_option autoImplicit false

namespace Meshless
open Filter Topology Finset

/-- a square system whose homogeneous version has only the zero solution is uniquely solvable -/
theorem solve_inj {n : ℕ} (K : ℕ → ℕ → ℝ) (S : Set ℕ)
    (h : ∀ d : ℕ → ℝ, (∀ i < n, i ∈ S → d i = 0) → (∀ i < n, i ∉ S → ∑ j ∈ range n, K i j * d j = 0) → ∀ i < n, d i = 0) (f : ℕ → ℝ) :
    ∃ d : ℕ → ℝ, ((∀ i < n, i ∈ S → d i = 0) ∧ ∀ i < n, i ∉ S → ∑ j ∈ range n, K i j * d j = f i) ∧
      ∀ d' : ℕ → ℝ, ((∀ i < n, i ∈ S → d' i = 0) ∧ ∀ i < n, i ∉ S → ∑ j ∈ range n, K i j * d' j = f i) → ∀ i < n, d' i = d i := by
  classical
  let ext : (Fin n → ℝ) → ℕ → ℝ := fun d i => if h : i < n then d ⟨i, h⟩ else 0
  have hext : ∀ d (i : Fin n), ext d i = d i := fun d i => by simp [ext]
  have hsum : ∀ (d : Fin n → ℝ) (i : ℕ), ∑ j ∈ range n, K i j * ext d j = ∑ j : Fin n, K i j * d j := by
    intro d i
    rw [Finset.sum_range]
    exact Finset.sum_congr rfl fun j _ => by rw [hext]
  let T : (Fin n → ℝ) →ₗ[ℝ] (Fin n → ℝ) :=
    { toFun := fun d i => if (i : ℕ) ∈ S then d i else ∑ j : Fin n, K i j * d j
      map_add' := by
        intro x y; funext i
        by_cases hi : (i : ℕ) ∈ S
        · simp [hi]
        · simp [hi, mul_add, Finset.sum_add_distrib]
      map_smul' := by
        intro c x; funext i
        by_cases hi : (i : ℕ) ∈ S
        · simp [hi]
        · simp only [hi, if_false, Pi.smul_apply, smul_eq_mul, RingHom.id_apply]
          rw [Finset.mul_sum]
          exact Finset.sum_congr rfl fun j _ => by ring }
  have hT : ∀ d i, T d i = if (i : ℕ) ∈ S then d i else ∑ j : Fin n, K i j * d j := fun d i => rfl
  have hinj : Function.Injective T := by
    rw [← LinearMap.ker_eq_bot, LinearMap.ker_eq_bot']
    intro d hd
    have h0 : ∀ i : Fin n, (i : ℕ) ∈ S → d i = 0 := by
      intro i hi; have := congrFun hd i; rw [hT, if_pos hi] at this; exact this
    have h1 : ∀ i : Fin n, (i : ℕ) ∉ S → ∑ j : Fin n, K i j * d j = 0 := by
      intro i hi; have := congrFun hd i; rw [hT, if_neg hi] at this; exact this
    have := h (ext d) (fun i hi hS => (hext d ⟨i, hi⟩).trans (h0 ⟨i, hi⟩ hS)) (fun i hi hS => by
      rw [hsum]; exact h1 ⟨i, hi⟩ hS)
    funext i
    exact (hext d i).symm.trans (this i i.2)
  have hsur : Function.Surjective T := LinearMap.injective_iff_surjective.1 hinj
  obtain ⟨d, hd⟩ := hsur fun i => if (i : ℕ) ∈ S then 0 else f i
  refine ⟨ext d, ⟨fun i hi hS => ?_, fun i hi hS => ?_⟩, fun d' ⟨g1, g2⟩ i hi => ?_⟩
  · have := congrFun hd ⟨i, hi⟩
    rw [hT] at this
    simp only [hS, if_true] at this
    exact (hext d ⟨i, hi⟩).trans this
  · have := congrFun hd ⟨i, hi⟩
    rw [hT] at this
    simp only [hS, if_false] at this
    rw [hsum]; exact this
  · have : T (fun i => d' i) = T d := by
      rw [hd]
      funext j
      rw [hT]
      by_cases hS : (j : ℕ) ∈ S
      · simp only [hS, if_true]; exact g1 j j.2 hS
      · simp only [hS, if_false]
        rw [← g2 j j.2 hS, Finset.sum_range]
    have := congrFun (hinj this) ⟨i, hi⟩
    exact this.trans (hext d ⟨i, hi⟩).symm

/-- the free unknowns are bounded by the loads they need -/
theorem inverse_bound {n : ℕ} (K : ℕ → ℕ → ℝ) (S : Set ℕ)
    (h : ∀ d : ℕ → ℝ, (∀ i < n, i ∈ S → d i = 0) → (∀ i < n, i ∉ S → ∑ j ∈ range n, K i j * d j = 0) → ∀ i < n, d i = 0) :
    ∃ G : ℝ, 0 ≤ G ∧ ∀ (e : ℕ → ℝ) (B : ℝ), (∀ i < n, i ∈ S → e i = 0) → (∀ i < n, i ∉ S → |∑ j ∈ range n, K i j * e j| ≤ B) → 0 ≤ B →
      ∑ i ∈ range n, |e i| ≤ G * B := by
  classical
  choose g hg using fun s : ℕ => solve_inj K S h fun i => if i = s then 1 else 0
  refine ⟨∑ i ∈ range n, ∑ s ∈ range n, |g s i|, Finset.sum_nonneg fun _ _ => Finset.sum_nonneg fun _ _ => abs_nonneg _, fun e B he hB hB0 => ?_⟩
  let r : ℕ → ℝ := fun s => if s ∈ S then 0 else ∑ j ∈ range n, K s j * e j
  have hr : ∀ s < n, |r s| ≤ B := fun s hs => by
    by_cases hS : s ∈ S
    · simp only [r, if_pos hS, abs_zero]; exact hB0
    · simp only [r, if_neg hS]; exact hB s hs hS
  have heq : ∀ i < n, e i = ∑ s ∈ range n, r s * g s i := by
    intro i hi
    have h0 : ∀ s, ∀ i < n, i ∈ S → g s i = 0 := fun s => (hg s).1.1
    have h1 := fun s => (hg s).1.2
    have := h (fun i => e i - ∑ s ∈ range n, r s * g s i) (fun i hi hS => by
      rw [he i hi hS, Finset.sum_eq_zero fun s _ => by rw [h0 s i hi hS, mul_zero], sub_zero]) (fun i hi hS => by
      have e1 : ∀ j, K i j * (e j - ∑ s ∈ range n, r s * g s j) = K i j * e j - ∑ s ∈ range n, r s * (K i j * g s j) := fun j => by
        rw [mul_sub, Finset.mul_sum]; congr 1; exact Finset.sum_congr rfl fun s _ => by ring
      rw [Finset.sum_congr rfl fun j _ => e1 j, Finset.sum_sub_distrib, Finset.sum_comm]
      simp only [← Finset.mul_sum]
      simp only [fun s => h1 s i hi hS]
      rw [Finset.sum_eq_single (s := range n) (f := fun s => r s * if i = s then (1:ℝ) else 0) i]
      · simp only [r, if_neg hS, if_true, mul_one, sub_self]
      · intro s _ hs; rw [if_neg (Ne.symm hs), mul_zero]
      · intro hn; exact absurd (Finset.mem_range.2 hi) hn) i hi
    linarith
  calc ∑ i ∈ range n, |e i| ≤ ∑ i ∈ range n, ∑ s ∈ range n, |g s i| * B := by
        refine Finset.sum_le_sum fun i hi => ?_
        rw [heq i (Finset.mem_range.1 hi)]
        refine (Finset.abs_sum_le_sum_abs _ _).trans (Finset.sum_le_sum fun s hs => ?_)
        rw [abs_mul, mul_comm]
        exact mul_le_mul_of_nonneg_left (hr s (Finset.mem_range.1 hs)) (abs_nonneg _)
    _ = _ := by rw [Finset.sum_mul]; exact Finset.sum_congr rfl fun i _ => by rw [Finset.sum_mul]

variable {ι : Type} {π : ι → Rounding}

/-- finitely many accurate numbers have a common bound -/
theorem acc_uniform {n : ℕ} {A : ι → ℕ → ℝ} {a : ℕ → ℝ} (h : ∀ r < n, Acc π (fun i => A i r) (a r)) :
    ∃ C : ℝ, 0 ≤ C ∧ ∀ᶠ i in smallU π, ∀ r < n, |A i r - a r| ≤ C * (π i).u := by
  have h1 : ∀ᶠ C : ℝ in atTop, ∀ r ∈ range n, ∀ᶠ i in smallU π, |A i r - a r| ≤ C * (π i).u :=
    (eventually_all_finset (range n)).2 fun r hr => (h r (Finset.mem_range.1 hr)).bound
  obtain ⟨C, h2, hC⟩ := (h1.and (eventually_ge_atTop (0:ℝ))).exists
  exact ⟨C, hC, ((eventually_all_finset (range n)).2 h2).mono fun i hi r hr => hi r (Finset.mem_range.2 hr)⟩

theorem acc_uniform2 {n : ℕ} {A : ι → ℕ → ℕ → ℝ} {a : ℕ → ℕ → ℝ} (h : ∀ r < n, ∀ c < n, Acc π (fun i => A i r c) (a r c)) :
    ∃ C : ℝ, 0 ≤ C ∧ ∀ᶠ i in smallU π, ∀ r < n, ∀ c < n, |A i r c - a r c| ≤ C * (π i).u := by
  have h1 : ∀ᶠ C : ℝ in atTop, ∀ r ∈ range n, ∀ c ∈ range n, ∀ᶠ i in smallU π, |A i r c - a r c| ≤ C * (π i).u :=
    (eventually_all_finset (range n)).2 fun r hr => (eventually_all_finset (range n)).2 fun c hc =>
      (h r (Finset.mem_range.1 hr) c (Finset.mem_range.1 hc)).bound
  obtain ⟨C, h2, hC⟩ := (h1.and (eventually_ge_atTop (0:ℝ))).exists
  refine ⟨C, hC, ((eventually_all_finset (range n)).2 fun r hr => (eventually_all_finset (range n)).2 (h2 r hr)).mono ?_⟩
  exact fun i hi r hr c hc => hi r (Finset.mem_range.2 hr) c (Finset.mem_range.2 hc)

/-- one bound and one threshold for a whole accurate matrix -/
theorem AccMat.uniform {F : ι → Mat} {K : Mat} (h : AccMat π F K) :
    ∃ C u0 : ℝ, 0 < u0 ∧ ∀ i, (π i).u ≤ u0 → ∀ r < K.dim, ∀ c < K.dim, |(F i).get r c - K.get r c| ≤ C * (π i).u := by
  obtain ⟨C, _, hC⟩ := acc_uniform2 (n := K.dim) (A := fun i => (F i).get) (a := K.get) fun r _ c _ => h.get r c
  obtain ⟨u0, h0, h1⟩ := smallU_iff.1 hC
  exact ⟨C, u0, h0, h1⟩

/-- a uniquely solvable system stays so under small perturbations of its coefficients -/
theorem solve_near {n : ℕ} {K : ℕ → ℕ → ℝ} (S : Set ℕ)
    (h : ∀ d : ℕ → ℝ, (∀ i < n, i ∈ S → d i = 0) → (∀ i < n, i ∉ S → ∑ j ∈ range n, K i j * d j = 0) → ∀ i < n, d i = 0)
    {F : ι → ℕ → ℕ → ℝ} (hF : ∀ r < n, ∀ c < n, Acc π (fun i => F i r c) (K r c)) :
    ∀ᶠ i in smallU π, ∀ d : ℕ → ℝ, (∀ r < n, r ∈ S → d r = 0) → (∀ r < n, r ∉ S → ∑ j ∈ range n, F i r j * d j = 0) → ∀ r < n, d r = 0 := by
  obtain ⟨G, hG, hb⟩ := inverse_bound K S h
  obtain ⟨C, hC, hu⟩ := acc_uniform2 hF
  refine (hu.and (eventually_lt_one (G * C))).mono fun i ⟨hi, hlt⟩ d hd h0 => ?_
  have hu0 := (π i).u_nonneg
  set s := ∑ j ∈ range n, |d j| with hs
  have hs0 : 0 ≤ s := Finset.sum_nonneg fun _ _ => abs_nonneg _
  have hbd := hb d (C * (π i).u * s) hd (fun r hr hS => by
    have e : ∑ j ∈ range n, K r j * d j = - ∑ j ∈ range n, (F i r j - K r j) * d j := by
      rw [← sub_eq_zero, sub_neg_eq_add, ← Finset.sum_add_distrib, ← h0 r hr hS]; exact Finset.sum_congr rfl fun j _ => by ring
    rw [e, abs_neg, hs, Finset.mul_sum]
    refine (Finset.abs_sum_le_sum_abs _ _).trans (Finset.sum_le_sum fun j hj => ?_)
    rw [abs_mul]
    exact mul_le_mul_of_nonneg_right (hi r hr j (Finset.mem_range.1 hj)) (abs_nonneg _)) (by positivity)
  have hsz : s = 0 := by nlinarith
  intro r hr
  exact abs_eq_zero.1 ((Finset.sum_eq_zero_iff_of_nonneg fun _ _ => abs_nonneg _).1 hsz r (Finset.mem_range.2 hr))

/-- Solving a system whose matrix and load are accurate, up to a residual of the size of the roundoff, gives an accurate solution. -/
theorem solve_acc {n : ℕ} {K : ℕ → ℕ → ℝ} {S : Set ℕ}
    (h : ∀ d : ℕ → ℝ, (∀ i < n, i ∈ S → d i = 0) → (∀ i < n, i ∉ S → ∑ j ∈ range n, K i j * d j = 0) → ∀ i < n, d i = 0)
    {F : ι → ℕ → ℕ → ℝ} (hF : ∀ r < n, ∀ c < n, Acc π (fun i => F i r c) (K r c)) {f : ℕ → ℝ} {f' : ι → ℕ → ℝ}
    (hf : ∀ r < n, Acc π (fun i => f' i r) (f r)) {c : ℝ} {D : ι → ℕ → ℝ} (hS : ∀ i, ∀ r < n, r ∈ S → D i r = 0)
    (hD : ∀ i, ∀ r < n, r ∉ S → |∑ j ∈ range n, F i r j * D i j - f' i r| ≤ c * (π i).u * (∑ j ∈ range n, |F i r j| * |D i j| + |f' i r|))
    {d : ℕ → ℝ} (d0 : ∀ i < n, i ∈ S → d i = 0) (d1 : ∀ i < n, i ∉ S → ∑ j ∈ range n, K i j * d j = f i) :
    ∀ r < n, Acc π (fun i => D i r) (d r) := by
  obtain ⟨G, hG, hb⟩ := inverse_bound K S h
  obtain ⟨C, hC, hu⟩ := acc_uniform2 hF
  obtain ⟨C', hC', hu'⟩ := acc_uniform hf
  -- a common bound on the coefficients and loads
  obtain ⟨B, hB0, hB1, hB2⟩ : ∃ B : ℝ, 0 ≤ B ∧ (∀ r < n, ∀ j < n, |K r j| ≤ B) ∧ ∀ r < n, |f r| ≤ B := by
    refine ⟨∑ r ∈ range n, ∑ j ∈ range n, |K r j| + ∑ r ∈ range n, |f r|, by positivity, fun r hr j hj => ?_, fun r hr => ?_⟩
    · have e1 : |K r j| ≤ ∑ j ∈ range n, |K r j| :=
        Finset.single_le_sum (f := fun j => |K r j|) (fun _ _ => abs_nonneg _) (Finset.mem_range.2 hj)
      have e2 : ∑ j ∈ range n, |K r j| ≤ ∑ r ∈ range n, ∑ j ∈ range n, |K r j| :=
        Finset.single_le_sum (f := fun r => ∑ j ∈ range n, |K r j|) (fun _ _ => Finset.sum_nonneg fun _ _ => abs_nonneg _) (Finset.mem_range.2 hr)
      have e3 : 0 ≤ ∑ r ∈ range n, |f r| := Finset.sum_nonneg fun _ _ => abs_nonneg _
      linarith
    · have e1 : |f r| ≤ ∑ r ∈ range n, |f r| := Finset.single_le_sum (f := fun r => |f r|) (fun _ _ => abs_nonneg _) (Finset.mem_range.2 hr)
      have e2 : 0 ≤ ∑ r ∈ range n, ∑ j ∈ range n, |K r j| := Finset.sum_nonneg fun _ _ => Finset.sum_nonneg fun _ _ => abs_nonneg _
      linarith
  set s0 := ∑ j ∈ range n, |d j| with hs0
  have hs0' : 0 ≤ s0 := Finset.sum_nonneg fun _ _ => abs_nonneg _
  -- the constant in front of `1 + |D|`
  set P := C + C' + |c| * (B + C + C') with hP
  have hP0 : 0 ≤ P := by positivity
  have key : ∀ᶠ i in smallU π, ∑ j ∈ range n, |D i j - d j| ≤ (2 * G * P * (1 + s0)) * (π i).u := by
    refine (hu.and (hu'.and (eventually_lt_one (2 * (G * P))))).mono fun i ⟨h1, h2, h3⟩ => ?_
    have hu0 := (π i).u_nonneg
    have hu1 := (π i).u_lt.le
    set v := (π i).u with hv
    set s := ∑ j ∈ range n, |D i j| with hs
    have hs' : 0 ≤ s := Finset.sum_nonneg fun _ _ => abs_nonneg _
    have hbd := hb (fun j => D i j - d j) (P * v * (1 + s)) (fun r hr hrS => by beta_reduce; rw [hS i r hr hrS, d0 r hr hrS, sub_zero]) (fun r hr hrS => by
      have e : ∑ j ∈ range n, K r j * (D i j - d j) =
          (∑ j ∈ range n, F i r j * D i j - f' i r) - ∑ j ∈ range n, (F i r j - K r j) * D i j + (f' i r - f r) := by
        rw [← d1 r hr hrS]
        have : ∑ j ∈ range n, K r j * (D i j - d j) = ∑ j ∈ range n, F i r j * D i j - ∑ j ∈ range n, (F i r j - K r j) * D i j - ∑ j ∈ range n, K r j * d j := by
          rw [← Finset.sum_sub_distrib, ← Finset.sum_sub_distrib]; exact Finset.sum_congr rfl fun j _ => by ring
        rw [this]; ring
      have a1 : |∑ j ∈ range n, (F i r j - K r j) * D i j| ≤ C * v * s := by
        rw [hs, Finset.mul_sum]
        refine (Finset.abs_sum_le_sum_abs _ _).trans (Finset.sum_le_sum fun j hj => ?_)
        rw [abs_mul]
        exact mul_le_mul_of_nonneg_right (h1 r hr j (Finset.mem_range.1 hj)) (abs_nonneg _)
      have a2 := h2 r hr
      have a3 : ∑ j ∈ range n, |F i r j| * |D i j| ≤ (B + C) * s := by
        rw [hs, Finset.mul_sum]
        refine Finset.sum_le_sum fun j hj => mul_le_mul_of_nonneg_right ?_ (abs_nonneg _)
        have b1 := h1 r hr j (Finset.mem_range.1 hj)
        have b2 := hB1 r hr j (Finset.mem_range.1 hj)
        have b3 : |F i r j| ≤ |F i r j - K r j| + |K r j| := by simpa using abs_add_le (F i r j - K r j) (K r j)
        nlinarith
      have a4 : |f' i r| ≤ B + C' := by
        have b2 := hB2 r hr
        have b3 : |f' i r| ≤ |f' i r - f r| + |f r| := by simpa using abs_add_le (f' i r - f r) (f r)
        nlinarith
      have a5 : |∑ j ∈ range n, F i r j * D i j - f' i r| ≤ |c| * v * ((B + C + C') * (1 + s)) := by
        refine (hD i r hr hrS).trans ?_
        have b0 : 0 ≤ ∑ j ∈ range n, |F i r j| * |D i j| + |f' i r| := by positivity
        refine (mul_le_mul_of_nonneg_right (mul_le_mul_of_nonneg_right (le_abs_self c) hu0) b0).trans
          (mul_le_mul_of_nonneg_left ?_ (by positivity))
        nlinarith
      rw [e]
      refine (abs_add_le _ _).trans ((add_le_add (abs_sub _ _) a2).trans ?_)
      refine (add_le_add (add_le_add a5 a1) le_rfl).trans ?_
      rw [hP]
      have c1 : 0 ≤ C * v := by positivity
      have c2 : 0 ≤ C' * v * s := by positivity
      nlinarith) (by positivity)
    beta_reduce at hbd
    set e := ∑ j ∈ range n, |D i j - d j| with he
    have he0 : 0 ≤ e := Finset.sum_nonneg fun _ _ => abs_nonneg _
    have hse : s ≤ e + s0 := by
      rw [hs, he, hs0, ← Finset.sum_add_distrib]
      refine Finset.sum_le_sum fun j _ => ?_
      simpa using abs_add_le (D i j - d j) (d j)
    have q1 : G * (P * v * (1 + s)) ≤ G * (P * v * (1 + (e + s0))) := by
      refine mul_le_mul_of_nonneg_left (mul_le_mul_of_nonneg_left (by linarith) (by positivity)) hG
    have q2 : G * P * v * e ≤ 1 / 2 * e := mul_le_mul_of_nonneg_right (by linarith) he0
    nlinarith
  intro r hr
  rw [acc_iff]
  obtain ⟨u0, hu0, hk⟩ := smallU_iff.1 key
  refine ⟨2 * G * P * (1 + s0), u0, hu0, fun i hi => ?_⟩
  exact (Finset.single_le_sum (f := fun j => |D i j - d j|) (fun _ _ => abs_nonneg _) (Finset.mem_range.2 hr)).trans (hk i hi)

end Meshless
