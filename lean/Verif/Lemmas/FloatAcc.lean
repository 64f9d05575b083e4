import Verif.Model.FloatRun
import Verif.Lemmas.Cert
import Mathlib.Analysis.Asymptotics.Lemmas
import Mathlib.Topology.Algebra.Order.Field

/-! Values computed with rounding and their limits as the roundoff goes to zero. -/

set_option autoImplicit false

namespace Meshless
open Filter Asymptotics Topology

variable {ι : Type*} {π : ι → Rounding}

/-- runs (each with its rounding rule `π i`) whose roundoff is small -/
def smallU (π : ι → Rounding) : Filter ι := comap (fun i => (π i).u) (𝓝 0)

theorem smallU_iff {p : ι → Prop} : (∀ᶠ i in smallU π, p i) ↔ ∃ u0 > 0, ∀ i, (π i).u ≤ u0 → p i := by
  unfold smallU
  rw [eventually_comap, Metric.eventually_nhds_iff]
  constructor
  · rintro ⟨ε, he, h⟩
    refine ⟨ε / 2, by linarith, fun i hR => h ?_ i rfl⟩
    rw [Real.dist_eq, sub_zero, abs_of_nonneg (π i).u_nonneg]; linarith
  · rintro ⟨u0, h0, h⟩
    refine ⟨u0, h0, ?_⟩
    rintro b hb i rfl
    rw [Real.dist_eq, sub_zero, abs_of_nonneg (π i).u_nonneg] at hb
    exact h i hb.le

/-- the values `a i` computed in the runs `i` differ from `l` by at most a constant times the roundoff -/
def Acc (π : ι → Rounding) (a : ι → ℝ) (l : ℝ) : Prop := (fun i => a i - l) =O[smallU π] fun i => (π i).u

theorem acc_iff {a : ι → ℝ} {l : ℝ} : Acc π a l ↔ ∃ C u0 : ℝ, 0 < u0 ∧ ∀ i, (π i).u ≤ u0 → |a i - l| ≤ C * (π i).u := by
  unfold Acc
  rw [isBigO_iff]
  refine exists_congr fun C => ?_
  rw [smallU_iff]
  refine exists_congr fun u0 => and_congr Iff.rfl (forall_congr' fun i => imp_congr Iff.rfl ?_)
  rw [Real.norm_eq_abs, Real.norm_eq_abs, abs_of_nonneg (π i).u_nonneg]

theorem tendsto_u : Tendsto (fun i => (π i).u) (smallU π) (𝓝 0) := tendsto_comap

namespace Acc
variable {a b : ι → ℝ} {l k : ℝ}

theorem congr (h : Acc π a l) (he : ∀ᶠ i in smallU π, b i = a i) : Acc π b l :=
  IsBigO.congr' h (he.mono fun i hi => by dsimp only; rw [hi]) (Eventually.of_forall fun _ => rfl)

theorem const (l : ℝ) : Acc π (fun _ => l) l := by unfold Acc; simp only [sub_self]; exact isBigO_zero _ _

theorem tendsto (h : Acc π a l) : Tendsto a (smallU π) (𝓝 l) := by
  have := h.trans_tendsto tendsto_u
  simpa using this.add_const l

theorem isBigO_one (h : Acc π a l) : a =O[smallU π] (fun _ => (1:ℝ)) := h.tendsto.isBigO_one ℝ

theorem fl (h : Acc π a l) : Acc π (fun i => (π i).fl (a i)) l := by
  have h1 : (fun i => (π i).fl (a i) - a i) =O[smallU π] (fun i => (π i).u) := by
    have h2 : (fun i => (π i).fl (a i) - a i) =O[smallU π] (fun i => (π i).u * a i) := by
      refine IsBigO.of_bound 1 (Eventually.of_forall fun i => ?_)
      rw [one_mul, norm_mul, Real.norm_eq_abs, Real.norm_eq_abs, Real.norm_eq_abs, abs_of_nonneg (π i).u_nonneg]
      exact (π i).err _
    have h3 := (isBigO_refl (fun i => (π i).u) (smallU π)).mul h.isBigO_one
    simp only [mul_one] at h3
    exact h2.trans h3
  have := h1.add h
  refine this.congr_left fun i => by ring

theorem cst (c : ℝ) : Acc π (fun i => (π i).fl c) c := fl (const c)

theorem add' (h : Acc π a l) (g : Acc π b k) : Acc π (fun i => a i + b i) (l + k) :=
  (IsBigO.add h g).congr_left fun i => by ring
theorem neg' (h : Acc π a l) : Acc π (fun i => - a i) (-l) :=
  (IsBigO.neg_left h).congr_left fun i => by ring
theorem sub' (h : Acc π a l) (g : Acc π b k) : Acc π (fun i => a i - b i) (l - k) :=
  (IsBigO.sub h g).congr_left fun i => by ring
theorem mul' (h : Acc π a l) (g : Acc π b k) : Acc π (fun i => a i * b i) (l * k) := by
  have h1 : (fun i => (a i - l) * b i) =O[smallU π] (fun i => (π i).u) := by
    have := IsBigO.mul h g.isBigO_one; simpa using this
  have h2 : (fun i => l * (b i - k)) =O[smallU π] (fun i => (π i).u) := IsBigO.const_mul_left g l
  exact (h1.add h2).congr_left fun i => by ring
theorem inv' (h : Acc π a l) (hl : l ≠ 0) : Acc π (fun i => (a i)⁻¹) l⁻¹ := by
  have h1 := (h.tendsto.inv₀ hl).isBigO_one ℝ
  have h2 : (fun i => -(a i - l) * (a i)⁻¹ * l⁻¹) =O[smallU π] (fun i => (π i).u) := by
    have := (IsBigO.mul (IsBigO.neg_left h) h1).mul (isBigO_refl (fun _ : ι => l⁻¹) (smallU π))
    have h3 := this.trans (IsBigO.mul (isBigO_refl (fun i : ι => (π i).u * 1) (smallU π)) (isBigO_const_const l⁻¹ (one_ne_zero (α := ℝ)) (smallU π)))
    simpa using h3
  have hne := h.tendsto.eventually_ne hl
  refine IsBigO.congr' h2 (hne.mono fun i hi => ?_) (Eventually.of_forall fun _ => rfl)
  dsimp only at hi ⊢
  field_simp
  ring
theorem div' (h : Acc π a l) (g : Acc π b k) (hk : k ≠ 0) : Acc π (fun i => a i / b i) (l / k) := by
  simp only [div_eq_mul_inv]; exact h.mul' (g.inv' hk)
theorem abs' (h : Acc π a l) : Acc π (fun i => |a i|) |l| := by
  refine IsBigO.trans (IsBigO.of_bound 1 (Eventually.of_forall fun i => ?_)) h
  rw [one_mul, Real.norm_eq_abs, Real.norm_eq_abs]; exact abs_abs_sub_abs_le _ _
theorem max' (h : Acc π a l) (g : Acc π b k) : Acc π (fun i => max (a i) (b i)) (max l k) := by
  have h1 : (fun i => |a i - l| + |b i - k|) =O[smallU π] (fun i => (π i).u) := (IsBigO.abs_left h).add (IsBigO.abs_left g)
  refine IsBigO.trans (IsBigO.of_bound 1 (Eventually.of_forall fun i => ?_)) h1
  rw [one_mul, Real.norm_eq_abs, Real.norm_eq_abs, abs_of_nonneg (a := |a i - l| + |b i - k|) (by positivity)]
  refine (abs_max_sub_max_le_max _ _ _ _).trans (max_le ?_ ?_) <;> linarith [abs_nonneg (a i - l), abs_nonneg (b i - k)]
theorem min' (h : Acc π a l) (g : Acc π b k) : Acc π (fun i => min (a i) (b i)) (min l k) := by
  have h1 : (fun i => |a i - l| + |b i - k|) =O[smallU π] (fun i => (π i).u) := (IsBigO.abs_left h).add (IsBigO.abs_left g)
  refine IsBigO.trans (IsBigO.of_bound 1 (Eventually.of_forall fun i => ?_)) h1
  rw [one_mul, Real.norm_eq_abs, Real.norm_eq_abs, abs_of_nonneg (a := |a i - l| + |b i - k|) (by positivity)]
  refine (abs_min_sub_min_le_max _ _ _ _).trans (max_le ?_ ?_) <;> linarith [abs_nonneg (a i - l), abs_nonneg (b i - k)]
theorem sqrt' (h : Acc π a l) (hl : 0 < l) : Acc π (fun i => Real.sqrt (a i)) (Real.sqrt l) := by
  have hs := Real.sqrt_pos.2 hl
  refine IsBigO.trans (IsBigO.of_bound (Real.sqrt l)⁻¹ ((h.tendsto.eventually (lt_mem_nhds hl)).mono fun i hi => ?_)) h
  dsimp only at hi ⊢
  rw [Real.norm_eq_abs, Real.norm_eq_abs, inv_mul_eq_div, le_div_iff₀ hs]
  have h2 : a i - l = (Real.sqrt (a i) - Real.sqrt l) * (Real.sqrt (a i) + Real.sqrt l) := by
    have e1 := Real.mul_self_sqrt hi.le; have e2 := Real.mul_self_sqrt hl.le
    nlinarith
  have h3 := Real.sqrt_nonneg (a i)
  rw [h2, abs_mul, abs_of_pos (a := Real.sqrt (a i) + Real.sqrt l) (by linarith)]
  exact mul_le_mul_of_nonneg_left (by linarith) (abs_nonneg _)

theorem add (h : Acc π a l) (g : Acc π b k) : Acc π (fun i => (π i).add (a i) (b i)) (l + k) := (h.add' g).fl
theorem sub (h : Acc π a l) (g : Acc π b k) : Acc π (fun i => (π i).sub (a i) (b i)) (l - k) := (h.sub' g).fl
theorem mul (h : Acc π a l) (g : Acc π b k) : Acc π (fun i => (π i).mul (a i) (b i)) (l * k) := (h.mul' g).fl
theorem div (h : Acc π a l) (g : Acc π b k) (hk : k ≠ 0) : Acc π (fun i => (π i).div (a i) (b i)) (l / k) := (h.div' g hk).fl
theorem sqrt (h : Acc π a l) (hl : 0 < l) : Acc π (fun i => (π i).sqrt (a i)) (Real.sqrt l) := (h.sqrt' hl).fl

end Acc
end Meshless
