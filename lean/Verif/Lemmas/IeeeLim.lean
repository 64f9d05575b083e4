import Verif.Model.Ieee
import Verif.Model.Gen.Map
import Mathlib.Analysis.Asymptotics.Lemmas
import Mathlib.Topology.Algebra.Order.Field
import Mathlib.Tactic.Ring

/-! Numbers computed in a floating-point format with a bounded exponent range, and their limits as the format gets finer and wider. -/

set_option autoImplicit false

namespace Meshless
open Filter Asymptotics Topology

/-- the roundoff of a format: relative plus absolute -/
def Fmt.t (f : Fmt) : ℝ := f.u + f.eta

theorem Fmt.t_nonneg (f : Fmt) : 0 ≤ f.t := add_nonneg f.u_nonneg f.eta_nonneg

variable {ι : Type*} {φ : ι → Fmt}

/-- runs (each with its format `φ i`) with small roundoff and large range -/
def good (φ : ι → Fmt) : Filter ι := comap (fun i => (φ i).t) (𝓝 0) ⊓ comap (fun i => (φ i).big) atTop

theorem good_iff {p : ι → Prop} : (∀ᶠ i in good φ, p i) ↔ ∃ t0 > 0, ∃ B, ∀ i, (φ i).t ≤ t0 → B ≤ (φ i).big → p i := by
  unfold good
  have hb := ((Metric.nhds_basis_closedBall (x := (0:ℝ))).comap (fun i => (φ i).t)).inf ((atTop_basis (α := ℝ)).comap (fun i => (φ i).big))
  rw [hb.eventually_iff]
  constructor
  · rintro ⟨⟨t0, B⟩, ⟨h0, -⟩, h⟩
    refine ⟨t0, h0, B, fun i h1 h2 => h ⟨?_, h2⟩⟩
    simpa [Real.dist_eq, abs_of_nonneg (φ i).t_nonneg] using h1
  · rintro ⟨t0, h0, B, h⟩
    refine ⟨⟨t0, B⟩, ⟨h0, trivial⟩, fun i hi => h i ?_ hi.2⟩
    simpa [Real.dist_eq, abs_of_nonneg (φ i).t_nonneg] using hi.1

theorem tendsto_t : Tendsto (fun i => (φ i).t) (good φ) (𝓝 0) := tendsto_comap.mono_left inf_le_left
theorem tendsto_big : Tendsto (fun i => (φ i).big) (good φ) atTop := tendsto_comap.mono_left inf_le_right

/-- the real numbers `a i` of the runs `i` differ from `l` by at most a constant times the roundoff -/
def Near0 (φ : ι → Fmt) (a : ι → ℝ) (l : ℝ) : Prop := (fun i => a i - l) =O[good φ] fun i => (φ i).t

namespace Near0
variable {a b : ι → ℝ} {l k : ℝ}

theorem congr (h : Near0 φ a l) (he : ∀ᶠ i in good φ, b i = a i) : Near0 φ b l :=
  IsBigO.congr' h (he.mono fun i hi => by dsimp only; rw [hi]) (Eventually.of_forall fun _ => rfl)

theorem const (l : ℝ) : Near0 φ (fun _ => l) l := by unfold Near0; simp only [sub_self]; exact isBigO_zero _ _

theorem tendsto (h : Near0 φ a l) : Tendsto a (good φ) (𝓝 l) := by
  have := h.trans_tendsto tendsto_t
  simpa using this.add_const l

theorem isBigO_one (h : Near0 φ a l) : a =O[good φ] (fun _ => (1:ℝ)) := h.tendsto.isBigO_one ℝ

theorem add' (h : Near0 φ a l) (g : Near0 φ b k) : Near0 φ (fun i => a i + b i) (l + k) :=
  (IsBigO.add h g).congr_left fun i => by ring
theorem neg' (h : Near0 φ a l) : Near0 φ (fun i => - a i) (-l) :=
  (IsBigO.neg_left h).congr_left fun i => by ring
theorem sub' (h : Near0 φ a l) (g : Near0 φ b k) : Near0 φ (fun i => a i - b i) (l - k) :=
  (IsBigO.sub h g).congr_left fun i => by ring
theorem mul' (h : Near0 φ a l) (g : Near0 φ b k) : Near0 φ (fun i => a i * b i) (l * k) := by
  have h1 : (fun i => (a i - l) * b i) =O[good φ] (fun i => (φ i).t) := by
    have := IsBigO.mul h g.isBigO_one; simpa using this
  have h2 : (fun i => l * (b i - k)) =O[good φ] (fun i => (φ i).t) := IsBigO.const_mul_left g l
  exact (h1.add h2).congr_left fun i => by ring
theorem inv' (h : Near0 φ a l) (hl : l ≠ 0) : Near0 φ (fun i => (a i)⁻¹) l⁻¹ := by
  have h1 := (h.tendsto.inv₀ hl).isBigO_one ℝ
  have h2 : (fun i => -(a i - l) * (a i)⁻¹ * l⁻¹) =O[good φ] (fun i => (φ i).t) := by
    have := (IsBigO.mul (IsBigO.neg_left h) h1).mul (isBigO_refl (fun _ : ι => l⁻¹) (good φ))
    have h3 := this.trans (IsBigO.mul (isBigO_refl (fun i : ι => (φ i).t * 1) (good φ)) (isBigO_const_const l⁻¹ (one_ne_zero (α := ℝ)) (good φ)))
    simpa using h3
  have hne := h.tendsto.eventually_ne hl
  refine IsBigO.congr' h2 (hne.mono fun i hi => ?_) (Eventually.of_forall fun _ => rfl)
  dsimp only at hi ⊢
  field_simp
  ring
theorem div' (h : Near0 φ a l) (g : Near0 φ b k) (hk : k ≠ 0) : Near0 φ (fun i => a i / b i) (l / k) := by
  simp only [div_eq_mul_inv]; exact h.mul' (g.inv' hk)
theorem abs' (h : Near0 φ a l) : Near0 φ (fun i => |a i|) |l| := by
  refine IsBigO.trans (IsBigO.of_bound 1 (Eventually.of_forall fun i => ?_)) h
  rw [one_mul, Real.norm_eq_abs, Real.norm_eq_abs]; exact abs_abs_sub_abs_le _ _
theorem max' (h : Near0 φ a l) (g : Near0 φ b k) : Near0 φ (fun i => max (a i) (b i)) (max l k) := by
  have h1 : (fun i => |a i - l| + |b i - k|) =O[good φ] (fun i => (φ i).t) := (IsBigO.abs_left h).add (IsBigO.abs_left g)
  refine IsBigO.trans (IsBigO.of_bound 1 (Eventually.of_forall fun i => ?_)) h1
  rw [one_mul, Real.norm_eq_abs, Real.norm_eq_abs, abs_of_nonneg (a := |a i - l| + |b i - k|) (by positivity)]
  refine (abs_max_sub_max_le_max _ _ _ _).trans (max_le ?_ ?_) <;> linarith [abs_nonneg (a i - l), abs_nonneg (b i - k)]
theorem min' (h : Near0 φ a l) (g : Near0 φ b k) : Near0 φ (fun i => min (a i) (b i)) (min l k) := by
  have h1 : (fun i => |a i - l| + |b i - k|) =O[good φ] (fun i => (φ i).t) := (IsBigO.abs_left h).add (IsBigO.abs_left g)
  refine IsBigO.trans (IsBigO.of_bound 1 (Eventually.of_forall fun i => ?_)) h1
  rw [one_mul, Real.norm_eq_abs, Real.norm_eq_abs, abs_of_nonneg (a := |a i - l| + |b i - k|) (by positivity)]
  refine (abs_min_sub_min_le_max _ _ _ _).trans (max_le ?_ ?_) <;> linarith [abs_nonneg (a i - l), abs_nonneg (b i - k)]
theorem sqrt' (h : Near0 φ a l) (hl : 0 < l) : Near0 φ (fun i => Real.sqrt (a i)) (Real.sqrt l) := by
  have hs := Real.sqrt_pos.2 hl
  refine IsBigO.trans (IsBigO.of_bound (Real.sqrt l)⁻¹ ((h.tendsto.eventually (lt_mem_nhds hl)).mono fun i hi => ?_)) h
  dsimp only at hi ⊢
  rw [Real.norm_eq_abs, Real.norm_eq_abs, inv_mul_eq_div, le_div_iff₀ hs]
  have h2 : a i - l = (Real.sqrt (a i) - Real.sqrt l) * (Real.sqrt (a i) + Real.sqrt l) := by
    have e1 := Real.mul_self_sqrt hi.le; have e2 := Real.mul_self_sqrt hl.le
    nlinarith
  have h3 := Real.sqrt_nonneg (a i)
  rw [h2, abs_mul, abs_of_pos (a := Real.sqrt (a i) + Real.sqrt l) (by linarith)]
  exact mul_le_mul_of_nonneg_left (by linarith) (abs_nonneg _)


theorem fl (h : Near0 φ a l) : Near0 φ (fun i => (φ i).fl (a i)) l := by
  have h1 : (fun i => (φ i).fl (a i) - a i) =O[good φ] (fun i => (φ i).t) := by
    have h2 : (fun i => (φ i).fl (a i) - a i) =O[good φ] (fun i => (φ i).t * (|a i| + 1)) := by
      refine IsBigO.of_bound 1 (Eventually.of_forall fun i => ?_)
      have h0 := abs_nonneg (a i)
      rw [one_mul, norm_mul, Real.norm_eq_abs, Real.norm_eq_abs, Real.norm_eq_abs, abs_of_nonneg (φ i).t_nonneg, abs_of_nonneg (a := |a i| + 1) (by linarith)]
      have := (φ i).err (a i)
      unfold Fmt.t
      nlinarith [(φ i).u_nonneg, (φ i).eta_nonneg]
    have h3 := (isBigO_refl (fun i => (φ i).t) (good φ)).mul ((IsBigO.abs_left h.isBigO_one).add (isBigO_refl (fun _ => (1:ℝ)) (good φ)))
    simp only [mul_one] at h3
    exact h2.trans h3
  have := h1.add h
  refine this.congr_left fun i => by ring

theorem eventually_le (h : Near0 φ a l) : ∀ᶠ i in good φ, |a i| ≤ (φ i).big := by
  have h1 : ∀ᶠ i in good φ, |a i| < |l| + 1 := h.tendsto.abs.eventually (gt_mem_nhds (by linarith))
  filter_upwards [h1, tendsto_big.eventually (eventually_ge_atTop (|l| + 1))] with i a b
  linarith

end Near0

/-- computed numbers: finite in all runs with small roundoff and large range, and within a constant times the roundoff of `l` -/
def Lim (φ : ι → Fmt) (x : ι → Flo) (l : ℝ) : Prop := ∃ c : ι → ℝ, (∀ᶠ i in good φ, x i = .fin (c i)) ∧ Near0 φ c l

theorem lim_iff {x : ι → Flo} {l : ℝ} : Lim φ x l ↔ ∃ C t0 B : ℝ, 0 < t0 ∧ ∀ i, (φ i).t ≤ t0 → B ≤ (φ i).big → ∃ c, x i = .fin c ∧ |c - l| ≤ C * (φ i).t := by
  constructor
  · rintro ⟨c, h1, h2⟩
    unfold Near0 at h2
    rw [isBigO_iff] at h2
    obtain ⟨C, h2⟩ := h2
    obtain ⟨t0, h0, B, h⟩ := good_iff.1 (h1.and h2)
    refine ⟨C, t0, B, h0, fun i a b => ⟨c i, (h i a b).1, ?_⟩⟩
    have := (h i a b).2
    rwa [Real.norm_eq_abs, Real.norm_eq_abs, abs_of_nonneg (φ i).t_nonneg] at this
  · rintro ⟨C, t0, B, h0, h⟩
    classical
    refine ⟨fun i => match x i with | .fin c => c | _ => 0, ?_, ?_⟩
    · refine good_iff.2 ⟨t0, h0, B, fun i a b => ?_⟩
      obtain ⟨c, hc, -⟩ := h i a b
      simp only [hc]
    · refine IsBigO.of_bound C (good_iff.2 ⟨t0, h0, B, fun i a b => ?_⟩)
      obtain ⟨c, hc, hd⟩ := h i a b
      simp only [hc]
      rwa [Real.norm_eq_abs, Real.norm_eq_abs, abs_of_nonneg (φ i).t_nonneg]

namespace Lim
variable {x y : ι → Flo} {l k : ℝ}

theorem congr (h : Lim φ x l) (he : ∀ᶠ i in good φ, y i = x i) : Lim φ y l := by
  obtain ⟨c, h1, h2⟩ := h
  exact ⟨c, by filter_upwards [h1, he] with i a b; rw [b, a], h2⟩

theorem of_fin {c : ι → ℝ} (h : Near0 φ c l) : Lim φ (fun i => .fin (c i)) l := ⟨c, Eventually.of_forall fun _ => rfl, h⟩
theorem const (l : ℝ) : Lim φ (fun _ => .fin l) l := of_fin (.const l)

theorem rnd {c : ι → ℝ} (h : Near0 φ c l) : Lim φ (fun i => (φ i).rnd (c i)) l := by
  refine ⟨fun i => (φ i).fl (c i), ?_, h.fl⟩
  filter_upwards [h.fl.eventually_le] with i hi
  unfold Fmt.rnd; rw [if_pos hi]
theorem lit (l : ℝ) : Lim φ (fun i => (φ i).rnd l) l := rnd (.const l)

theorem add (h : Lim φ x l) (g : Lim φ y k) : Lim φ (fun i => (φ i).add (x i) (y i)) (l + k) := by
  obtain ⟨c, h1, h2⟩ := h; obtain ⟨d, g1, g2⟩ := g
  exact (rnd (h2.add' g2)).congr (by filter_upwards [h1, g1] with i a b; rw [a, b]; rfl)
theorem neg (h : Lim φ x l) : Lim φ (fun i => (x i).neg) (-l) := by
  obtain ⟨c, h1, h2⟩ := h
  exact (of_fin h2.neg').congr (by filter_upwards [h1] with i a; rw [a]; rfl)
theorem sub (h : Lim φ x l) (g : Lim φ y k) : Lim φ (fun i => (φ i).sub (x i) (y i)) (l - k) := by
  rw [sub_eq_add_neg]; exact h.add g.neg
theorem mul (h : Lim φ x l) (g : Lim φ y k) : Lim φ (fun i => (φ i).mul (x i) (y i)) (l * k) := by
  obtain ⟨c, h1, h2⟩ := h; obtain ⟨d, g1, g2⟩ := g
  exact (rnd (h2.mul' g2)).congr (by filter_upwards [h1, g1] with i a b; rw [a, b]; rfl)
theorem div (h : Lim φ x l) (g : Lim φ y k) (hk : k ≠ 0) : Lim φ (fun i => (φ i).div (x i) (y i)) (l / k) := by
  obtain ⟨c, h1, h2⟩ := h; obtain ⟨d, g1, g2⟩ := g
  refine (rnd (h2.div' g2 hk)).congr ?_
  filter_upwards [h1, g1, g2.tendsto.eventually_ne hk] with i a b hd
  rw [a, b]; unfold Fmt.div; dsimp only; rw [if_neg hd]
theorem sqrt (h : Lim φ x l) (hl : 0 < l) : Lim φ (fun i => (φ i).sqrt (x i)) (Real.sqrt l) := by
  obtain ⟨c, h1, h2⟩ := h
  refine (rnd (h2.sqrt' hl)).congr ?_
  filter_upwards [h1, h2.tendsto.eventually (lt_mem_nhds hl)] with i a hd
  rw [a]; unfold Fmt.sqrt; dsimp only; rw [if_neg (not_lt.2 hd.le)]
theorem abs (h : Lim φ x l) : Lim φ (fun i => (x i).abs) |l| := by
  obtain ⟨c, h1, h2⟩ := h
  exact (of_fin h2.abs').congr (by filter_upwards [h1] with i a; rw [a]; rfl)
theorem max2 (h : Lim φ x l) (g : Lim φ y k) : Lim φ (fun i => Flo.max2 (x i) (y i)) (max l k) := by
  obtain ⟨c, h1, h2⟩ := h; obtain ⟨d, g1, g2⟩ := g
  refine (of_fin (h2.max' g2)).congr ?_
  filter_upwards [h1, g1] with i a b
  rw [a, b]; unfold Flo.max2 Flo.lt; dsimp only
  split_ifs with h
  · rw [max_eq_right h.le]
  · rw [max_eq_left (not_lt.1 h)]
theorem min2 (h : Lim φ x l) (g : Lim φ y k) : Lim φ (fun i => Flo.min2 (x i) (y i)) (min l k) := by
  obtain ⟨c, h1, h2⟩ := h; obtain ⟨d, g1, g2⟩ := g
  refine (of_fin (h2.min' g2)).congr ?_
  filter_upwards [h1, g1] with i a b
  rw [a, b]; unfold Flo.min2 Flo.lt; dsimp only
  split_ifs with h
  · rw [min_eq_right h.le]
  · rw [min_eq_left (not_lt.1 h)]

theorem lt_zero (h : Lim φ x l) (hl : l < 0) : ∀ᶠ i in good φ, (x i).lt (.fin 0) := by
  obtain ⟨c, h1, h2⟩ := h
  filter_upwards [h1, h2.tendsto.eventually (gt_mem_nhds hl)] with i a b
  rw [a]; exact b
theorem not_lt_zero (h : Lim φ x l) (hl : 0 < l) : ∀ᶠ i in good φ, ¬ (x i).lt (.fin 0) := by
  obtain ⟨c, h1, h2⟩ := h
  filter_upwards [h1, h2.tendsto.eventually (lt_mem_nhds hl)] with i a b
  rw [a]; exact not_lt.2 b.le

end Lim

/-- A computed number together with the exact one; `ok` and `nz` are computed by evaluating the formula. -/
structure Tr {ι : Type*} (φ : ι → Fmt) where
  x : ι → Flo
  l : ℝ
  /-- the limit is known to exist -/
  ok : Bool
  /-- the exact number is known to be different from 0 -/
  nz : Bool
  h : ok = true → Lim φ x l
  hn : nz = true → ok = true ∧ l ≠ 0

namespace Tr

noncomputable instance : Add (Tr φ) := ⟨fun a b =>
  { x := fun i => (φ i).add (a.x i) (b.x i), l := a.l + b.l, ok := a.ok && b.ok, nz := false
    h := fun h => by simp only [Bool.and_eq_true] at h; exact (a.h h.1).add (b.h h.2)
    hn := fun h => by simp at h }⟩
noncomputable instance : Sub (Tr φ) := ⟨fun a b =>
  { x := fun i => (φ i).sub (a.x i) (b.x i), l := a.l - b.l, ok := a.ok && b.ok, nz := false
    h := fun h => by simp only [Bool.and_eq_true] at h; exact (a.h h.1).sub (b.h h.2)
    hn := fun h => by simp at h }⟩
noncomputable instance : Neg (Tr φ) := ⟨fun a =>
  { x := fun i => (a.x i).neg, l := -a.l, ok := a.ok, nz := false
    h := fun h => (a.h h).neg
    hn := fun h => by simp at h }⟩
noncomputable instance : Mul (Tr φ) := ⟨fun a b =>
  { x := fun i => (φ i).mul (a.x i) (b.x i), l := a.l * b.l, ok := a.ok && b.ok, nz := a.nz && b.nz
    h := fun h => by simp only [Bool.and_eq_true] at h; exact (a.h h.1).mul (b.h h.2)
    hn := fun h => by
      simp only [Bool.and_eq_true] at h ⊢
      exact ⟨⟨(a.hn h.1).1, (b.hn h.2).1⟩, mul_ne_zero (a.hn h.1).2 (b.hn h.2).2⟩ }⟩
noncomputable instance : Div (Tr φ) := ⟨fun a b =>
  { x := fun i => (φ i).div (a.x i) (b.x i), l := a.l / b.l, ok := a.ok && b.nz, nz := false
    h := fun h => by
      simp only [Bool.and_eq_true] at h
      exact (a.h h.1).div (b.h (b.hn h.2).1) (b.hn h.2).2
    hn := fun h => by simp at h }⟩

/-- a literal -/
noncomputable def lit (φ : ι → Fmt) (c : ℝ) (h : c ≠ 0) : Tr φ := ⟨fun i => (φ i).rnd c, c, true, true, fun _ => Lim.lit c, fun _ => ⟨rfl, h⟩⟩
noncomputable instance : OfNat (Tr φ) 1 := ⟨lit φ 1 (by norm_num)⟩
noncomputable instance : OfNat (Tr φ) 2 := ⟨lit φ 2 (by norm_num)⟩
noncomputable instance : OfNat (Tr φ) 4 := ⟨lit φ 4 (by norm_num)⟩
noncomputable instance : OfNat (Tr φ) 8 := ⟨lit φ 8 (by norm_num)⟩
noncomputable instance : OfScientific (Tr φ) := ⟨fun m s e =>
  ⟨fun i => (φ i).rnd (OfScientific.ofScientific m s e : ℝ), OfScientific.ofScientific m s e, true, false, fun _ => Lim.lit _, fun h => by simp at h⟩⟩

/-- the two flags -/
structure Flag where
  (ok nz : Bool)

instance : Add Flag := ⟨fun a b => ⟨a.ok && b.ok, false⟩⟩
instance : Sub Flag := ⟨fun a b => ⟨a.ok && b.ok, false⟩⟩
instance : Neg Flag := ⟨fun a => ⟨a.ok, false⟩⟩
instance : Mul Flag := ⟨fun a b => ⟨a.ok && b.ok, a.nz && b.nz⟩⟩
instance : Div Flag := ⟨fun a b => ⟨a.ok && b.nz, false⟩⟩
instance : OfNat Flag 1 := ⟨⟨true, true⟩⟩
instance : OfNat Flag 2 := ⟨⟨true, true⟩⟩
instance : OfNat Flag 4 := ⟨⟨true, true⟩⟩
instance : OfNat Flag 8 := ⟨⟨true, true⟩⟩
instance : OfScientific Flag := ⟨fun _ _ _ => ⟨true, false⟩⟩

def flag (a : Tr φ) : Flag := ⟨a.ok, a.nz⟩

/-- a number with a known limit -/
def ofLim (x : ι → Flo) (l : ℝ) (h : Lim φ x l) : Tr φ := ⟨x, l, true, false, fun _ => h, fun h => by simp at h⟩
/-- a number with a known limit different from 0 -/
def ofLimNz (x : ι → Flo) (l : ℝ) (h : Lim φ x l) (h0 : l ≠ 0) : Tr φ := ⟨x, l, true, true, fun _ => h, fun _ => ⟨rfl, h0⟩⟩

theorem of_flag {L : List (ℤ × ℤ × Tr φ)} {L' : List (ℤ × ℤ × Flag)} (h : L.map (fun t => t.2.2.flag) = L'.map (fun t => t.2.2))
    (hb : L'.all (fun t => t.2.2.ok) = true) {t : ℤ × ℤ × Tr φ} (ht : t ∈ L) : t.2.2.ok = true := by
  have h1 : t.2.2.flag ∈ L'.map (fun t => t.2.2) := by rw [← h]; exact List.mem_map_of_mem ht
  obtain ⟨s, hs, he⟩ := List.mem_map.1 h1
  have := List.all_eq_true.1 hb s hs
  rw [he] at this
  exact this

end Tr

/-- computed increments: the same positions, values with the exact ones as limits -/
def LimL (φ : ι → Fmt) (es : ∀ i, List (ℤ × ℤ × Fo (φ i))) (es0 : List (ℤ × ℤ × ℝ)) : Prop :=
  ∃ L : List (ℤ × ℤ × (ι → Flo)), (∀ i, es i = L.map fun t => (t.1, t.2.1, (t.2.2 i : Fo (φ i)))) ∧
    List.Forall₂ (fun x y => x.1 = y.1 ∧ x.2.1 = y.2.1 ∧ Lim φ x.2.2 y.2.2) L es0

theorem Tr.limL {es : ∀ i, List (ℤ × ℤ × Fo (φ i))} {es0 : List (ℤ × ℤ × ℝ)} (L : List (ℤ × ℤ × Tr φ))
    (h1 : ∀ i, L.map (fun t => (t.1, t.2.1, (t.2.2.x i : Fo (φ i)))) = es i) (h2 : L.map (fun t => (t.1, t.2.1, t.2.2.l)) = es0)
    (h3 : ∀ t ∈ L, t.2.2.ok = true) : LimL φ es es0 := by
  refine ⟨L.map fun t => (t.1, t.2.1, t.2.2.x), fun i => ?_, ?_⟩
  · rw [← h1 i, List.map_map]; rfl
  · rw [← h2]
    clear h1 h2
    induction L with
    | nil => exact .nil
    | cons a L ih =>
      exact .cons ⟨rfl, rfl, a.2.2.h (h3 a (by simp))⟩ (ih fun t ht => h3 t (by simp [ht]))

end Meshless
