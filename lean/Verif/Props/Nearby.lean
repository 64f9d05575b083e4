import Verif.Lemmas.Nearby
import Verif.Lemmas.ModalPert
import Verif.Props.Prestress
import Verif.Props.Parts
import Verif.Lemmas.Grid
import Mathlib.Analysis.SpecificLimits.Basic
import Verif.Props.Interaction

/-! Small changes of the plate, the supports' positions and the loads change the results only a little. -/

set_option autoImplicit false

namespace Meshless
open Spec Finset Filter Topology

variable {ι : Type} {l : Filter ι}

/-! ### matrices -/

theorem abs_form_le {n : ℕ} {A : ℕ → ℕ → ℝ} {ε : ℝ} (hA : ∀ i < n, ∀ j < n, |A i j| ≤ ε) (v u : ℕ → ℝ) :
    |form n A v u| ≤ ε * (∑ i ∈ range n, |v i|) * ∑ j ∈ range n, |u j| := by
  unfold form
  calc _ ≤ ∑ i ∈ range n, ∑ j ∈ range n, |v i * A i j * u j| := (abs_sum_le_sum_abs _ _).trans (sum_le_sum fun i _ => abs_sum_le_sum_abs _ _)
    _ ≤ ∑ i ∈ range n, ∑ j ∈ range n, ε * |v i| * |u j| := sum_le_sum fun i hi => sum_le_sum fun j hj => by
      rw [abs_mul, abs_mul]
      have := hA i (mem_range.1 hi) j (mem_range.1 hj)
      have h1 := mul_le_mul_of_nonneg_left this (abs_nonneg (v i))
      have h2 := mul_le_mul_of_nonneg_right h1 (abs_nonneg (u j))
      linarith
    _ = _ := by simp only [mul_sum, sum_mul]; rw [sum_comm]

theorem form_sub_mat (n : ℕ) (A B : ℕ → ℕ → ℝ) (v u : ℕ → ℝ) : form n A v u = form n B v u + form n (fun i j => A i j - B i j) v u := by
  unfold form
  rw [← sum_add_distrib]
  refine sum_congr rfl fun i _ => ?_
  rw [← sum_add_distrib]
  exact sum_congr rfl fun j _ => by ring

theorem pd_coercive {n : ℕ} {H : ℕ → ℕ → ℝ} (hs : ∀ i < n, ∀ j < n, H i j = H j i) {S : Set ℕ} (hpd : ∀ x, Supported n S x → (∃ i < n, x i ≠ 0) → 0 < form n H x x) :
    ∃ κ : ℝ, 0 < κ ∧ ∀ x, Supported n S x → κ * (∑ i ∈ range n, |x i|) ^ 2 ≤ form n H x x := by
  obtain ⟨_, p, μ, hm⟩ := modal_exists hs (G := fun _ _ => 0) (fun _ _ _ _ => rfl) S hpd
  exact hm.coercive

/-- total difference of two matrices -/
noncomputable def gapMat (n : ℕ) (A B : ℕ → ℕ → ℝ) : ℝ := ∑ i ∈ range n, ∑ j ∈ range n, |A i j - B i j|

theorem gapMat_le {n : ℕ} (A B : ℕ → ℕ → ℝ) : ∀ i < n, ∀ j < n, |A i j - B i j| ≤ gapMat n A B := fun i hi _ hj =>
  (single_le_sum (f := fun j => |A i j - B i j|) (fun _ _ => abs_nonneg _) (mem_range.2 hj)).trans
    (single_le_sum (f := fun i => ∑ j ∈ range n, |A i j - B i j|) (fun _ _ => sum_nonneg fun _ _ => abs_nonneg _) (mem_range.2 hi))

theorem gapMat_tends {n : ℕ} {Hs : ι → ℕ → ℕ → ℝ} {H : ℕ → ℕ → ℝ} (ht : ∀ i < n, ∀ j < n, Tendsto (fun a => Hs a i j) l (𝓝 (H i j))) :
    Tendsto (fun a => gapMat n (Hs a) H) l (𝓝 0) := by
  have : Tendsto (fun a => gapMat n (Hs a) H) l (𝓝 (∑ i ∈ range n, ∑ j ∈ range n, (0 : ℝ))) := by
    refine tendsto_finsetSum _ fun i hi => tendsto_finsetSum _ fun j hj => ?_
    have := ((ht i (mem_range.1 hi) j (mem_range.1 hj)).sub_const (H i j)).abs
    simpa using this
  simpa using this

/-- positive definite matrices form an open set -/
theorem pd_near {n : ℕ} {Hs : ι → ℕ → ℕ → ℝ} {H : ℕ → ℕ → ℝ} (hs : ∀ i < n, ∀ j < n, H i j = H j i) {S : Set ℕ}
    (hpd : ∀ x, Supported n S x → (∃ i < n, x i ≠ 0) → 0 < form n H x x) (ht : ∀ i < n, ∀ j < n, Tendsto (fun a => Hs a i j) l (𝓝 (H i j))) :
    ∀ᶠ a in l, ∀ x, Supported n S x → (∃ i < n, x i ≠ 0) → 0 < form n (Hs a) x x := by
  obtain ⟨κ, hκ, hco⟩ := pd_coercive hs hpd
  filter_upwards [(gapMat_tends ht).eventually (gt_mem_nhds hκ)] with a ha x hx hne
  have h1 := abs_form_le (gapMat_le (n := n) (Hs a) H) x x
  have h2 := form_sub_mat n (Hs a) H x x
  have h3 := hco x hx
  obtain ⟨i, hi, hxi⟩ := hne
  have h4 : 0 < ∑ i ∈ range n, |x i| := lt_of_lt_of_le (abs_pos.2 hxi) (single_le_sum (f := fun i => |x i|) (fun _ _ => abs_nonneg _) (mem_range.2 hi))
  have h5 := (abs_le.1 h1).1
  have h6 : 0 < (κ - gapMat n (Hs a) H) * (∑ i ∈ range n, |x i|) ^ 2 := mul_pos (by linarith) (by positivity)
  nlinarith

/-- solutions of supported linear systems depend continuously on matrix and right-hand side -/
theorem static_near {n : ℕ} {Hs : ι → ℕ → ℕ → ℝ} {H : ℕ → ℕ → ℝ} (hs : ∀ i < n, ∀ j < n, H i j = H j i) {S : Set ℕ}
    (hpd : ∀ x, Supported n S x → (∃ i < n, x i ≠ 0) → 0 < form n H x x) (ht : ∀ i < n, ∀ j < n, Tendsto (fun a => Hs a i j) l (𝓝 (H i j)))
    {fs : ι → ℕ → ℝ} {f : ℕ → ℝ} (hf : ∀ i < n, Tendsto (fun a => fs a i) l (𝓝 (f i))) {ds : ι → ℕ → ℝ} {d : ℕ → ℝ}
    (hds : ∀ᶠ a in l, Supported n S (ds a) ∧ ∀ i < n, i ∉ S → ∑ j ∈ range n, Hs a i j * ds a j = fs a i)
    (hd : Supported n S d ∧ ∀ i < n, i ∉ S → ∑ j ∈ range n, H i j * d j = f i) : ∀ i < n, Tendsto (fun a => ds a i) l (𝓝 (d i)) := by
  obtain ⟨κ, hκ, hco⟩ := pd_coercive hs hpd
  set D := ∑ i ∈ range n, |d i| with hD
  have hδ : Tendsto (fun a => ∑ i ∈ range n, |fs a i - f i|) l (𝓝 0) := by
    have : Tendsto (fun a => ∑ i ∈ range n, |fs a i - f i|) l (𝓝 (∑ i ∈ range n, (0 : ℝ))) :=
      tendsto_finsetSum _ fun i hi => by simpa using ((hf i (mem_range.1 hi)).sub_const (f i)).abs
    simpa using this
  have hε := gapMat_tends ht
  have hb : Tendsto (fun a => 2 / κ * (∑ i ∈ range n, |fs a i - f i| + gapMat n (Hs a) H * D)) l (𝓝 0) := by
    have := (hδ.add (hε.mul_const D)).const_mul (2 / κ)
    simpa using this
  have hmain : ∀ᶠ a in l, ∑ i ∈ range n, |ds a i - d i| ≤ 2 / κ * (∑ i ∈ range n, |fs a i - f i| + gapMat n (Hs a) H * D) := by
    filter_upwards [hε.eventually (gt_mem_nhds (half_pos hκ)), hds] with a ha hda
    set e : ℕ → ℝ := fun i => ds a i - d i with he
    have hes : Supported n S e := fun i hi hiS => by rw [he]; simp only; rw [hda.1 i hi hiS, hd.1 i hi hiS, sub_zero]
    set s := ∑ i ∈ range n, |e i| with hsdef
    have hs0 : 0 ≤ s := sum_nonneg fun _ _ => abs_nonneg _
    set δ := ∑ i ∈ range n, |fs a i - f i| with hδdef
    have hδ0 : 0 ≤ δ := sum_nonneg fun _ _ => abs_nonneg _
    set ε := gapMat n (Hs a) H with hεdef
    have hε0 : 0 ≤ ε := sum_nonneg fun _ _ => sum_nonneg fun _ _ => abs_nonneg _
    have hrow : ∀ i < n, |∑ j ∈ range n, (Hs a i j - H i j) * ds a j| ≤ ε * (s + D) := by
      intro i hi
      calc _ ≤ ∑ j ∈ range n, |(Hs a i j - H i j) * ds a j| := abs_sum_le_sum_abs _ _
        _ ≤ ∑ j ∈ range n, ε * (|e j| + |d j|) := sum_le_sum fun j hj => by
          rw [abs_mul]
          have h1 : |ds a j| ≤ |e j| + |d j| := by
            have := abs_add_le (e j) (d j)
            rwa [show e j + d j = ds a j by rw [he]; ring] at this
          exact mul_le_mul (gapMat_le _ _ i hi j (mem_range.1 hj)) h1 (abs_nonneg _) hε0
        _ = ε * (s + D) := by rw [← mul_sum, sum_add_distrib]
    have hform : form n H e e ≤ s * (δ + ε * (s + D)) := by
      unfold form
      have : ∀ i ∈ range n, ∑ j ∈ range n, e i * H i j * e j ≤ |e i| * (δ + ε * (s + D)) := by
        intro i hi
        have hi' := mem_range.1 hi
        have : ∑ j ∈ range n, e i * H i j * e j = e i * ∑ j ∈ range n, H i j * e j := by rw [mul_sum]; exact sum_congr rfl fun _ _ => by ring
        rw [this]
        by_cases hiS : i ∈ S
        · rw [hes i hi' hiS]; simp
        · have h1 : ∑ j ∈ range n, H i j * e j = (fs a i - f i) - ∑ j ∈ range n, (Hs a i j - H i j) * ds a j := by
            rw [← hda.2 i hi' hiS, ← hd.2 i hi' hiS, ← sum_sub_distrib, ← sum_sub_distrib]
            exact sum_congr rfl fun _ _ => by rw [he]; ring
          rw [h1]
          refine (le_abs_self _).trans ?_
          rw [abs_mul]
          refine mul_le_mul_of_nonneg_left ?_ (abs_nonneg _)
          have h2 := abs_sub (fs a i - f i) (∑ j ∈ range n, (Hs a i j - H i j) * ds a j)
          have h3 : |fs a i - f i| ≤ δ := single_le_sum (f := fun i => |fs a i - f i|) (fun _ _ => abs_nonneg _) hi
          linarith [hrow i hi']
      calc _ ≤ _ := sum_le_sum this
        _ = _ := by rw [← sum_mul]
    have h4 := hco e hes
    rcases hs0.eq_or_lt with h0 | h0
    · rw [← h0]
      have : 0 ≤ D := sum_nonneg fun _ _ => abs_nonneg _
      positivity
    · have h5 : κ * s ≤ δ + ε * (s + D) := by
        have : s * (κ * s) ≤ s * (δ + ε * (s + D)) := by linarith [h4, hform, pow_two s, show s * (κ * s) = κ * s ^ 2 by ring]
        exact le_of_mul_le_mul_left this h0
      have h6 : ε * s ≤ κ / 2 * s := mul_le_mul_of_nonneg_right (le_of_lt ha) hs0
      have h7 : κ / 2 * s ≤ δ + ε * D := by linarith
      calc s = 2 / κ * (κ / 2 * s) := by field_simp
        _ ≤ _ := mul_le_mul_of_nonneg_left h7 (by positivity)
  intro i hi
  rw [tendsto_iff_norm_sub_tendsto_zero]
  refine squeeze_zero' (Eventually.of_forall fun _ => norm_nonneg _) ?_ hb
  filter_upwards [hmain] with a ha
  exact (single_le_sum (f := fun i => |ds a i - d i|) (fun _ _ => abs_nonneg _) (mem_range.2 hi)).trans ha

/-! ### plates -/

theorem stiff_near {ps : ι → Lam} {p : Lam} (h : LamTends l ps p) (hp : StiffABD p) : ∀ᶠ n in l, StiffABD (ps n) := by
  let M : Lam → ℕ → ℕ → ℝ := fun q i j => if h : i < 6 ∧ j < 6 then abd q ⟨i, h.1⟩ ⟨j, h.2⟩ else 0
  have hform : ∀ (q : Lam) (x : ℕ → ℝ), form 6 (M q) x x = ∑ i : Fin 6, ∑ j : Fin 6, x i * abd q i j * x j := by
    intro q x
    unfold form
    rw [sum_range]
    refine sum_congr rfl fun i _ => ?_
    rw [sum_range]
    refine sum_congr rfl fun j _ => ?_
    simp only [M]
    rw [dif_pos ⟨i.2, j.2⟩]
  have key := pd_near (l := l) (n := 6) (Hs := fun n => M (ps n)) (H := M p) (S := ∅) (fun i hi j hj => by simp only [M]; rw [dif_pos ⟨hi, hj⟩, dif_pos ⟨hj, hi⟩, specAbd_symm])
    (fun x _ hx => by
      rw [hform]
      obtain ⟨i, hi, hxi⟩ := hx
      exact hp (fun i => x i) fun h0 => hxi (congrFun h0 ⟨i, hi⟩))
    (fun i hi j hj => by simp only [M]; simp only [dif_pos (And.intro hi hj)]; exact h.abd _ _)
  filter_upwards [key] with n hn x hx
  obtain ⟨i, hi⟩ := Function.ne_iff.1 hx
  have := hn (fun k => if hk : k < 6 then x ⟨k, hk⟩ else 0) (fun k _ hk => absurd hk (Set.notMem_empty k)) ⟨i, i.2, by rw [dif_pos i.2]; exact hi⟩
  rw [hform] at this
  simpa using this

theorem shear_near {ps : ι → Lam} {p : Lam} (h : LamTends l ps p) (hp : StiffShear p) : ∀ᶠ n in l, StiffShear (ps n) := by
  filter_upwards [h.h.eventually (lt_mem_nhds hp.1), h.k13.eventually (lt_mem_nhds hp.2.1), h.k23.eventually (lt_mem_nhds hp.2.2.1),
    (h.E 0 0).eventually (lt_mem_nhds hp.2.2.2.1), (h.E 1 1).eventually (lt_mem_nhds hp.2.2.2.2)] with n a b c d e
  exact ⟨a, b, c, d, e⟩

section
variable {ms : ι → Mesh} {m : Mesh} {pn : Bool} (h : PlateTends l pn ms m) (hr : Reachable m) (hrs : ∀ n, Reachable (ms n)) (hg : GoodPlate m pn)
include h hr hrs hg

omit hr hrs in
theorem lams_near {P : Lam → Prop} (hP : ∀ ps p, LamTends l ps p → P p → ∀ᶠ n in l, P (ps n)) (hm : ∀ p, InUse m pn p → P p) : ∀ᶠ n in l, ∀ p, InUse (ms n) pn p → P p := by
  have one : ∀ (os : ι → Option Lam) (o : Option Lam), PropTends l os o → (∀ p, o = some p → P p) → ∀ᶠ n in l, ∀ p, os n = some p → P p := by
    intro os o ho hP'
    rcases ho with ⟨rfl, h0⟩ | ⟨ps, p, rfl, h1, h2⟩
    · exact Eventually.of_forall fun n p hp => by rw [h0 n] at hp; exact absurd hp (by simp)
    · filter_upwards [hP ps p h2 (hP' p rfl)] with n hn q hq
      rw [h1 n] at hq
      simp only [Option.some.injEq] at hq
      exact hq ▸ hn
  unfold InUse at *
  cases pn with
  | true =>
    simp only [if_true] at hm ⊢
    have : ∀ᶠ n in l, ∀ i ∈ m.nids.toFinset, ∀ p, ((ms n).node i).prop = some p → P p := by
      rw [Filter.eventually_all_finset]
      intro i hi
      rw [List.mem_toFinset] at hi
      exact one _ _ (h.nprop rfl i hi) fun p hp => hm p ⟨i, hi, hp⟩
    filter_upwards [this] with n hn p hp
    obtain ⟨i, hi, hip⟩ := hp
    exact hn i (List.mem_toFinset.2 (h.nids n ▸ hi)) p hip
  | false =>
    simp only [Bool.false_eq_true, if_false] at hm ⊢
    have : ∀ᶠ n in l, ∀ i ∈ m.eids.toFinset, ∀ p, ((ms n).tria i).prop = some p → P p := by
      rw [Filter.eventually_all_finset]
      intro i hi
      rw [List.mem_toFinset] at hi
      exact one _ _ (h.tprop rfl i hi) fun p hp => hm p ⟨i, hi, hp⟩
    filter_upwards [this] with n hn p hp
    obtain ⟨i, hi, hip⟩ := hp
    exact hn i (List.mem_toFinset.2 (h.eids n ▸ hi)) p hip

/-- C139: every plate close enough to a good plate is good. -/
theorem C139_good : ∀ᶠ n in l, GoodPlate (ms n) pn := by
  filter_upwards [h.planar hr.wf hg.proper hg.planar, lams_near h hg (fun ps p => stiff_near) hg.abd, lams_near h hg (fun ps p => shear_near) hg.shear] with n h1 h2 h3
  have w := glued_wf (π := id) (σ := id) (m' := ms n) hr.wf
  have hp := glued_proper (π := id) (σ := id) (m' := ms n) hg.proper
  have hs := h.same n
  refine ⟨hs.proper w (hrs n).wf hp, hs.planar w (hrs n).wf hp h1 one_ne_zero (h.basic n) (h.flat n), ⟨?_, ?_⟩, h2, h3⟩
  · have hadj : ∀ e e', Adjacent m e e' → Adjacent (ms n) e e' := by
      rintro e e' ⟨k, hk, h4, h5⟩
      have hk' : k ∈ (glued id id m (ms n)).ekeys := hk
      refine ⟨_, hs.key_mem w (hrs n).wf hp.distinct hk', ?_, ?_⟩
      · rw [(hs.trias w (hrs n).wf hp.distinct hk').mem_iff]; simpa [glued] using h4
      · rw [(hs.trias w (hrs n).wf hp.distinct hk').mem_iff]; simpa [glued] using h5
    intro e he e' he'
    rw [h.eids n] at he he'
    exact Relation.ReflTransGen.mono hadj _ _ (hg.piece.walk e he e' he')
  · intro i hi
    rw [h.nids n] at hi
    obtain ⟨e, he, hc⟩ := hg.piece.used i hi
    refine ⟨e, by rw [h.eids n]; exact he, ?_⟩
    obtain ⟨a, b, c⟩ := h.nodes n he
    unfold IsCorner at *
    rwa [a, b, c]

variable {method : String} {al : ℝ} (ha : 0 ≤ al) {als : ι → ℝ} (hal : Tendsto als l (𝓝 al)) {fa : Bool} {K : Mat} (hK : Stiffness m pn method al fa K) {Ks : ι → Mat}
  (hKs : ∀ᶠ n in l, Stiffness (ms n) pn method (als n) fa (Ks n))
include hKs

theorem near_dim : ∀ᶠ n in l, (Ks n).dim = 5 * m.nids.length := by
  filter_upwards [C139_good h hr hrs hg, hKs] with n h1 h2
  rw [(stiffness_energy (hrs n) h1 h2).1, h.nids n]

include ha hal hK

/-- C139: the stiffness matrix depends continuously on coordinates, laminates and alpha. -/
theorem C139_stiffness : (∀ᶠ n in l, (Ks n).dim = K.dim) ∧ ∀ i < K.dim, ∀ j < K.dim, Tendsto (fun n => (Ks n).get i j) l (𝓝 (K.get i j)) := by
  obtain ⟨hdim, hh, _, hform⟩ := parts_energy hr hg.parts hK
  refine ⟨by rw [hdim]; exact near_dim h hr hrs hg hKs, fun i hi j hj => ?_⟩
  rw [← form_single K.get hi hj, hform]
  have hth : Thick m pn := fun e he => (cavg_pos hr.wf hh he fun p hp => (hg.shear p hp).1).ne'
  have h1 := h.energy hr.wf hg.proper hg.planar (fun n => (hrs n).wf) (single i) (single j)
  have h2 : Tendsto (fun n => shearEnergy (ms n) pn (als n) fa (if method = "cell-based" then cellStrain (ms n) else wholeGamma (ms n)) (single i) (single j)) l
      (𝓝 (shearEnergy m pn al fa (if method = "cell-based" then cellStrain m else wholeGamma m) (single i) (single j))) := by
    by_cases hm : method = "cell-based"
    · simp only [if_pos hm]
      exact tendsto_shearEnergy hr.wf hg.proper h fa hth hal ha (gam := cellStrain) (fun e he z r => tendsto_cell hr.wf hg.proper hg.planar h he z r) _ _
    · simp only [if_neg hm]
      exact tendsto_shearEnergy hr.wf hg.proper h fa hth hal ha (gam := wholeGamma) (fun e he z r => tendsto_whole hr.wf hg.proper hg.planar h he z r) _ _
  refine (h1.add h2).congr' ?_
  filter_upwards [C139_good h hr hrs hg, hKs, near_dim h hr hrs hg hKs] with n g1 g2 g3
  rw [← (parts_energy (hrs n) g1.parts g2).2.2.2]
  exact form_single _ (by rw [g3, ← hdim]; exact hi) (by rw [g3, ← hdim]; exact hj)

variable {S : Set ℕ} (hS : Stable K S)
include hS

/-- C139: supports that hold a plate hold every plate close to it; the static solution depends continuously on coordinates, laminates, alpha and loads. -/
theorem C139_static : (∀ᶠ n in l, Stable (Ks n) S) ∧ ∀ {fs : ι → ℕ → ℝ} {f : ℕ → ℝ} {ds : ι → ℕ → ℝ} {d : ℕ → ℝ}, (∀ i < K.dim, Tendsto (fun n => fs n i) l (𝓝 (f i))) →
    (∀ᶠ n in l, StaticSol (Ks n) S (fs n) (ds n)) → StaticSol K S f d → ∀ i < K.dim, Tendsto (fun n => ds n i) l (𝓝 (d i)) := by
  obtain ⟨hd, ht⟩ := C139_stiffness h hr hrs hg ha hal hK hKs
  have hsym := C78_symmetric hr hg hK
  constructor
  · filter_upwards [hd, pd_near hsym hS ht] with n h1 h2
    unfold Stable; rw [h1]; exact h2
  · intro fs f ds d hf hds hd'
    refine static_near hsym hS ht hf ?_ hd'
    filter_upwards [hd, hds] with n h1 h2
    rw [← h1]; exact h2

omit hS ha hal in
/-- C139: the geometric stiffness matrix depends continuously on coordinates, laminates and the pre-buckling displacements. -/
theorem C139_geometric {ds : ι → List ℝ} {d : List ℝ} (hdl : ∀ᶠ n in l, (ds n).length = 5 * m.nids.length) (hl : d.length = 5 * m.nids.length)
    (hd : ∀ i < K.dim, Tendsto (fun n => vec (ds n) i) l (𝓝 (vec d i))) {Gs : ι → Mat} {G : Mat} (hG : calcKG (calcK0 m pn).1 d pn = .ok G)
    (hGs : ∀ᶠ n in l, calcKG (calcK0 (ms n) pn).1 (ds n) pn = .ok (Gs n)) : ∀ i < K.dim, ∀ j < K.dim, Tendsto (fun n => (Gs n).get i j) l (𝓝 (G.get i j)) := by
  have one : ∀ {m : Mesh} {al : ℝ} {K G : Mat} {d : List ℝ}, Reachable m → GoodPlate m pn → Stiffness m pn method al fa K → d.length = 5 * m.nids.length → calcKG (calcK0 m pn).1 d pn = .ok G →
      ∀ i < K.dim, ∀ j < K.dim, G.get i j = geometric m pn (vec d) (single i) (single j) := by
    intro m al K G d hr hg hK hd hG i hi j hj
    obtain ⟨hdim, hh, ⟨K0, hK0⟩, _⟩ := parts_energy hr hg.parts hK
    obtain ⟨hs, _, hh, _⟩ := calcK0_ok hr.wf hK0
    have haf : AfterK0 (calcK0 m pn).1 := .intro m hr pn K0 hK0 [] (by simp)
    have hform := C29_energy haf (hs.proper hg.proper) (hs.planar hg.planar) (hs.hasProps hh) (by rw [hs.nids]; exact hd) hG (single i) (single j)
    have hGd : G.dim = K.dim := by rw [(calcKG_sum hG).1, hdim]; omega
    rw [hGd, form_single _ hi hj, hs.sgeometric] at hform
    exact hform
  have hdim := (parts_energy hr hg.parts hK).1
  have hv : ∀ i, Tendsto (fun n => vec (ds n) i) l (𝓝 (vec d i)) := fun i => by
    by_cases hi : i < K.dim
    · exact hd i hi
    · have : ∀ d : List ℝ, d.length = 5 * m.nids.length → vec d i = 0 := fun d hd => by unfold vec; exact List.getD_eq_default _ _ (by omega)
      rw [this _ hl]
      refine tendsto_const_nhds.congr' ?_
      filter_upwards [hdl] with n hn using (this _ hn).symm
  intro i hi j hj
  rw [one hr hg hK hl hG i hi j hj]
  refine (h.geometric hr.wf hg.proper hg.planar (fun n => (hrs n).wf) hv (single i) (single j)).congr' ?_
  filter_upwards [C139_good h hr hrs hg, hKs, near_dim h hr hrs hg hKs, hGs, hdl] with n g1 g2 g3 g4 g5
  exact (one (hrs n) g1 g2 (by rw [h.nids n]; exact g5) g4 i (by rw [g3, ← hdim]; exact hi) j (by rw [g3, ← hdim]; exact hj)).symm

/-- C139: the first positive buckling factor of the complete analysis depends continuously on coordinates, laminates, alpha and loads; without positive factor
the positive factors of nearby plates tend to infinity. -/
theorem C139_buckling {fs : ι → ℕ → ℝ} {f : ℕ → ℝ} (hf : ∀ i < K.dim, Tendsto (fun n => fs n i) l (𝓝 (f i))) {ds : ι → List ℝ} {d : List ℝ} {Gs : ι → Mat} {G : Mat}
    (hc : LoadCase m pn K S f d G) (hcs : ∀ᶠ n in l, LoadCase (ms n) pn (Ks n) S (fs n) (ds n) (Gs n)) :
    (∀ c, FirstFactor K G S c → (∀ᶠ n in l, ∃ c', FirstFactor (Ks n) (Gs n) S c') ∧ ∀ cs : ι → ℝ, (∀ᶠ n in l, FirstFactor (Ks n) (Gs n) S (cs n)) → Tendsto cs l (𝓝 c)) ∧
    ((∀ c x, 0 < c → ¬BucklingMode K G S c x) → ∀ b : ℝ, ∀ᶠ n in l, ∀ c x, 0 < c → BucklingMode (Ks n) (Gs n) S c x → b < c) := by
  obtain ⟨hdim, ht⟩ := C139_stiffness h hr hrs hg ha hal hK hKs
  obtain ⟨hst, hsol⟩ := C139_static h hr hrs hg ha hal hK hKs hS
  have hsym := C78_symmetric hr hg hK
  have hgood := C139_good h hr hrs hg
  have hd := hsol hf (hcs.mono fun n hn => hn.solution) hc.solution
  have hG := C139_geometric h hr hrs hg hK hKs (hcs.mono fun n hn => by rw [hn.length, h.nids n]) hc.length hd hc.matrix (hcs.mono fun n hn => hn.matrix)
  have hsG : ∀ i < K.dim, ∀ j < K.dim, G.get i j = G.get j i := fun i _ j _ => (C30_symmetric hc.matrix).1 i j
  have hsum : ∀ t : ℝ, ∀ i < K.dim, ∀ j < K.dim, Tendsto (fun n => (Ks n).get i j + t * (Gs n).get i j) l (𝓝 (K.get i j + t * G.get i j)) :=
    fun t i hi j hj => (ht i hi j hj).add ((hG i hi j hj).const_mul t)
  have below : ∀ t : ℝ, 0 ≤ t → (∀ c x, 0 < c → BucklingMode K G S c x → t < c) → ∀ᶠ n in l, ∀ c x, 0 < c → BucklingMode (Ks n) (Gs n) S c x → t < c := by
    intro t h0 hlt
    have hpd := (C86_stability hr hg hK hS hc.matrix h0).2 hlt
    have := pd_near (fun i hi j hj => by rw [hsym i hi j hj, hsG i hi j hj]) hpd (hsum t)
    filter_upwards [this, hst, hgood, hKs, hdim, hcs] with n g1 g2 g3 g4 g5 g6
    refine (C86_stability (hrs n) g3 g4 g2 g6.matrix h0).1 ?_
    rw [g5]; exact g1
  refine ⟨fun c hfc => ?_, fun hno b => ?_⟩
  · obtain ⟨hc0, ⟨x, hx⟩, hmin⟩ := hfc
    have hK0 := hS x hx.2.1 hx.1
    have hform : ∀ v u : ℕ → ℝ, ∀ {A : ι → ℕ → ℕ → ℝ} {B : ℕ → ℕ → ℝ}, (∀ i < K.dim, ∀ j < K.dim, Tendsto (fun n => A n i j) l (𝓝 (B i j))) →
        Tendsto (fun n => form K.dim (A n) v u) l (𝓝 (form K.dim B v u)) := fun v u A B hAB =>
      tendsto_finsetSum _ fun i hi => tendsto_finsetSum _ fun j hj => ((hAB i (mem_range.1 hi) j (mem_range.1 hj)).const_mul (v i)).mul_const (u j)
    have hm := mode_form hx hx.2.1
    have hGneg : form K.dim G.get x x < 0 := by
      have : c * form K.dim G.get x x = -form K.dim K.get x x := by linarith
      by_contra hcon
      push Not at hcon
      have := mul_nonneg hc0.le hcon
      linarith
    have above : ∀ t, c < t → ∀ᶠ n in l, ∃ c', FirstFactor (Ks n) (Gs n) S c' ∧ c' < t := by
      intro t hct
      have hneg : form K.dim (fun i j => K.get i j + t * G.get i j) x x < 0 := by
        have e := form_add_mat K.dim K.get G.get 1 t x x
        simp only [one_mul] at e
        rw [e]
        have : (t - c) * form K.dim G.get x x < 0 := mul_neg_of_pos_of_neg (by linarith) hGneg
        nlinarith
      filter_upwards [(hform x x (hsum t)).eventually (gt_mem_nhds hneg), (hform x x hG).eventually (gt_mem_nhds hGneg), hst, hgood, hKs, hdim, hcs] with n g1 g2 g3 g4 g5 g6 g7
      have hxs : Supported (Ks n).dim S x := by rw [g6]; exact hx.2.1
      rw [← g6] at g1 g2
      obtain ⟨c', h1, h2, h3, h4⟩ := C86_first (hrs n) g4 g5 g3 g7.matrix hxs g2
      refine ⟨c', ⟨h1, h2, h3⟩, lt_of_le_of_lt h4 ?_⟩
      have e := form_add_mat (Ks n).dim (Ks n).get (Gs n).get 1 t x x
      simp only [one_mul] at e
      rw [e] at g1
      rw [div_lt_iff₀ (by linarith)]
      linarith
    refine ⟨(above (c + 1) (by linarith)).mono fun n hn => ⟨hn.choose, hn.choose_spec.1⟩, fun cs hcs' => ?_⟩
    have uniq : ∀ {K G : Mat} {c c' : ℝ}, FirstFactor K G S c → FirstFactor K G S c' → c = c' := fun h1 h2 =>
      le_antisymm (h1.2.2 _ _ h2.1 h2.2.1.choose_spec) (h2.2.2 _ _ h1.1 h1.2.1.choose_spec)
    refine tendsto_order.2 ⟨fun t htc => ?_, fun t htc => ?_⟩
    · rcases lt_or_ge t 0 with h0 | h0
      · filter_upwards [hcs'] with n hn using h0.trans hn.1
      · filter_upwards [below t h0 fun c' y hc' hy => lt_of_lt_of_le htc (hmin c' y hc' hy), hcs'] with n g1 g2
        exact g1 _ _ g2.1 g2.2.1.choose_spec
    · filter_upwards [above t htc, hcs'] with n g1 g2
      obtain ⟨c', g3, g4⟩ := g1
      rwa [uniq g2 g3]
  · have := below (max b 0) (le_max_right _ _) fun c x hc' hx => absurd hx (hno c x hc')
    filter_upwards [this] with n hn c x hc' hx
    exact lt_of_le_of_lt (le_max_left _ _) (hn c x hc' hx)

end

/-! ### concrete case: a square with one corner moved, made of a stiffer and thicker material -/

noncomputable def exNear (t : ℝ) : List Pt := [.d2 0 0, .d2 1 0, .d2 (1 + t) 1, .d2 0 1]

noncomputable def exNearP (t : ℝ) (i : ℕ) : ℝ × ℝ := if i = 0 then (0, 0) else if i = 1 then (1, 0) else if i = 2 then (1 + t, 1) else (0, 1)

theorem exNear_input {t : ℝ} (ht : 0 ≤ t) : InputTriangulation (exNear t).length (exNearP t) (fun _ => 0) exTris := by
  refine ⟨?_, fun _ _ _ _ => rfl, ?_, ?_⟩
  · intro t ht
    obtain ⟨h1, h2, h3, _⟩ := exTris_valid t ht
    exact ⟨h1, h2, h3⟩
  · intro s hs
    simp [exTris] at hs
    rcases hs with rfl | rfl <;> simp [OnLine, exNearP]
    linarith
  · simp only [exTris, List.pairwise_cons, List.mem_cons, List.not_mem_nil, or_false, forall_eq, false_implies, implies_true, List.Pairwise.nil, and_true]
    rw [Set.disjoint_left]
    rintro p ⟨x, y, w, hx, hy, hw, hs, rfl⟩ ⟨x', y', w', hx', hy', hw', hs', he⟩
    simp [exNearP] at he
    obtain ⟨h1, h2⟩ := he
    have h3 : (1 + t) * (y' + w') - y' * (1 + t) = (1 + t) * w - (y + w * (1 + t)) := by rw [h1, h2]
    have h4 : 0 < (1 + t) * w' := by positivity
    linarith

theorem exNear_given (t : ℝ) : ∀ i (hi : i < (exNear t).length), givenXYZ (exNear t)[i] = ((exNearP t i).1, (exNearP t i).2, 0) := by
  intro i hi
  simp [exNear] at hi
  interval_cases i <;> simp [exNear, exNearP, givenXYZ]

theorem exNear_piece (t : ℝ) : InputOnePiece (exNear t).length exTris := exInput_piece

/-- the plate with the corner moved by `t` -/
theorem exNear_plate {t : ℝ} (ht : 0 ≤ t) : ∃ m, Reachable m ∧ GoodPlate m true ∧ m.nids = List.range' 1 4 ∧ m.eids = List.range' 1 2 ∧ (∀ i < 4, pt m (i + 1) = exNearP t i) ∧
    corners m 1 = [1, 2, 3] ∧ corners m 2 = [1, 3, 4] ∧ ∀ i < 4, (m.node (i + 1)).prop = some (exLam (1 + t) 1 1 (1 + t)) := by
  obtain ⟨m, hr, hg, hn, he, hpt, htri, h1, _⟩ := input_plate (exNear_input ht) (exNear_given t) (exNear_piece t) true (fun _ => exLam (1 + t) 1 1 (1 + t))
    (fun _ => exLam_stiff (by linarith) one_pos one_pos (by linarith))
  refine ⟨m, hr, hg, hn, he, hpt, ?_, ?_, h1 rfl⟩
  · obtain ⟨a, b, c⟩ := htri 0 (by simp [exTris])
    unfold corners; rw [show (1 : ℕ) = 0 + 1 from rfl, a, b, c]; simp [exTris]
  · obtain ⟨a, b, c⟩ := htri 1 (by simp [exTris])
    unfold corners; rw [show (2 : ℕ) = 1 + 1 from rfl, a, b, c]; simp [exTris]

/-- C139 there, with the corner at `1 + 1/(n+1)`: stiffness matrix, static solutions and first buckling factors tend to those of the square. -/
example : ∃ (ms : ℕ → Mesh) (m : Mesh) (Ks : ℕ → Mat) (K : Mat), PlateTends atTop true ms m ∧ (∀ n, nx (ms n) 3 ≠ nx m 3) ∧ Stiffness m true "cell-based" (1 / 10) false K ∧
    (∀ n, Stiffness (ms n) true "cell-based" (1 / 10) false (Ks n)) ∧ Stable K {x | x < 10} ∧ (∀ i < K.dim, ∀ j < K.dim, Tendsto (fun n => (Ks n).get i j) atTop (𝓝 (K.get i j))) ∧
    ∀ f : ℕ → ℝ, ∃ (ds : ℕ → List ℝ) (d : List ℝ) (Gs : ℕ → Mat) (G : Mat), LoadCase m true K {x | x < 10} f d G ∧ (∀ᶠ n in atTop, LoadCase (ms n) true (Ks n) {x | x < 10} f (ds n) (Gs n)) ∧
      ∀ c, FirstFactor K G {x | x < 10} c → ∀ cs : ℕ → ℝ, (∀ᶠ n in atTop, FirstFactor (Ks n) (Gs n) {x | x < 10} (cs n)) → Tendsto cs atTop (𝓝 c) := by
  have h0 : ∀ n : ℕ, (0 : ℝ) ≤ 1 / ((n : ℝ) + 1) := fun n => by positivity
  choose ms hrs hgs hns hes hpts hc1 hc2 hls using fun n : ℕ => exNear_plate (h0 n)
  obtain ⟨m, hr, hg, hn, he, hpt, hc1', hc2', hl⟩ := exNear_plate (le_refl 0)
  have ht : Tendsto (fun n : ℕ => 1 + 1 / ((n : ℝ) + 1)) atTop (𝓝 (1 + 0)) := tendsto_const_nhds.add tendsto_one_div_add_atTop_nhds_zero_nat
  have hmem : ∀ i ∈ m.nids, ∃ j < 4, i = j + 1 := fun i hi => by rw [hn, List.mem_range'_1] at hi; exact ⟨i - 1, by omega, by omega⟩
  have hP : PlateTends atTop true ms m := by
    refine ⟨fun n => by rw [hns, hn], fun n => by rw [hes, he], fun n e h => ?_, fun i hi => ?_, fun i hi => ?_, fun n => (hgs n).planar.basic, fun n => (hgs n).planar.flat,
      fun _ i hi => ?_, fun h => by cases h⟩
    · rw [he, List.mem_range'_1] at h
      have : e = 1 ∨ e = 2 := by omega
      rcases this with rfl | rfl
      · rw [hc1, hc1']
      · rw [hc2, hc2']
    · obtain ⟨j, hj, rfl⟩ := hmem i hi
      have e1 : ∀ n, nx (ms n) (j + 1) = (exNearP (1 / ((n : ℝ) + 1)) j).1 := fun n => congrArg Prod.fst (hpts n j hj)
      have e2 : nx m (j + 1) = (exNearP 0 j).1 := congrArg Prod.fst (hpt j hj)
      simp only [e1, e2, exNearP]
      interval_cases j <;> simp only [if_true, OfNat.ofNat_ne_zero, OfNat.ofNat_ne_one, one_ne_zero, if_false] <;> first | exact ht | exact tendsto_const_nhds
    · obtain ⟨j, hj, rfl⟩ := hmem i hi
      have e1 : ∀ n, ny (ms n) (j + 1) = (exNearP (1 / ((n : ℝ) + 1)) j).2 := fun n => congrArg Prod.snd (hpts n j hj)
      have e2 : ny m (j + 1) = (exNearP 0 j).2 := congrArg Prod.snd (hpt j hj)
      simp only [e1, e2, exNearP]
      interval_cases j <;> simp only [if_true, OfNat.ofNat_ne_zero, OfNat.ofNat_ne_one, one_ne_zero, if_false] <;> exact tendsto_const_nhds
    · obtain ⟨j, hj, rfl⟩ := hmem i hi
      refine Or.inr ⟨fun n => exLam (1 + 1 / ((n : ℝ) + 1)) 1 1 (1 + 1 / ((n : ℝ) + 1)), exLam (1 + 0) 1 1 (1 + 0), hl j hj, fun n => hls n j hj, ?_, ?_, ?_, ?_, ?_, ?_, ?_⟩
      · intro a b
        simp only [exLam]
        split_ifs
        exacts [ht, tendsto_const_nhds]
      all_goals first | exact ht | exact tendsto_const_nhds | exact fun a b => tendsto_const_nhds
  have hprops : ∀ m' : Mesh, Reachable m' → m'.nids = List.range' 1 4 → ∀ t, (∀ i < 4, (m'.node (i + 1)).prop = some (exLam (1 + t) 1 1 (1 + t))) → HasProps m' true := by
    intro m' hr' hn' t h1
    unfold HasProps
    simp only [if_true]
    intro e he' i hi
    have := hr'.wf.corner_mem he' (corner_in hi)
    rw [hn', List.mem_range'_1] at this
    have := h1 (i - 1) (by omega)
    rw [show i - 1 + 1 = i by omega] at this
    rw [this]; rfl
  choose Ks hKs using fun n => stiffness_exists (hrs n) (hgs n) (hprops (ms n) (hrs n) (hns n) _ (hls n)) (by rw [hns]; decide) (Or.inl rfl) (1 / 10) false
  obtain ⟨K, hK⟩ := stiffness_exists hr hg (hprops m hr hn 0 hl) (by rw [hn]; decide) (Or.inl rfl) (1 / 10) false
  have hS : Stable K {x | x < 10} := by
    intro d hd hne
    refine C75_positive hr hg (by norm_num) hK (S := {x | x < 10}) ⟨1, by rw [hn]; decide, 2, by rw [hn]; decide, Or.inl ⟨Or.inl ?_, fun r h5 => ?_⟩⟩ hd hne
    · have e1 : nx m 1 = (exNearP 0 0).1 := congrArg Prod.fst (hpt 0 (by norm_num))
      have e2 : nx m 2 = (exNearP 0 1).1 := congrArg Prod.fst (hpt 1 (by norm_num))
      rw [e1, e2]; simp [exNearP]
    · unfold dofNo
      rw [hn]
      have i1 : (List.range' 1 4).idxOf 1 = 0 := by decide
      have i2 : (List.range' 1 4).idxOf 2 = 1 := by decide
      rw [i1, i2]; simp only [Set.mem_ofPred_eq]; omega
  have hK' := C139_stiffness hP hr hrs hg (by norm_num) (als := fun _ => 1 / 10) tendsto_const_nhds hK (Eventually.of_forall hKs)
  have hst := (C139_static hP hr hrs hg (by norm_num) (als := fun _ => 1 / 10) tendsto_const_nhds hK (Eventually.of_forall hKs) hS).1
  refine ⟨ms, m, Ks, K, hP, fun n => ?_, hK, hKs, hS, hK'.2, fun f => ?_⟩
  · have e1 : nx (ms n) 3 = (exNearP (1 / ((n : ℝ) + 1)) 2).1 := congrArg Prod.fst (hpts n 2 (by norm_num))
    have e2 : nx m 3 = (exNearP 0 2).1 := congrArg Prod.fst (hpt 2 (by norm_num))
    rw [e1, e2]
    have : (0 : ℝ) < 1 / ((n : ℝ) + 1) := by positivity
    simp only [exNearP, OfNat.ofNat_ne_zero, OfNat.ofNat_ne_one, if_true, if_false]
    linarith
  · have hex : ∀ n, ∃ (d : List ℝ) (G : Mat), Stable (Ks n) {x | x < 10} → LoadCase (ms n) true (Ks n) {x | x < 10} f d G := fun n => by
      by_cases h : Stable (Ks n) {x | x < 10}
      · obtain ⟨d, G, hc⟩ := case_exists (hrs n) (hgs n) (hKs n) h f
        exact ⟨d, G, fun _ => hc⟩
      · exact ⟨[], ⟨0, fun _ _ => 0⟩, fun h' => absurd h' h⟩
    choose ds Gs hcs using hex
    obtain ⟨d, G, hc⟩ := case_exists hr hg hK hS f
    have hcs' := hst.mono fun n hn => hcs n hn
    exact ⟨ds, d, Gs, G, hc, hcs', fun c hfc => ((C139_buckling hP hr hrs hg (by norm_num) (als := fun _ => 1 / 10) tendsto_const_nhds hK (Eventually.of_forall hKs) hS
      (fs := fun _ => f) (fun _ _ => tendsto_const_nhds) hc hcs').1 c hfc).2⟩

end Meshless
