import Verif.Lemmas.Factors
import Verif.Props.Nearby
import Verif.Props.Compare
import Verif.Props.Cst
import Verif.Props.Blend

/-! All buckling factors, not only the first: supports, stiffness and small changes. -/

set_option autoImplicit false

namespace Meshless
open Spec Finset Filter Topology

/-! ### small changes of the matrices -/

/-- weighted squares of the modal coefficients as a matrix -/
noncomputable def projMat {N : ℕ} (K : Mat) (x : Fin N → ℕ → ℝ) (w : Fin N → ℝ) (i j : ℕ) : ℝ :=
  ∑ a, w a * ((∑ r ∈ range K.dim, x a r * K.get r i) * ∑ r ∈ range K.dim, x a r * K.get r j)

theorem form_projMat {N : ℕ} (K : Mat) (x : Fin N → ℕ → ℝ) (w : Fin N → ℝ) (v : ℕ → ℝ) : form K.dim (projMat K x w) v v = ∑ a, form K.dim K.get (x a) v ^ 2 * w a := by
  simp only [form_cond K.get (x _) v]
  unfold form projMat
  calc _ = ∑ i ∈ range K.dim, ∑ j ∈ range K.dim, ∑ a, w a * (((∑ r ∈ range K.dim, x a r * K.get r i) * v i) * ((∑ r ∈ range K.dim, x a r * K.get r j) * v j)) :=
        Finset.sum_congr rfl fun i _ => Finset.sum_congr rfl fun j _ => by
          rw [Finset.mul_sum, Finset.sum_mul]
          exact Finset.sum_congr rfl fun a _ => by ring
    _ = ∑ a, w a * ∑ i ∈ range K.dim, ∑ j ∈ range K.dim, ((∑ r ∈ range K.dim, x a r * K.get r i) * v i) * ((∑ r ∈ range K.dim, x a r * K.get r j) * v j) := by
        rw [Finset.sum_congr rfl fun i _ => Finset.sum_comm, Finset.sum_comm]
        refine Finset.sum_congr rfl fun a _ => ?_
        rw [Finset.mul_sum]
        exact Finset.sum_congr rfl fun i _ => by rw [Finset.mul_sum]
    _ = _ := Finset.sum_congr rfl fun a _ => by rw [← Finset.sum_mul_sum, mul_comm, pow_two]

theorem projMat_symm {N : ℕ} (K : Mat) (x : Fin N → ℕ → ℝ) (w : Fin N → ℝ) (i j : ℕ) : projMat K x w i j = projMat K x w j i := by
  unfold projMat
  exact Finset.sum_congr rfl fun a _ => by ring

theorem form_two (n : ℕ) (A B : ℕ → ℕ → ℝ) (v u : ℕ → ℝ) : form n (fun i j => A i j + B i j) v u = form n A v u + form n B v u := by
  have := form_add_mat n A B 1 1 v u
  simpa using this

variable {ι : Type} {l : Filter ι}

/-- the number of factors below a load level that is not a factor does not change under small changes -/
theorem count_near {K G : Mat} {S : Set ℕ} (h : Pair K G S) {Ks Gs : ι → Mat} (hs : ∀ᶠ n in l, Pair (Ks n) (Gs n) S) (hd : ∀ᶠ n in l, (Ks n).dim = K.dim)
    (hK : ∀ i < K.dim, ∀ j < K.dim, Tendsto (fun n => (Ks n).get i j) l (𝓝 (K.get i j))) (hG : ∀ i < K.dim, ∀ j < K.dim, Tendsto (fun n => (Gs n).get i j) l (𝓝 (G.get i j)))
    {t : ℝ} (ht : 0 < t) (hno : ∀ x, ¬BucklingMode K G S t x) {k : ℕ} (hk : FactorsBelow K G S t k) : ∀ᶠ n in l, ∀ k', FactorsBelow (Ks n) (Gs n) S t k' → k' = k := by
  classical
  obtain ⟨N, c, x, hl, rfl⟩ := hk
  have hct : ∀ a, c a ≠ t := fun a e => hno (x a) (e ▸ hl.mode a)
  have hne := h.ne hl
  have hsum : ∀ i < K.dim, ∀ j < K.dim, Tendsto (fun n => (Ks n).get i j + t * (Gs n).get i j) l (𝓝 (K.get i j + t * G.get i j)) :=
    fun i hi j hj => (hK i hi j hj).add ((hG i hi j hj).const_mul t)
  -- a combination of positive squares
  have pos : ∀ {v r : ℕ → ℝ} {w : Fin N → ℝ}, Supported K.dim S r → (∀ i < K.dim, v i = r i + ∑ a, form K.dim K.get (x a) v * x a i) → (∃ i < K.dim, v i ≠ 0) → (∀ a, 0 < w a) →
      0 < form K.dim K.get r r + ∑ a, form K.dim K.get (x a) v ^ 2 * w a := by
    intro v r w hr1 hr2 hv hw
    have h2 : ∀ a, 0 ≤ form K.dim K.get (x a) v ^ 2 * w a := fun a => mul_nonneg (sq_nonneg _) (hw a).le
    by_cases hr0 : ∃ i < K.dim, r i ≠ 0
    · exact add_pos_of_pos_of_nonneg (h.stable r hr1 hr0) (Finset.sum_nonneg fun a _ => h2 a)
    · push Not at hr0
      rw [form_zero_left hr0, zero_add]
      by_contra hcon
      have h3 : ∑ a, form K.dim K.get (x a) v ^ 2 * w a = 0 := le_antisymm (not_lt.1 hcon) (Finset.sum_nonneg fun a _ => h2 a)
      rw [Finset.sum_eq_zero_iff_of_nonneg fun a _ => h2 a] at h3
      obtain ⟨i, hi, hvi⟩ := hv
      apply hvi
      rw [hr2 i hi, hr0 i hi, zero_add]
      refine Finset.sum_eq_zero fun a _ => ?_
      have := h3 a (mem_univ _)
      rcases mul_eq_zero.1 this with h4 | h4
      · rw [pow_eq_zero_iff (by norm_num)] at h4; rw [h4, zero_mul]
      · exact absurd h4 (hw a).ne'
  have hsKG : ∀ i < K.dim, ∀ j < K.dim, K.get i j + t * G.get i j = K.get j i + t * G.get j i := fun i hi j hj => by rw [h.symK i hi j hj, h.symG i hi j hj]
  -- no more factors
  set w1 : Fin N → ℝ := fun a => if 0 < c a ∧ c a < t then t / c a else 0 with hw1
  have up := pd_near (Hs := fun n i j => ((Ks n).get i j + t * (Gs n).get i j) + projMat K x w1 i j) (H := fun i j => (K.get i j + t * G.get i j) + projMat K x w1 i j) (l := l)
    (fun i hi j hj => by rw [hsKG i hi j hj, projMat_symm]) (S := S) (fun v hv hnz => by
      obtain ⟨r, hr1, hr2, hr3⟩ := h.loaded hl t hv
      rw [form_two, hr3, form_projMat, add_assoc, ← Finset.sum_add_distrib]
      simp only [← mul_add]
      refine pos hr1 hr2 hnz fun a => ?_
      simp only [hw1]
      split_ifs with ha
      · linarith
      · rw [add_zero, sub_pos]
        rcases lt_or_gt_of_ne (hne a) with h' | h'
        · exact (div_neg_of_pos_of_neg ht h').trans one_pos
        · rw [div_lt_one h']
          exact lt_of_le_of_ne (not_lt.1 fun h'' => ha ⟨h', h''⟩) (hct a).symm) (fun i hi j hj => (hsum i hi j hj).add_const _)
  -- no fewer
  set w2 : Fin N → ℝ := fun a => if 0 < c a ∧ c a < t then -2 else -(t / c a) with hw2
  have low := pd_near (Hs := fun n i j => -1 * ((Ks n).get i j + t * (Gs n).get i j) + 1 * (2 * K.get i j + 1 * projMat K x w2 i j))
    (H := fun i j => -1 * (K.get i j + t * G.get i j) + 1 * (2 * K.get i j + 1 * projMat K x w2 i j)) (l := l)
    (fun i hi j hj => by rw [hsKG i hi j hj, projMat_symm, h.symK i hi j hj]) (S := S) (fun v hv hnz => by
      obtain ⟨r, hr1, hr2, hr3⟩ := h.loaded hl t hv
      obtain ⟨r0, hr10, hr20, hr30⟩ := h.loaded hl 0 hv
      have : form K.dim K.get r0 r0 = form K.dim K.get r r := by
        have e : ∀ i < K.dim, r0 i = r i := fun i hi => by have := hr2 i hi; have := hr20 i hi; linarith
        exact form_congr e e
      simp only [zero_mul, add_zero, zero_div, sub_zero, mul_one, this] at hr30
      rw [form_add_mat, form_add_mat, hr3, form_projMat, hr30]
      have e : -1 * (form K.dim K.get r r + ∑ a, form K.dim K.get (x a) v ^ 2 * (1 - t / c a)) +
          1 * (2 * (form K.dim K.get r r + ∑ a, form K.dim K.get (x a) v ^ 2) + 1 * ∑ a, form K.dim K.get (x a) v ^ 2 * w2 a) =
          form K.dim K.get r r + ∑ a, form K.dim K.get (x a) v ^ 2 * (1 + t / c a + w2 a) := by
        have : ∑ a, form K.dim K.get (x a) v ^ 2 * (1 + t / c a + w2 a) = -1 * (∑ a, form K.dim K.get (x a) v ^ 2 * (1 - t / c a)) +
            2 * ∑ a, form K.dim K.get (x a) v ^ 2 + ∑ a, form K.dim K.get (x a) v ^ 2 * w2 a := by
          rw [Finset.mul_sum, Finset.mul_sum, ← Finset.sum_add_distrib, ← Finset.sum_add_distrib]
          exact Finset.sum_congr rfl fun a _ => by ring
        rw [this]; ring
      rw [e]
      refine pos hr1 hr2 hnz fun a => ?_
      simp only [hw2]
      split_ifs with ha
      · have : 1 < t / c a := by rw [one_lt_div ha.1]; exact ha.2
        linarith
      · linarith) (fun i hi j hj => ((hsum i hi j hj).const_mul _).add_const _)
  filter_upwards [hs, hd, up, low] with n h1 h2 h3 h4 k' hk'
  obtain ⟨N', c', x', hl', rfl⟩ := hk'
  apply le_antisymm
  · have := h1.count_le hl' (t := t) (Q := {a : Fin N // 0 < c a ∧ c a < t}) (fun a i => ∑ j ∈ range K.dim, x a.1 j * K.get j i) (fun v hv hb hnz _ => by
      rw [h2] at hv hb hnz ⊢
      have := h3 v hv hnz
      rw [form_two, form_projMat, Finset.sum_eq_zero, add_zero] at this
      · exact this.le
      · intro a _
        simp only [hw1]
        split_ifs with ha
        · rw [form_cond, hb ⟨a, ha⟩]; simp
        · simp)
    rw [Fintype.card_subtype] at this
    convert this using 2
  · have := h.count_le hl (t := t) (Q := {a : Fin N' // 0 < c' a ∧ c' a < t}) (fun a i => ∑ j ∈ range (Ks n).dim, x' a.1 j * (Ks n).get j i) (fun v hv hb hnz hsp => by
      exfalso
      have e1 := h4 v hv hnz
      obtain ⟨r0, hr10, hr20, hr30⟩ := h.loaded hl 0 hv
      have hr0 : form K.dim K.get r0 r0 = 0 := form_zero_left fun i hi => by have := hr20 i hi; have := hsp.1 i; linarith
      simp only [zero_mul, add_zero, zero_div, sub_zero, mul_one, hr0, zero_add] at hr30
      rw [form_add_mat, form_add_mat, form_projMat, hr30] at e1
      have e2 : 2 * ∑ a, form K.dim K.get (x a) v ^ 2 + 1 * ∑ a, form K.dim K.get (x a) v ^ 2 * w2 a = 0 := by
        rw [Finset.mul_sum, one_mul, ← Finset.sum_add_distrib]
        refine Finset.sum_eq_zero fun a _ => ?_
        simp only [hw2]
        split_ifs with ha
        · ring
        · rw [hsp.2 a ha]; ring
      rw [e2] at e1
      have e3 := h1.nonneg_of hl' ht (by rw [h2]; exact hv) (fun a ha1 ha2 => by
        rw [form_cond, h2]
        have := hb ⟨a, ha1, ha2⟩
        rwa [h2] at this)
      rw [h2] at e3
      linarith)
    rw [Fintype.card_subtype] at this
    convert this using 2

/-! ### the plates -/

section
variable {m : Mesh} (hr : Reachable m) {pn : Bool} (hg : GoodPlate m pn) {method : String} {al : ℝ} {fa : Bool} {K G : Mat} (hK : Stiffness m pn method al fa K)
  {S : Set ℕ} (hS : Stable K S) {mg : Mesh} {d : List ℝ} (hG : calcKG mg d pn = .ok G)
include hr hg hK hS hG

theorem pair_of : Pair K G S := ⟨C78_symmetric hr hg hK, fun i _ j _ => (C30_symmetric hG).1 i j, hS⟩

/-- C141: the number of buckling factors below a load level, counted with their modes, exists and is unique; the first factor is the level up to which it is zero -/
theorem C141_count {t : ℝ} (ht : 0 < t) : (∃ k, FactorsBelow K G S t k) ∧ (∀ k k', FactorsBelow K G S t k → FactorsBelow K G S t k' → k = k') ∧
    ∀ k, FactorsBelow K G S t k → (k = 0 ↔ ∀ c x, 0 < c → BucklingMode K G S c x → t ≤ c) := by
  classical
  have h := pair_of hr hg hK hS hG
  obtain ⟨N, c, x, hl⟩ := h.modes
  have uniq : ∀ k k', FactorsBelow K G S t k → FactorsBelow K G S t k' → k' ≤ k := fun k k' hk hk' => by
    simpa using count_compare h h rfl ht hk hk' (Q := Empty) (fun b => b.elim) (fun v hv _ => ⟨hv, le_rfl⟩)
  refine ⟨⟨_, N, c, x, hl, rfl⟩, fun k k' hk hk' => le_antisymm (uniq _ _ hk' hk) (uniq _ _ hk hk'), ?_⟩
  rintro k ⟨N, c, x, hl, rfl⟩
  rw [Finset.card_eq_zero, Finset.filter_eq_empty_iff]
  constructor
  · intro h0 c' y hc' hy
    by_contra hcon
    push Not at hcon
    have h1 := mode_form hy hy.2.1
    have h2 := hS y hy.2.1 hy.1
    have h3 := h.nonneg_of hl ht hy.2.1 fun a ha1 ha2 => absurd ⟨ha1, ha2⟩ (h0 (mem_univ a))
    rw [form_one_add] at h3
    have h4 : form K.dim G.get y y < 0 := by
      by_contra h'
      push Not at h'
      nlinarith
    nlinarith
  · intro h0 a _ ha
    exact absurd (h0 _ _ ha.1 (hl.mode a)) (not_le.2 ha.2)

open Classical in
/-- C141: supports. For given membrane forces, more supports never give more factors below a load level, and `q` more supported degrees of freedom give at most `q` fewer: the factors
with and without them interlace. -/
theorem C141_supports {S' : Set ℕ} (hSS : S ⊆ S') {t : ℝ} (ht : 0 < t) {k k' : ℕ} (hk : FactorsBelow K G S t k) (hk' : FactorsBelow K G S' t k') :
    k' ≤ k ∧ k ≤ k' + ((range K.dim).filter fun i => i ∈ S' ∧ i ∉ S).card := by
  have h := pair_of hr hg hK hS hG
  have h' : Pair K G S' := ⟨h.symK, h.symG, fun v hv => hS v fun i hi hiS => hv i hi (hSS hiS)⟩
  constructor
  · simpa using count_compare h h' rfl ht hk hk' (Q := Empty) (fun b => b.elim) (fun v hv _ => ⟨fun i hi hiS => hv i hi (hSS hiS), le_rfl⟩)
  · have := count_compare h' h rfl ht hk' hk (Q := {i // i ∈ (range K.dim).filter fun i => i ∈ S' ∧ i ∉ S}) (fun b i => if i = b.1 then 1 else 0) (fun v hv hb => ⟨fun i hi hiS => by
      by_cases hi2 : i ∈ S
      · exact hv i hi hi2
      · have := hb ⟨i, mem_filter.2 ⟨mem_range.2 hi, hiS, hi2⟩⟩
        simpa [Finset.sum_ite_eq', hi] using this, le_rfl⟩)
    rwa [Fintype.card_coe] at this

/-- C141: stiffer laminates. For given membrane forces, a plate with laminates that are at least as stiff has no more factors below any load level: every factor, not only the first,
is at least as large. -/
theorem C141_stiffer {m' : Mesh} (hr' : Reachable m') (hg' : GoodPlate m' pn) (hst : Stiffened m m') (ha : 0 ≤ al) {K' : Mat} (hK' : Stiffness m' pn method al fa K') {t : ℝ} (ht : 0 < t)
    {k k' : ℕ} (hk : FactorsBelow K G S t k) (hk' : FactorsBelow K' G S t k') : k' ≤ k := by
  have h := pair_of hr hg hK hS hG
  obtain ⟨hdim, hle⟩ := C97_energy hr hr' hg hg' hst ha hK hK'
  rw [hdim] at hle
  have h' : Pair K' G S := pair_of hr' hg' hK' (fun v hv hne => by
    rw [hdim] at hv hne ⊢
    exact lt_of_lt_of_le (hS v hv hne) (hle v)) hG
  have := count_compare h h' hdim ht hk hk' (Q := Empty) (fun b => b.elim) (fun v hv _ => ⟨hv, by rw [form_one_add, form_one_add]; linarith [hle v]⟩)
  simpa using this

/-- C141: smoothing. For a homogeneous plate and given membrane forces, constant strain triangles have no more factors below any load level than the smoothed plate. -/
theorem C141_cst {p : Lam} (hl : Homog m pn p) (hpos : ∀ x : Fin 6 → ℝ, 0 ≤ ∑ i, ∑ j, x i * abd p i j * x j) {K0 : Mat} (hK0 : (calcK0 m pn).2 = .ok K0) {t : ℝ} (ht : 0 < t)
    {k k' : ℕ} (hk : FactorsBelow K G S t k) (hk' : FactorsBelow (withCst m (fun _ => p) K0 K) G S t k') : k' ≤ k := by
  have h := pair_of hr hg hK hS hG
  have hle := cst_stiffer hr hg hl hpos hK0 hK
  have hdim : (withCst m (fun _ => p) K0 K).dim = K.dim := rfl
  have h' : Pair (withCst m (fun _ => p) K0 K) G S := ⟨fun i hi j hj => by
      obtain ⟨hd, K0', hK0', hd0, _⟩ := stiffness_energy hr hg hK
      obtain rfl : K0 = K0' := by rw [hK0] at hK0'; exact Except.ok.inj hK0'
      have hs0 := (C19_symmetric hr hK0)
      rw [hdim] at hi hj
      rw [← form_single (withCst m (fun _ => p) K0 K).get hi hj, ← form_single (withCst m (fun _ => p) K0 K).get hj hi, withCst_form hr.wf hg.proper _ hd hd0, withCst_form hr.wf hg.proper _ hd hd0, cst_symm, form_symm h.symK (single i),
        form_symm (fun a _ b _ => hs0 a b) (single i)], by rw [hdim]; exact h.symG, fun v hv hne => lt_of_lt_of_le (hS v hv hne) (hle v)⟩
  have := count_compare h h' hdim ht hk hk' (Q := Empty) (fun b => b.elim) (fun v hv _ => ⟨hv, by rw [form_one_add, form_one_add]; linarith [hle v]⟩)
  simpa using this

end

/-- C141: small changes. Of plates whose coordinates, laminates, alpha and loads tend to those of a given plate, those near the limit have as many factors below a load level as the limit,
unless the level is itself a factor: all factors of the complete analysis are continuous. -/
theorem C141_near {pn : Bool} {ms : ι → Mesh} {m : Mesh} (h : PlateTends l pn ms m) (hr : Reachable m) (hrs : ∀ n, Reachable (ms n)) (hg : GoodPlate m pn) {method : String} {al : ℝ} {als : ι → ℝ}
    (ha : 0 ≤ al) (hal : Tendsto als l (𝓝 al)) {fa : Bool} {K : Mat} {Ks : ι → Mat} (hK : Stiffness m pn method al fa K) (hKs : ∀ᶠ n in l, Stiffness (ms n) pn method (als n) fa (Ks n))
    {S : Set ℕ} (hS : Stable K S) {fs : ι → ℕ → ℝ} {f : ℕ → ℝ} (hf : ∀ i < K.dim, Tendsto (fun n => fs n i) l (𝓝 (f i))) {ds : ι → List ℝ} {d : List ℝ} {Gs : ι → Mat} {G : Mat}
    (hc : LoadCase m pn K S f d G) (hcs : ∀ᶠ n in l, LoadCase (ms n) pn (Ks n) S (fs n) (ds n) (Gs n)) {t : ℝ} (ht : 0 < t) (hno : ∀ x, ¬BucklingMode K G S t x) {k : ℕ}
    (hk : FactorsBelow K G S t k) : ∀ᶠ n in l, FactorsBelow (Ks n) (Gs n) S t k := by
  obtain ⟨hdim, hKt⟩ := C139_stiffness h hr hrs hg ha hal hK hKs
  obtain ⟨hst, hsol⟩ := C139_static h hr hrs hg ha hal hK hKs hS
  have hd := hsol hf (hcs.mono fun n hn => hn.solution) hc.solution
  have hG := C139_geometric h hr hrs hg hK hKs (hcs.mono fun n hn => by rw [hn.length, h.nids n]) hc.length hd hc.matrix (hcs.mono fun n hn => hn.matrix)
  have hgood := C139_good h hr hrs hg
  have hpair : ∀ᶠ n in l, Pair (Ks n) (Gs n) S := by
    filter_upwards [hst, hgood, hKs, hcs] with n h1 h2 h3 h4
    exact pair_of (hrs n) h2 h3 h1 h4.matrix
  filter_upwards [count_near (pair_of hr hg hK hS hc.matrix) hpair hdim hKt hG ht hno hk, hpair] with n h1 h2
  obtain ⟨N, c, x, hl⟩ := h2.modes
  exact h1 _ ⟨N, c, x, hl, rfl⟩ ▸ ⟨N, c, x, hl, rfl⟩

/-! ### concrete cases -/

/-- supports and stiffer laminates: the square, its left side clamped, under the membrane forces of a shortening; more supports; a stiffer corner and triangle -/
example : ∃ (K K' G : Mat) (t : ℝ) (k k1 k2 : ℕ), Stiffness (exMixed 0) false "cell-based" (1 / 5) false K ∧ Stiffness (exMixed 1) false "cell-based" (1 / 5) false K' ∧
    calcKG (calcK0 exSq false).1 exPress false = .ok G ∧ 0 < t ∧ FactorsBelow K G {x | x < 5 ∨ 15 ≤ x} t k ∧ FactorsBelow K G {x | x < 5 ∨ 12 ≤ x} t k1 ∧
    FactorsBelow K' G {x | x < 5 ∨ 15 ≤ x} t k2 ∧ k ≠ 0 ∧ k1 ≤ k ∧ k ≤ k1 + 3 ∧ k2 ≤ k := by
  classical
  obtain ⟨G, hG, hw⟩ := exSq_work false (-1)
  have hr : ∀ t, Reachable (exMixed t) := fun t => exMesh_reachable ..
  have hK : ∀ t, 0 ≤ t → ∃ K, Stiffness (exMixed t) false "cell-based" (1 / 5) false K := fun t ht =>
    stiffness_exists (hr t) (exMixed_good ht false) (exMesh_props _ _ _ _ _ _ false) (by rw [exMesh_nids]; simp) (method := "cell-based") (Or.inl rfl) (1 / 5) false
  obtain ⟨K, hK0⟩ := hK 0 le_rfl
  obtain ⟨K', hK1⟩ := hK 1 zero_le_one
  have hg0 := exMixed_good le_rfl false
  have hg1 := exMixed_good zero_le_one false
  have hS0 := held_stable (hr 0) hg0 (by norm_num) hK0 (exMixed_held 0)
  have hS1 := held_stable (hr 1) hg1 (by norm_num) hK1 (exMixed_held 1)
  have hd20 : K.dim = 20 := by rw [(stiffness_energy (hr 0) hg0 hK0).1, exMesh_nids]; rfl
  have hsub : ({x | x < 5 ∨ 15 ≤ x} : Set ℕ) ⊆ {x | x < 5 ∨ 12 ≤ x} := fun x hx => by simp only [Set.mem_ofPred_eq] at hx ⊢; omega
  have hz : Supported K.dim {x | x < 5 ∨ 15 ≤ x} exSlope := by
    intro i _ hi
    simp only [Set.mem_ofPred_eq] at hi
    unfold exSlope
    rw [if_neg]; omega
  obtain ⟨c, hc, _, y, hy1, hy2, hy3⟩ : ∃ c, 0 < c ∧ c * -form K.dim G.get exSlope exSlope ≤ form K.dim K.get exSlope exSlope ∧ ∃ y, Supported K.dim {x | x < 5 ∨ 15 ≤ x} y ∧
      (∃ i < K.dim, y i ≠ 0) ∧ ∀ i < K.dim, i ∉ {x : ℕ | x < 5 ∨ 15 ≤ x} → ∑ j ∈ range K.dim, (K.get i j + c * G.get i j) * y j = 0 := by
    obtain ⟨c, h1, h2, _, h3⟩ := first_factor (C78_symmetric (hr 0) hg0 hK0) (fun i _ j _ => (C30_symmetric hG).1 i j) hS0 hz (by rw [hd20, hw]; norm_num)
    exact ⟨c, h1, h2, h3⟩
  have ht : 0 < c + 1 := by linarith
  obtain ⟨⟨k, hk⟩, _, h0⟩ := C141_count (hr 0) hg0 hK0 hS0 hG ht
  have hS2 : Stable K {x | x < 5 ∨ 12 ≤ x} := fun v hv => hS0 v fun i hi hiS => hv i hi (hsub hiS)
  obtain ⟨⟨k1, hk1⟩, _⟩ := C141_count (hr 0) hg0 hK0 hS2 hG ht
  obtain ⟨⟨k2, hk2⟩, _⟩ := C141_count (hr 1) hg1 hK1 hS1 hG ht
  obtain ⟨a1, a2⟩ := C141_supports (hr 0) hg0 hK0 hS0 hG hsub ht hk hk1
  refine ⟨K, K', G, c + 1, k, k1, k2, hK0, hK1, hG, ht, hk, hk1, hk2, fun hk0 => ?_, a1, ?_,
    C141_stiffer (hr 0) hg0 hK0 hS0 hG (hr 1) hg1 (exMixed_stiffened zero_le_one) (by norm_num) hK1 ht hk hk2⟩
  · have := (h0 k hk).1 hk0 c y hc ⟨hy2, hy1, hy3⟩
    linarith
  · refine a2.trans (Nat.add_le_add_left ?_ k1)
    rw [hd20]
    refine (Finset.card_le_card (t := {12, 13, 14}) fun i hi => ?_).trans (by decide)
    simp only [mem_filter, mem_range, Set.mem_ofPred_eq] at hi
    simp only [mem_insert, mem_singleton]
    omega

/-- small changes: the same square with laminates that tend to unit stiffnesses, at a load level that is not a factor -/
example (f : ℕ → ℝ) : ∃ (Ks : ℕ → Mat) (K : Mat) (ds : ℕ → List ℝ) (d : List ℝ) (Gs : ℕ → Mat) (G : Mat) (t : ℝ) (k : ℕ), Stiffness (exMixed 0) false "cell-based" (1 / 5) false K ∧
    (∀ n : ℕ, Stiffness (exMixed (1 / ((n : ℝ) + 1))) false "cell-based" (1 / 5) false (Ks n)) ∧ LoadCase (exMixed 0) false K {x | x < 5 ∨ 15 ≤ x} f d G ∧
    (∀ n : ℕ, LoadCase (exMixed (1 / ((n : ℝ) + 1))) false (Ks n) {x | x < 5 ∨ 15 ≤ x} f (ds n) (Gs n)) ∧ 1 < t ∧ FactorsBelow K G {x | x < 5 ∨ 15 ≤ x} t k ∧
    ∀ᶠ n in atTop, FactorsBelow (Ks n) (Gs n) {x | x < 5 ∨ 15 ≤ x} t k := by
  classical
  have h0 : ∀ n : ℕ, (0 : ℝ) ≤ 1 / ((n : ℝ) + 1) := fun n => by positivity
  have hr : ∀ t, Reachable (exMixed t) := fun t => exMesh_reachable ..
  have hK : ∀ t, 0 ≤ t → ∃ K, Stiffness (exMixed t) false "cell-based" (1 / 5) false K := fun t ht =>
    stiffness_exists (hr t) (exMixed_good ht false) (exMesh_props _ _ _ _ _ _ false) (by rw [exMesh_nids]; simp) (method := "cell-based") (Or.inl rfl) (1 / 5) false
  obtain ⟨K, hK0⟩ := hK 0 le_rfl
  choose Ks hKs using fun n : ℕ => hK _ (h0 n)
  have hS : ∀ {t : ℝ} {K : Mat}, 0 ≤ t → Stiffness (exMixed t) false "cell-based" (1 / 5) false K → Stable K {x | x < 5 ∨ 15 ≤ x} := fun ht hK =>
    held_stable (hr _) (exMixed_good ht false) (by norm_num) hK (exMixed_held _)
  obtain ⟨d, G, hc⟩ := case_exists (hr 0) (exMixed_good le_rfl false) hK0 (hS le_rfl hK0) f
  choose ds Gs hcs using fun n : ℕ => case_exists (hr _) (exMixed_good (h0 n) false) (hKs n) (hS (h0 n) (hKs n)) f
  have ht0 : Tendsto (fun n : ℕ => 1 / ((n : ℝ) + 1)) atTop (𝓝 0) := tendsto_one_div_add_atTop_nhds_zero_nat
  have hP : PlateTends atTop false (fun n : ℕ => exMixed (1 / ((n : ℝ) + 1))) (exMixed 0) := by
    have hs := fun n : ℕ => exMixed_same 0 (1 / ((n : ℝ) + 1))
    refine ⟨fun n => (hs n).nids, fun n => (hs n).eids, fun n e _ => by rw [(hs n).scorners], fun i _ => by simp only [(hs _).snx]; exact tendsto_const_nhds,
      fun i _ => by simp only [(hs _).sny]; exact tendsto_const_nhds, fun n => (exMixed_good (h0 n) false).planar.basic, fun n => (exMixed_good (h0 n) false).planar.flat, (by simp), fun _ e he => ?_⟩
    rw [exMesh_eids] at he
    simp only [List.mem_cons, List.not_mem_nil, or_false] at he
    rcases he with rfl | rfl
    · refine Or.inr ⟨fun _ => exIso, exIso, by rw [exMesh_tria1], fun n => by beta_reduce; rw [exMesh_tria1], ?_⟩
      constructor <;> first | exact tendsto_const_nhds | exact fun _ _ => tendsto_const_nhds
    · refine Or.inr ⟨fun n => exMix (1 / ((n : ℝ) + 1)), exMix 0, by rw [exMesh_tria2], fun n => by beta_reduce; rw [exMesh_tria2], ?_⟩
      constructor
      · intro i j; simp only [exMix, exLam]; split_ifs
        exacts [ht0.const_add 1, tendsto_const_nhds]
      · exact fun _ _ => tendsto_const_nhds
      · intro i j; simp only [exMix, exLam]; split_ifs
        exacts [(ht0.const_mul 2).const_add 1, tendsto_const_nhds]
      · intro i j; simp only [exMix, exLam]; split_ifs
        exacts [ht0.const_add 1, tendsto_const_nhds]
      all_goals exact tendsto_const_nhds
  have hfin := (C95_factors (hr 0) (exMixed_good le_rfl false) hK0 (hS le_rfl hK0) hc.matrix).1
  obtain ⟨t, ht1, ht2⟩ := (Set.Ioi_infinite (1 : ℝ)).exists_notMem_finite hfin
  have ht : 0 < t := one_pos.trans ht1
  obtain ⟨⟨k, hk⟩, _⟩ := C141_count (hr 0) (exMixed_good le_rfl false) hK0 (hS le_rfl hK0) hc.matrix ht
  exact ⟨Ks, K, ds, d, Gs, G, t, k, hK0, hKs, hc, hcs, ht1, hk, C141_near hP (hr 0) (fun n => hr _) (exMixed_good le_rfl false) (by norm_num) tendsto_const_nhds hK0
    (Eventually.of_forall hKs) (hS le_rfl hK0) (fs := fun _ => f) (fun i _ => tendsto_const_nhds) hc (Eventually.of_forall hcs) ht (fun x hx => ht2 ⟨x, hx⟩) hk⟩

end Meshless
