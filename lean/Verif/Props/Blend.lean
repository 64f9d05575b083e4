import Verif.Lemmas.Blend
import Verif.Props.Nearby
import Verif.Props.Compare
import Mathlib.Analysis.Calculus.Deriv.Slope
import Mathlib.Analysis.Calculus.Deriv.Mul

/-! Dependence on the stiffnesses of the laminates: the matrices are linear, the compliance is convex, and its derivative is the energy of the change. -/

set_option autoImplicit false

namespace Meshless
open Spec Finset Filter Topology

section
variable {t : ℝ} {pn : Bool} {m0 m1 m : Mesh} (h : Between t pn m0 m1 m) (hr0 : Reachable m0) (hr1 : Reachable m1) (hr : Reachable m) (hg0 : GoodPlate m0 pn)
  (hg1 : GoodPlate m1 pn) (hg : GoodPlate m pn) {method : String} {al : ℝ} {fa : Bool} {K0 K1 K : Mat} (hK0 : Stiffness m0 pn method al fa K0)
  (hK1 : Stiffness m1 pn method al fa K1) (hK : Stiffness m pn method al fa K)
include h hr0 hr1 hr hg0 hg1 hg hK0 hK1 hK

theorem between_form : K0.dim = K.dim ∧ K1.dim = K.dim ∧ ∀ v u, form K.dim K.get v u = (1 - t) * form K.dim K0.get v u + t * form K.dim K1.get v u := by
  obtain ⟨d0, _, _, e0⟩ := parts_energy hr0 hg0.parts hK0
  obtain ⟨d1, _, _, e1⟩ := parts_energy hr1 hg1.parts hK1
  obtain ⟨d, _, _, e⟩ := parts_energy hr hg.parts hK
  have h0 : K0.dim = K.dim := by rw [d0, d, h.mid.nids]
  have h1 : K1.dim = K.dim := by rw [d1, d, h.mid.nids, h.one.nids]
  refine ⟨h0, h1, fun v u => ?_⟩
  rw [h0] at e0
  rw [h1] at e1
  rw [e, e0, e1, h.senergy hr0.wf hg0.proper]
  have hs : shearEnergy m pn al fa (if method = "cell-based" then cellStrain m else wholeGamma m) v u =
      (1 - t) * shearEnergy m0 pn al fa (if method = "cell-based" then cellStrain m0 else wholeGamma m0) v u +
        t * shearEnergy m1 pn al fa (if method = "cell-based" then cellStrain m1 else wholeGamma m1) v u := by
    split
    · exact h.sshear hr0.wf hg0.proper al fa cellStrain ⟨h.mid.scellStrain, h.one.scellStrain⟩ v u
    · exact h.sshear hr0.wf hg0.proper al fa wholeGamma ⟨h.mid.swholeGamma, h.one.swholeGamma⟩ v u
  rw [hs]; ring

/-- C140: the stiffness matrix is linear in the stiffnesses of the laminates: laminates on the line between two laminates give matrices on the line between theirs -/
theorem C140_linear : K0.dim = K.dim ∧ K1.dim = K.dim ∧ ∀ i < K.dim, ∀ j < K.dim, K.get i j = (1 - t) * K0.get i j + t * K1.get i j := by
  obtain ⟨h0, h1, hf⟩ := between_form h hr0 hr1 hr hg0 hg1 hg hK0 hK1 hK
  refine ⟨h0, h1, fun i hi j hj => ?_⟩
  rw [← form_single K.get hi hj, hf, form_single _ hi hj, form_single _ hi hj]

/-- C140: the work of the loads is a convex function of the stiffnesses: for laminates between two others it is at most the value in between -/
theorem C140_convex (ht : 0 ≤ t) (ht1 : t ≤ 1) (ha : 0 ≤ al) {S : Set ℕ} {f d0 d1 d : ℕ → ℝ} (hd0 : StaticSol K0 S f d0) (hd1 : StaticSol K1 S f d1) (hd : StaticSol K S f d) :
    ∑ i ∈ range K.dim, d i * f i ≤ (1 - t) * ∑ i ∈ range K.dim, d0 i * f i + t * ∑ i ∈ range K.dim, d1 i * f i := by
  obtain ⟨h0, h1, hf⟩ := between_form h hr0 hr1 hr hg0 hg1 hg hK0 hK1 hK
  have w0 := work_max (C78_symmetric hr0 hg0 hK0) (fun x => (modes_total hr0 hg0 ha hK0 (d := x)).1) hd0.1 hd0.2 (x := d) fun i hi hiS => hd.1 i (h0 ▸ hi) hiS
  have w1 := work_max (C78_symmetric hr1 hg1 hK1) (fun x => (modes_total hr1 hg1 ha hK1 (d := x)).1) hd1.1 hd1.2 (x := d) fun i hi hiS => hd.1 i (h1 ▸ hi) hiS
  rw [h0] at w0
  rw [h1] at w1
  have w := form_work hd.1 hd.2
  rw [hf] at w
  nlinarith [mul_le_mul_of_nonneg_left w0 (sub_nonneg.2 ht1), mul_le_mul_of_nonneg_left w1 ht]

/-- C140: for given membrane forces the first buckling factor is a concave function of the stiffnesses: for laminates between two others no positive factor lies below the
value in between -/
theorem C140_buckling (ht : 0 ≤ t) (ht1 : t ≤ 1) {S : Set ℕ} (hS0 : Stable K0 S) (hS1 : Stable K1 S) {ds : List ℝ} {G : Mat} {mg : Mesh} {c0 c1 : ℝ} (h0c : FirstFactor K0 G S c0)
    (h1c : FirstFactor K1 G S c1) {c : ℝ} {x : ℕ → ℝ} (hc : 0 < c) (hx : BucklingMode K G S c x) (hG : calcKG mg ds pn = .ok G) : (1 - t) * c0 + t * c1 ≤ c := by
  obtain ⟨h0, h1, hf⟩ := between_form h hr0 hr1 hr hg0 hg1 hg hK0 hK1 hK
  have hsG : ∀ i j, G.get i j = G.get j i := (C30_symmetric hG).1
  have hm := mode_form hx hx.2.1
  rw [hf] at hm
  have hne := hx.1
  have hsup := hx.2.1
  have p0 := hS0 x (by rw [h0]; exact hsup) (by rw [h0]; exact hne)
  have p1 := hS1 x (by rw [h1]; exact hsup) (by rw [h1]; exact hne)
  rw [h0] at p0
  rw [h1] at p1
  have hneg : form K.dim G.get x x < 0 := by
    by_contra hcon
    push Not at hcon
    have : 0 < (1 - t) * form K.dim K0.get x x + t * form K.dim K1.get x x := by
      rcases ht.eq_or_lt with rfl | ht
      · simpa using p0
      · exact add_pos_of_nonneg_of_pos (mul_nonneg (sub_nonneg.2 ht1) p0.le) (mul_pos ht p1)
    nlinarith
  have key : ∀ {m : Mesh} {K' : Mat} {c' : ℝ}, Reachable m → GoodPlate m pn → Stiffness m pn method al fa K' → K'.dim = K.dim → Stable K' S → FirstFactor K' G S c' →
      c' * -form K.dim G.get x x ≤ form K.dim K'.get x x := by
    intro m K' c' hr' hg' hK' hd hS' hc'
    obtain ⟨c2, hc2, hle, _, y, hy1, hy2, hy3⟩ := first_factor (C78_symmetric hr' hg' hK') (fun i _ j _ => hsG i j) hS' (z := x) (by rw [hd]; exact hsup) (by rw [hd]; exact hneg)
    have := hc'.2.2 c2 y hc2 ⟨hy2, hy1, hy3⟩
    rw [hd] at hle
    nlinarith
  have k0 := key hr0 hg0 hK0 h0 hS0 h0c
  have k1 := key hr1 hg1 hK1 h1 hS1 h1c
  have a0 := mul_le_mul_of_nonneg_left k0 (sub_nonneg.2 ht1)
  have a1 := mul_le_mul_of_nonneg_left k1 ht
  have : ((1 - t) * c0 + t * c1) * -form K.dim G.get x x ≤ c * -form K.dim G.get x x := by nlinarith
  exact le_of_mul_le_mul_right this (by linarith)

end

section
variable {pn : Bool} {m0 m1 : Mesh} {ms : ℝ → Mesh} {T : Set ℝ} (h : ∀ t ∈ T, Between t pn m0 m1 (ms t)) (hr0 : Reachable m0) (hr1 : Reachable m1)
  (hr : ∀ t ∈ T, Reachable (ms t)) (hg0 : GoodPlate m0 pn) (hg1 : GoodPlate m1 pn) (hg : ∀ t ∈ T, GoodPlate (ms t) pn) {method : String} {al : ℝ} {fa : Bool} {K0 K1 : Mat}
  {Ks : ℝ → Mat} (hK0 : Stiffness m0 pn method al fa K0) (hK1 : Stiffness m1 pn method al fa K1) (hK : ∀ t ∈ T, Stiffness (ms t) pn method al fa (Ks t))
include h hr0 hr1 hr hg0 hg1 hg hK0 hK1 hK

/-- C140: the rate of change of the displacements with the stiffnesses is the static solution for the load `-K' u`, where `K'` is the rate of change of the matrix -/
theorem C140_rate {s : ℝ} (hs : s ∈ T) {S : Set ℕ} (hS : Stable (Ks s) S) {f : ℕ → ℝ} {ds : ℝ → ℕ → ℝ} (hd : ∀ t ∈ T, StaticSol (Ks t) S f (ds t)) {v : ℕ → ℝ}
    (hv : StaticSol (Ks s) S (fun i => -∑ j ∈ range K0.dim, (K1.get i j - K0.get i j) * ds s j) v) : ∀ i < K0.dim, HasDerivWithinAt (fun t => ds t i) (v i) T s := by
  have hlin : ∀ t ∈ T, (Ks t).dim = K0.dim ∧ ∀ i < K0.dim, ∀ j < K0.dim, (Ks t).get i j = (1 - t) * K0.get i j + t * K1.get i j := by
    intro t ht
    obtain ⟨a, _, b⟩ := C140_linear (h t ht) hr0 hr1 (hr t ht) hg0 hg1 (hg t ht) hK0 hK1 (hK t ht)
    rw [a]; exact ⟨rfl, b⟩
  obtain ⟨hds, hls⟩ := hlin s hs
  have hmem : ∀ᶠ t in 𝓝[T \ {s}] s, t ∈ T \ {s} := self_mem_nhdsWithin
  have hid : Tendsto (fun t : ℝ => t) (𝓝[T \ {s}] s) (𝓝 s) := tendsto_id.mono_left nhdsWithin_le_nhds
  have hsym := C78_symmetric (hr s hs) (hg s hs) (hK s hs)
  rw [hds] at hsym
  have hpd : ∀ x, Supported K0.dim S x → (∃ i < K0.dim, x i ≠ 0) → 0 < form K0.dim (Ks s).get x x := by rw [← hds]; exact hS
  intro i hi
  rw [hasDerivWithinAt_iff_tendsto_slope]
  have ht : ∀ i < K0.dim, ∀ j < K0.dim, Tendsto (fun t => (Ks t).get i j) (𝓝[T \ {s}] s) (𝓝 ((Ks s).get i j)) := by
    intro i hi j hj
    rw [hls i hi j hj]
    refine Tendsto.congr' (f₁ := fun t => (1 - t) * K0.get i j + t * K1.get i j) ?_ (((hid.const_sub 1).mul_const _).add (hid.mul_const _))
    filter_upwards [hmem] with t ht
    exact ((hlin t ht.1).2 i hi j hj).symm
  unfold StaticSol at hv
  rw [hds] at hv
  have := static_near (ds := fun t i => slope (fun t => ds t i) s t) hsym hpd ht
    (fs := fun _ i => -∑ j ∈ range K0.dim, (K1.get i j - K0.get i j) * ds s j) (fun i _ => tendsto_const_nhds) (d := v) ?_ hv i hi
  · exact this
  · filter_upwards [hmem] with t ht
    have hne : t - s ≠ 0 := sub_ne_zero.2 ht.2
    obtain ⟨hdt, hlt⟩ := hlin t ht.1
    obtain ⟨p1, p2⟩ := hd t ht.1
    obtain ⟨q1, q2⟩ := hd s hs
    rw [hdt] at p1 p2
    rw [hds] at q1 q2
    refine ⟨fun i hi hiS => ?_, fun i hi hiS => ?_⟩
    · simp only [slope_def_field]; rw [p1 i hi hiS, q1 i hi hiS]; simp
    · have e1 := p2 i hi hiS
      have e2 := q2 i hi hiS
      simp only [slope_def_field]
      have : ∑ j ∈ range K0.dim, (Ks t).get i j * ((ds t j - ds s j) / (t - s)) = (∑ j ∈ range K0.dim, (Ks t).get i j * ds t j - ∑ j ∈ range K0.dim, (Ks t).get i j * ds s j) / (t - s) := by
        rw [← Finset.sum_sub_distrib, Finset.sum_div]
        exact Finset.sum_congr rfl fun j _ => by ring
      rw [this, e1, ← e2, ← Finset.sum_sub_distrib, div_eq_iff hne, ← Finset.sum_neg_distrib, Finset.sum_mul]
      refine Finset.sum_congr rfl fun j hj => ?_
      rw [hlt i hi j (mem_range.1 hj), hls i hi j (mem_range.1 hj)]
      ring

/-- C140: the rate of change of the work of the loads is minus the energy `u^T K' u` of the change of stiffness: one static solution gives all sensitivities -/
theorem C140_sensitivity {s : ℝ} (hs : s ∈ T) {S : Set ℕ} (hS : Stable (Ks s) S) {f : ℕ → ℝ} {ds : ℝ → ℕ → ℝ} (hd : ∀ t ∈ T, StaticSol (Ks t) S f (ds t)) :
    HasDerivWithinAt (fun t => ∑ i ∈ range K0.dim, ds t i * f i) (-(form K0.dim K1.get (ds s) (ds s) - form K0.dim K0.get (ds s) (ds s))) T s := by
  have hsym := C78_symmetric (hr s hs) (hg s hs) (hK s hs)
  obtain ⟨v, hv⟩ : ∃ v, StaticSol (Ks s) S (fun i => -∑ j ∈ range K0.dim, (K1.get i j - K0.get i j) * ds s j) v := by
    obtain ⟨v, hv, _⟩ := solve_unique (Ks s).get S (n := (Ks s).dim) (fun d hd h0 => by
      by_contra hcon
      push Not at hcon
      exact absurd h0 (hS d hd hcon).ne') (fun i => -∑ j ∈ range K0.dim, (K1.get i j - K0.get i j) * ds s j)
    exact ⟨v, hv⟩
  have hrate := C140_rate h hr0 hr1 hr hg0 hg1 hg hK0 hK1 hK hs hS hd hv
  have hdim : (Ks s).dim = K0.dim := ((C140_linear (h s hs) hr0 hr1 (hr s hs) hg0 hg1 (hg s hs) hK0 hK1 (hK s hs)).1).symm
  have hsum : HasDerivWithinAt (fun t => ∑ i ∈ range K0.dim, ds t i * f i) (∑ i ∈ range K0.dim, v i * f i) T s := by
    exact HasDerivWithinAt.fun_sum fun i hi => (hrate i (mem_range.1 hi)).mul_const (f i)
  convert hsum using 1
  have h1 := form_work hv.1 (hd s hs).2
  have h2 := form_work (hd s hs).1 hv.2
  rw [form_symm hsym] at h1
  rw [hdim] at h1 h2
  rw [← h1, h2]
  unfold form
  rw [← Finset.sum_sub_distrib, ← Finset.sum_neg_distrib]
  refine Finset.sum_congr rfl fun i _ => ?_
  rw [mul_neg, Finset.mul_sum, ← Finset.sum_sub_distrib]
  congr 1
  exact Finset.sum_congr rfl fun j _ => by ring

end

/-! ### concrete case: the square, one corner and one triangle of which are made stiffer -/

/-- the laminate at `t` between unit stiffnesses and larger ones -/
noncomputable def exMix (t : ℝ) : Lam := exLam (1 + t) (1 + 2 * t) (1 + t) 1

theorem exMix_zero : exMix 0 = exIso := by simp [exMix, exIso]

theorem exMix_blend (t : ℝ) : Blend t exIso (exMix 1) (exMix t) := by
  refine ⟨fun i j => ?_, fun i j => ?_, fun i j => ?_, fun i j => ?_, ⟨rfl, rfl⟩, ⟨rfl, rfl⟩, ⟨rfl, rfl⟩⟩ <;> simp only [exMix, exIso, exLam] <;> (try split_ifs) <;> ring

theorem exIso_blend (t : ℝ) : Blend t exIso exIso exIso := by
  refine ⟨fun i j => ?_, fun i j => ?_, fun i j => ?_, fun i j => ?_, ⟨rfl, rfl⟩, ⟨rfl, rfl⟩, ⟨rfl, rfl⟩⟩ <;> ring

theorem exMix_le {t : ℝ} (ht : 0 ≤ t) : LamLe exIso (exMix t) := by
  refine ⟨fun e => ?_, ?_, ?_, ?_, ?_, ?_⟩
  · have h0 : ∀ {a d : ℝ} (s h : ℝ), lamProd (exLam a d s h) e e = a * (e 0 ^ 2 + e 1 ^ 2 + e 2 ^ 2) + d * (e 3 ^ 2 + e 4 ^ 2 + e 5 ^ 2) := by
      intro a d s h
      simp [lamProd, Fin.sum_univ_succ, abd, exLam, sym3]
      ring
    rw [exMix, exIso, h0, h0]
    nlinarith [mul_nonneg ht (by positivity : 0 ≤ e 0 ^ 2 + e 1 ^ 2 + e 2 ^ 2), mul_nonneg ht (by positivity : 0 ≤ e 3 ^ 2 + e 4 ^ 2 + e 5 ^ 2)]
  all_goals simp [exIso, exMix, exLam, ht]

noncomputable abbrev exMixed (t : ℝ) : Mesh := exMesh (exMix t) exIso exIso exIso exIso (exMix t)

theorem exMixed_same (s t : ℝ) : SameMesh (exMixed s) (exMixed t) := by
  obtain ⟨a1, a2, a3, a4, a5, a6⟩ := laminates_only (exOps (exMix s) exIso exIso exIso exIso (exMix s)) exRead (by simp [exOps, Op.isProp])
  obtain ⟨b1, b2, b3, b4, b5, b6⟩ := laminates_only (exOps (exMix t) exIso exIso exIso exIso (exMix t)) exRead (by simp [exOps, Op.isProp])
  exact ⟨b1.trans a1.symm, b2.trans a2.symm, b3.trans a3.symm, fun e => ⟨(b4 e).1.trans (a4 e).1.symm, (b4 e).2.1.trans (a4 e).2.1.symm, (b4 e).2.2.trans (a4 e).2.2.symm⟩,
    fun i => (b5 i).trans (a5 i).symm, fun k => (b6 k).trans (a6 k).symm⟩

theorem exMixed_rel {R : Lam → Lam → Lam → Prop} {x y z : ℝ} (h1 : R exIso exIso exIso) (h2 : R (exMix x) (exMix y) (exMix z)) :
    (∀ e ∈ (exMixed x).eids, ∃ p q r, ((exMixed x).tria e).prop = some p ∧ ((exMixed y).tria e).prop = some q ∧ ((exMixed z).tria e).prop = some r ∧ R p q r) ∧
    ∀ i ∈ (exMixed x).nids, ∃ p q r, ((exMixed x).node i).prop = some p ∧ ((exMixed y).node i).prop = some q ∧ ((exMixed z).node i).prop = some r ∧ R p q r := by
  constructor
  · intro e he
    rw [exMesh_eids] at he
    simp only [List.mem_cons, List.not_mem_nil, or_false] at he
    rcases he with rfl | rfl
    · exact ⟨_, _, _, by rw [exMesh_tria1], by rw [exMesh_tria1], by rw [exMesh_tria1], h1⟩
    · exact ⟨_, _, _, by rw [exMesh_tria2], by rw [exMesh_tria2], by rw [exMesh_tria2], h2⟩
  · intro i hi
    rw [exMesh_nids] at hi
    simp only [List.mem_cons, List.not_mem_nil, or_false] at hi
    obtain ⟨e1, e2, e3, e4⟩ := exMesh_nprop (exMix x) exIso exIso exIso exIso (exMix x)
    obtain ⟨f1, f2, f3, f4⟩ := exMesh_nprop (exMix y) exIso exIso exIso exIso (exMix y)
    obtain ⟨g1, g2, g3, g4⟩ := exMesh_nprop (exMix z) exIso exIso exIso exIso (exMix z)
    rcases hi with rfl | rfl | rfl | rfl
    exacts [⟨_, _, _, e1, f1, g1, h2⟩, ⟨_, _, _, e2, f2, g2, h1⟩, ⟨_, _, _, e3, f3, g3, h1⟩, ⟨_, _, _, e4, f4, g4, h1⟩]

theorem exMixed_between (t : ℝ) (pn : Bool) : Between t pn (exMixed 0) (exMixed 1) (exMixed t) := by
  obtain ⟨h1, h2⟩ := exMixed_rel (R := Blend t) (x := 0) (y := 1) (z := t) (exIso_blend t) (by rw [exMix_zero]; exact exMix_blend t)
  exact ⟨exMixed_same 0 1, exMixed_same 0 t, fun _ i hi => Or.inr (h2 i hi), fun _ e he => Or.inr (h1 e he)⟩

theorem exMixed_stiffened {t : ℝ} (ht : 0 ≤ t) : Stiffened (exMixed 0) (exMixed t) := by
  obtain ⟨h1, h2⟩ := exMixed_rel (R := fun p _ r => LamLe p r) (x := 0) (y := 0) (z := t) ⟨fun _ => le_rfl, le_rfl, le_rfl, le_rfl, le_rfl, le_rfl⟩ (by rw [exMix_zero]; exact exMix_le ht)
  have hs := exMixed_same 0 t
  exact { nids := hs.nids, eids := hs.eids, ekeys := hs.ekeys, corner := hs.corner, xyz := hs.xyz, etrias := hs.etrias
          tprop := fun e he => by obtain ⟨p, q, r, a, _, c, d⟩ := h1 e he; simp only [id]; rw [a, c]; exact .some d
          nprop := fun e he => by obtain ⟨p, q, r, a, _, c, d⟩ := h2 e he; simp only [id]; rw [a, c]; exact .some d }

theorem exMixed_good {t : ℝ} (ht : 0 ≤ t) (pn : Bool) : GoodPlate (exMixed t) pn := by
  have e0 : exSq = exMixed 0 := by rw [exMixed, exMix_zero]
  have hg := exSq_good pn
  rw [e0] at hg
  exact (exMixed_stiffened ht).good hg fun i hi => by rw [exMesh_cp _ _ _ _ _ _ i hi]; rfl

theorem exMixed_held (t : ℝ) : Held (exMixed t) {x | x < 5 ∨ 15 ≤ x} := by
  have hs := exMixed_same 0 t
  obtain ⟨i, hi, j, hj, h⟩ := exSq_held
  have e0 : exSq = exMixed 0 := by rw [exMixed, exMix_zero]
  rw [e0] at hi hj h
  refine ⟨i, by rw [hs.nids]; exact hi, j, by rw [hs.nids]; exact hj, ?_⟩
  simp only [hs.snx, hs.sny, dofNo, hs.nids]
  exact h

/-- C140 there: the deflection under a unit load is convex in `t`, its derivative is minus the energy of the stiffening, and it does not grow. -/
example (pn : Bool) : ∃ (Ks : ℝ → Mat) (ds : ℝ → ℕ → ℝ), (∀ t ∈ Set.Icc (0 : ℝ) 1, Stiffness (exMixed t) pn "cell-based" (1 / 5) false (Ks t) ∧
      StaticSol (Ks t) {x | x < 5 ∨ 15 ≤ x} (fun i => if i = 7 then 1 else 0) (ds t) ∧ ds t 7 ≤ (1 - t) * ds 0 7 + t * ds 1 7) ∧
    ∀ s ∈ Set.Icc (0 : ℝ) 1, HasDerivWithinAt (fun t => ds t 7) (-(form 20 (Ks 1).get (ds s) (ds s) - form 20 (Ks 0).get (ds s) (ds s))) (Set.Icc 0 1) s := by
  have hr : ∀ t, Reachable (exMixed t) := fun t => exMesh_reachable ..
  have hK : ∀ t ∈ Set.Icc (0 : ℝ) 1, ∃ K, Stiffness (exMixed t) pn "cell-based" (1 / 5) false K := fun t ht =>
    stiffness_exists (hr t) (exMixed_good ht.1 pn) (exMesh_props _ _ _ _ _ _ pn) (by rw [exMesh_nids]; simp) (method := "cell-based") (Or.inl rfl) (1 / 5) false
  have : Nonempty Mat := ⟨(hK 0 (by simp)).choose⟩
  choose! Ks hKs using hK
  have hd : ∀ t ∈ Set.Icc (0 : ℝ) 1, ∃ d, StaticSol (Ks t) {x | x < 5 ∨ 15 ≤ x} (fun i => if i = 7 then 1 else 0) d := fun t ht => by
    obtain ⟨d, hd, _⟩ := C76_static (hr t) (exMixed_good ht.1 pn) (by norm_num) (hKs t ht) (exMixed_held t) fun i => if i = 7 then 1 else 0
    exact ⟨d, hd⟩
  choose! ds hds using hd
  have i0 : (0 : ℝ) ∈ Set.Icc (0 : ℝ) 1 := by simp
  have i1 : (1 : ℝ) ∈ Set.Icc (0 : ℝ) 1 := by simp
  have hdim : ∀ t ∈ Set.Icc (0 : ℝ) 1, (Ks t).dim = 20 := fun t ht => by rw [(stiffness_energy (hr t) (exMixed_good ht.1 pn) (hKs t ht)).1, exMesh_nids]; rfl
  refine ⟨Ks, ds, fun t ht => ⟨hKs t ht, hds t ht, ?_⟩, fun s hs => ?_⟩
  · have := C140_convex (exMixed_between t pn) (hr 0) (hr 1) (hr t) (exMixed_good le_rfl pn) (exMixed_good zero_le_one pn) (exMixed_good ht.1 pn) (hKs 0 i0) (hKs 1 i1) (hKs t ht)
      ht.1 ht.2 (by norm_num) (hds 0 i0) (hds 1 i1) (hds t ht)
    rw [hdim t ht] at this
    simpa using this
  · have := C140_sensitivity (T := Set.Icc 0 1) (fun t _ => exMixed_between t pn) (hr 0) (hr 1) (fun t _ => hr t) (exMixed_good le_rfl pn) (exMixed_good zero_le_one pn)
      (fun t ht => exMixed_good ht.1 pn) (hKs 0 i0) (hKs 1 i1) hKs hs (held_stable (hr s) (exMixed_good hs.1 pn) (by norm_num) (hKs s hs) (exMixed_held s)) hds
    rw [hdim 0 i0] at this
    simpa using this

/-- the first buckling factor of the square under the membrane forces of a given state is concave in `t` -/
example : ∃ (G : Mat) (Ks : ℝ → Mat) (c : ℝ → ℝ), (∀ t ∈ Set.Icc (0 : ℝ) 1, Stiffness (exMixed t) false "cell-based" (1 / 5) false (Ks t) ∧
    FirstFactor (Ks t) G {x | x < 5 ∨ 15 ≤ x} (c t)) ∧ calcKG (calcK0 exSq false).1 exPress false = .ok G ∧ ∀ t ∈ Set.Icc (0 : ℝ) 1, (1 - t) * c 0 + t * c 1 ≤ c t := by
  obtain ⟨G, hG, hw⟩ := exSq_work false (-1)
  have hr : ∀ t, Reachable (exMixed t) := fun t => exMesh_reachable ..
  have hK : ∀ t ∈ Set.Icc (0 : ℝ) 1, ∃ K, Stiffness (exMixed t) false "cell-based" (1 / 5) false K := fun t ht =>
    stiffness_exists (hr t) (exMixed_good ht.1 false) (exMesh_props _ _ _ _ _ _ false) (by rw [exMesh_nids]; simp) (method := "cell-based") (Or.inl rfl) (1 / 5) false
  have : Nonempty Mat := ⟨G⟩
  choose! Ks hKs using hK
  have hS : ∀ t ∈ Set.Icc (0 : ℝ) 1, Stable (Ks t) {x | x < 5 ∨ 15 ≤ x} := fun t ht => held_stable (hr t) (exMixed_good ht.1 false) (by norm_num) (hKs t ht) (exMixed_held t)
  have hdim : ∀ t ∈ Set.Icc (0 : ℝ) 1, (Ks t).dim = 20 := fun t ht => by rw [(stiffness_energy (hr t) (exMixed_good ht.1 false) (hKs t ht)).1, exMesh_nids]; rfl
  have hc : ∀ t ∈ Set.Icc (0 : ℝ) 1, ∃ c, FirstFactor (Ks t) G {x | x < 5 ∨ 15 ≤ x} c := by
    intro t ht
    have hneg : form (Ks t).dim G.get exSlope exSlope < 0 := by rw [hdim t ht, hw]; norm_num
    obtain ⟨c, hc, _, hpsd, y, hy1, hy2, hy3⟩ := first_factor (C78_symmetric (hr t) (exMixed_good ht.1 false) (hKs t ht)) (fun i _ j _ => (C30_symmetric hG).1 i j) (hS t ht)
      (fun i _ hi => by
        simp only [Set.mem_ofPred_eq] at hi
        unfold exSlope
        rw [if_neg]; omega) hneg
    refine ⟨c, hc, ⟨y, hy2, hy1, hy3⟩, fun c' x hc' hx => ?_⟩
    have h1 := mode_form hx hx.2.1
    have h2 := hS t ht x hx.2.1 hx.1
    have h3 := hpsd x hx.2.1
    by_contra hcon
    push Not at hcon
    have h4 : form (Ks t).dim G.get x x < 0 := by
      by_contra h'
      push Not at h'
      nlinarith
    nlinarith
  choose! c hc using hc
  have i0 : (0 : ℝ) ∈ Set.Icc (0 : ℝ) 1 := by simp
  have i1 : (1 : ℝ) ∈ Set.Icc (0 : ℝ) 1 := by simp
  refine ⟨G, Ks, c, fun t ht => ⟨hKs t ht, hc t ht⟩, hG, fun t ht => ?_⟩
  obtain ⟨x, hx⟩ := (hc t ht).2.1
  exact C140_buckling (exMixed_between t false) (hr 0) (hr 1) (hr t) (exMixed_good le_rfl false) (exMixed_good zero_le_one false) (exMixed_good ht.1 false) (hKs 0 i0) (hKs 1 i1) (hKs t ht)
    ht.1 ht.2 (hS 0 i0) (hS 1 i1) (hc 0 i0) (hc 1 i1) (hc t ht).1 hx hG

end Meshless
