import Verif.Lemmas.Thin

/-! Thin plates: no locking of the stabilised transverse shear. -/

set_option autoImplicit false

namespace Meshless
open Spec Finset

section
variable {t : ℝ} {m m' : Mesh}

theorem Spec.ThinPlate.after (h : ThinPlate t m m') {n n' : Mesh} (hs : SameStatic m n) (hs' : SameStatic m' n') : ThinPlate t n n' where
  tprop e he := by rw [hs.tria, hs'.tria]; exact h.tprop e (hs.eids ▸ he)
  nprop i hi := by rw [hs.prop, hs'.prop]; exact h.nprop i (hs.nids ▸ hi)
  nids := by rw [hs.nids, hs'.nids, h.nids]
  eids := by rw [hs.eids, hs'.eids, h.eids]
  tri e he := by rw [hs.scorners, hs'.scorners]; exact h.tri e (hs.eids ▸ he)
  hx i hi := by rw [hs.snx, hs'.snx]; exact h.hx i (hs.nids ▸ hi)
  hy i hi := by rw [hs.sny, hs'.sny]; exact h.hy i (hs.nids ▸ hi)
  basic i hi := by rw [hs'.xyz, hs'.cp]; exact h.basic i (hs'.nids ▸ hi)
  flat i hi j hj := by rw [hs'.xyz, hs'.xyz]; exact h.flat i (hs'.nids ▸ hi) j (hs'.nids ▸ hj)

theorem Spec.ThinPlate.inUse (h : ThinPlate t m m') {pn : Bool} {l' : Lam} (hl : InUse m' pn l') : ∃ l, InUse m pn l ∧ ThinLam t l l' := by
  unfold InUse at hl
  cases pn with
  | true =>
    simp only [if_true] at hl
    obtain ⟨i, hi, hp⟩ := hl
    rw [h.nids] at hi
    have := h.nprop i hi
    rw [id, hp] at this
    cases hq : (m.node i).prop with
    | none => rw [hq] at this; cases this
    | some l => rw [hq] at this; cases this with | some hh => exact ⟨l, by unfold InUse; simp only [if_true]; exact ⟨i, hi, hq⟩, hh⟩
  | false =>
    simp only [Bool.false_eq_true, if_false] at hl
    obtain ⟨e, he, hp⟩ := hl
    rw [h.eids] at he
    have := h.tprop e he
    rw [id, hp] at this
    cases hq : (m.tria e).prop with
    | none => rw [hq] at this; cases this
    | some l => rw [hq] at this; cases this with | some hh => exact ⟨l, by unfold InUse; simp only [Bool.false_eq_true, if_false]; exact ⟨e, he, hq⟩, hh⟩

theorem Spec.ThinLam.stiff (ht : 0 < t) {p p' : Lam} (h : ThinLam t p p') (hp : StiffABD p) : StiffABD p' := by
  intro x hx
  have h1 := hp (fun i => (if i.val < 3 then 1 else t) * x i) (by
    intro h0
    apply hx
    funext i
    have := congrFun h0 i
    simp only [Pi.zero_apply] at this ⊢
    split_ifs at this
    · linarith
    · exact (mul_eq_zero.1 this).resolve_left ht.ne')
  have h2 : ∑ p_1, ∑ q, x p_1 * Spec.abd p' p_1 q * x q = t * ∑ i, ∑ j, (if i.val < 3 then 1 else t) * x i * Spec.abd p i j * ((if j.val < 3 then 1 else t) * x j) := by
    rw [Finset.mul_sum]
    refine Finset.sum_congr rfl fun i _ => ?_
    rw [Finset.mul_sum]
    refine Finset.sum_congr rfl fun j _ => ?_
    rw [h.abd]
    split_ifs <;> first | omega | ring
  rw [h2]
  exact mul_pos ht h1

theorem Spec.ThinPlate.good (h : ThinPlate t m m') (ht : 0 < t) (w : WF m) (w' : WF m') {pn : Bool} (hg : GoodPlate m pn) : GoodPlate m' pn := by
  obtain ⟨hp', hg'⟩ := h.unit.planar one_ne_zero (relaid_wf w) w' (relaid_proper hg.proper) (relaid_planar hg.planar)
  refine ⟨hp', hg', ?_, fun l' hl' => ?_, fun l' hl' => ?_⟩
  · have hic : ∀ e ∈ m.eids, ∀ i, IsCorner m' e i ↔ IsCorner m e i := fun e he i => by rw [isCorner_mem, isCorner_mem, h.tri e he]
    refine ⟨fun e he e' he' => ?_, fun i hi => ?_⟩
    · rw [h.eids] at he he'
      refine Relation.ReflTransGen.mono (fun a b hab => ?_) _ _ (hg.piece.walk e he e' he')
      obtain ⟨k, hk, h1, h2⟩ := hab
      have sp := h.unit.same
      have wr : WF (relaid (relaid m m') m') := relaid_wf (relaid_wf w)
      have hm := fun a => (sp.trias wr w' hg.proper.distinct hk).mem_iff (a := a)
      exact ⟨keyMap id k, sp.key_mem wr w' hg.proper.distinct hk, (hm a).2 (List.mem_map_of_mem h1), (hm b).2 (List.mem_map_of_mem h2)⟩
    · rw [h.nids] at hi
      obtain ⟨e, he, hc⟩ := hg.piece.used i hi
      exact ⟨e, h.eids ▸ he, (hic e he i).2 hc⟩
  · obtain ⟨l, hl, hh⟩ := h.inUse hl'
    exact hh.stiff ht (hg.abd l hl)
  · obtain ⟨l, hl, hh⟩ := h.inUse hl'
    obtain ⟨h1, h2, h3, h4, h5⟩ := hg.shear l hl
    refine ⟨?_, ?_, ?_, ?_, ?_⟩
    · rw [hh.h]; positivity
    · rw [hh.k13]; exact h2
    · rw [hh.k23]; exact h3
    · rw [hh.E]; positivity
    · rw [hh.E]; positivity

/-! ### C127 -/

/-- the two shear factors of a triangle compared -/
theorem thin_factor {h2 x t c : ℝ} (hh : 0 < h2) (hx : 0 < x) (ht : 0 < t) (ht1 : t ≤ 1) (hc : h2 ≤ c * x) :
    h2 / (h2 + x) ≤ h2 / (t ^ 2 * h2 + x) ∧ h2 / (t ^ 2 * h2 + x) ≤ (1 + c) * (h2 / (h2 + x)) := by
  have h1 : t ^ 2 * h2 ≤ h2 := by nlinarith [pow_le_one₀ (n := 2) ht.le ht1]
  constructor
  · exact div_le_div_of_nonneg_left hh.le (by positivity) (by linarith)
  · rw [← mul_div_assoc, div_le_div_iff₀ (by positivity) (by positivity)]
    have h0 : 0 ≤ t ^ 2 * h2 := by positivity
    have hc0 : 0 ≤ c := by by_contra hn; push Not at hn; nlinarith
    nlinarith [mul_nonneg hc0 (mul_nonneg hh.le h0), mul_nonneg hh.le h0, mul_nonneg hh.le (sub_nonneg.2 hc)]

/-- C127: the strain energy of the plate with all thicknesses multiplied by `t <= 1`, for displacements with the in-plane part multiplied by `t`, is between `t^3` and
`(1 + c) * t^3` times that of the original plate, where `c` bounds `h^2 / (alpha * l^2)` over the triangles of the original plate -/
theorem C127_energy (hr : Reachable m) (hr' : Reachable m') {pn : Bool} (hg : GoodPlate m pn) (h : ThinPlate t m m') (ht : 0 < t) (ht1 : t ≤ 1) {method : String} {al : ℝ}
    (ha : 0 < al) {fa : Bool} {c : ℝ} (hc : ∀ e ∈ m.eids, cavg m pn e (fun l => l.h) ^ 2 ≤ c * (al * charLen m fa e ^ 2)) {K K' : Mat} (hK : Stiffness m pn method al fa K)
    (hK' : Stiffness m' pn method al fa K') : K'.dim = K.dim ∧ 0 ≤ c ∧ ∀ v, t ^ 3 * form K.dim K.get v v ≤ form K'.dim K'.get (thinned t v) (thinned t v) ∧
      form K'.dim K'.get (thinned t v) (thinned t v) ≤ (1 + c) * (t ^ 3 * form K.dim K.get v v) := by
  have hg' := h.good ht hr.wf hr'.wf hg
  obtain ⟨hdim, K0, hK0, hd0, hform⟩ := stiffness_energy hr hg hK
  obtain ⟨hdim', K0', hK0', hd0', hform'⟩ := stiffness_energy hr' hg' hK'
  obtain ⟨hs, _, hh, hne⟩ := calcK0_ok hr.wf hK0
  obtain ⟨hs', _, hh', _⟩ := calcK0_ok hr'.wf hK0'
  have tt := h.after hs hs'
  have w := hs.wf hr.wf
  have hd : ∀ e ∈ (calcK0 m pn).1.eids, ((calcK0 m pn).1.tria e).Distinct := by rw [hs.eids, hs.tria]; exact hg.proper.distinct
  have t3 : 0 < t ^ 3 := by positivity
  have hcs : ∀ e ∈ (calcK0 m pn).1.eids, 0 < cavg (calcK0 m pn).1 pn e (fun l => l.h) ^ 2 ∧
      cavg (calcK0 m pn).1 pn e (fun l => l.h) ^ 2 ≤ c * (al * charLen (calcK0 m pn).1 fa e ^ 2) := by
    intro e he
    refine ⟨pow_pos (cavg_pos w (hs.hasProps hh) he fun l hl => (hg.shear l (hs.inUse.1 hl)).1) 2, ?_⟩
    have e1 : cavg (calcK0 m pn).1 pn e = cavg m pn e := by funext sel; simp only [cavg, hs.tria, hs.scorners, hs.prop]
    have e2 : charLen (calcK0 m pn).1 fa e = charLen m fa e := by simp only [charLen, hs.striArea, dist2, hs.snx, hs.sny, hs.tria]
    rw [e1, e2]
    exact hc e (hs.eids ▸ he)
  have hsign : ∀ {x y : ℝ}, 0 < x → 0 ≤ y → x ≤ c * y → 0 < y ∧ 0 < c := by
    intro x y hx hy hxy
    rcases hy.eq_or_lt with rfl | hy
    · rw [mul_zero] at hxy; exact absurd hx (not_lt.2 hxy)
    · exact ⟨hy, pos_of_mul_pos_left (hx.trans_le hxy) hy.le⟩
  have hx0 : ∀ e, 0 ≤ al * charLen (calcK0 m pn).1 fa e ^ 2 := fun e => by positivity
  have hc0 : 0 ≤ c := by
    obtain ⟨i, hi⟩ := List.exists_mem_of_ne_nil _ hne
    obtain ⟨e, he, _⟩ := hg.piece.used i hi
    obtain ⟨h1, h2⟩ := hcs e (hs.eids.symm ▸ he)
    exact (hsign h1 (hx0 e) h2).2.le
  refine ⟨by rw [hdim, hdim', h.nids], hc0, fun v => ?_⟩
  have e0 : form K0'.dim K0'.get (thinned t v) (thinned t v) = t ^ 3 * form K0.dim K0.get v v := by
    rw [C18_energy hr' hg'.proper hg'.planar hK0', C18_energy hr hg.proper hg.planar hK0, h.energy hr.wf hr'.wf hg.proper hg.planar]
  have hpos0 : 0 ≤ form K0.dim K0.get v v := by
    rw [C18_energy hr hg.proper hg.planar hK0]; exact (energy_zero_eps hr.wf hg.proper hg.planar hh hg.abd (d := v)).1
  have hgam : ∀ e ∈ (calcK0 m pn).1.eids, ∀ r : Fin 2, (if method = "cell-based" then cellStrain (calcK0 m' pn).1 else wholeGamma (calcK0 m' pn).1) e (thinned t v) r =
      (if method = "cell-based" then cellStrain (calcK0 m pn).1 else wholeGamma (calcK0 m pn).1) e v r := by
    intro e he r
    split_ifs
    · rw [thinned_cell]
      have := tt.unit.cell one_ne_zero (relaid_wf w) hd he v r
      rw [inLength_one] at this
      exact this
    · rw [thinned_whole]
      have := tt.unit.whole one_ne_zero (relaid_wf w) hd he v
      rw [inLength_one] at this
      rw [this]; rfl
  generalize hgv : (if method = "cell-based" then cellStrain (calcK0 m pn).1 else wholeGamma (calcK0 m pn).1) = g at *
  generalize hgv' : (if method = "cell-based" then cellStrain (calcK0 m' pn).1 else wholeGamma (calcK0 m' pn).1) = g' at *
  have hsh : t ^ 3 * shearEnergy (calcK0 m pn).1 pn al fa g v v ≤ shearEnergy (calcK0 m' pn).1 pn al fa g' (thinned t v) (thinned t v) ∧
      shearEnergy (calcK0 m' pn).1 pn al fa g' (thinned t v) (thinned t v) ≤ (1 + c) * (t ^ 3 * shearEnergy (calcK0 m pn).1 pn al fa g v v) := by
    unfold shearEnergy
    rw [tt.eids, ← List.sum_map_mul_left]
    have key : ∀ e ∈ (calcK0 m pn).1.eids, ∀ r, t ^ 3 * shearMod (calcK0 m pn).1 pn al fa e r ≤ shearMod (calcK0 m' pn).1 pn al fa e r ∧
        shearMod (calcK0 m' pn).1 pn al fa e r ≤ (1 + c) * (t ^ 3 * shearMod (calcK0 m pn).1 pn al fa e r) := by
      intro e he r
      obtain ⟨h1, h2⟩ := hcs e he
      obtain ⟨f1, f2⟩ := thin_factor h1 (hsign h1 (hx0 e) h2).1 ht ht1 h2
      rw [tt.shearMod w hd pn al fa he r]
      unfold shearMod
      dsimp only
      generalize hQ : (if r = 0 then cavg (calcK0 m pn).1 pn e (fun l => l.k23) * cavg (calcK0 m pn).1 pn e (fun l => l.E 0 0)
        else cavg (calcK0 m pn).1 pn e (fun l => l.k13) * cavg (calcK0 m pn).1 pn e (fun l => l.E 1 1)) = Q
      have hQ0 : 0 ≤ Q := by
        have p13 : 0 < cavg (calcK0 m pn).1 pn e (fun l => l.k13) := cavg_pos w (hs.hasProps hh) he fun l hl => (hg.shear l (hs.inUse.1 hl)).2.1
        have p23 : 0 < cavg (calcK0 m pn).1 pn e (fun l => l.k23) := cavg_pos w (hs.hasProps hh) he fun l hl => (hg.shear l (hs.inUse.1 hl)).2.2.1
        have p0 : 0 < cavg (calcK0 m pn).1 pn e (fun l => l.E 0 0) := cavg_pos w (hs.hasProps hh) he fun l hl => (hg.shear l (hs.inUse.1 hl)).2.2.2.1
        have p1 : 0 < cavg (calcK0 m pn).1 pn e (fun l => l.E 1 1) := cavg_pos w (hs.hasProps hh) he fun l hl => (hg.shear l (hs.inUse.1 hl)).2.2.2.2
        rw [← hQ]; split_ifs <;> positivity
      have g1 := mul_le_mul_of_nonneg_left (mul_le_mul_of_nonneg_right f1 hQ0) t3.le
      have g2 := mul_le_mul_of_nonneg_left (mul_le_mul_of_nonneg_right f2 hQ0) t3.le
      exact ⟨g1, g2.trans (le_of_eq (by ring))⟩
    have harea : ∀ e ∈ (calcK0 m pn).1.eids, triArea (calcK0 m' pn).1 e = triArea (calcK0 m pn).1 e := by
      intro e he
      have := tt.unit.triArea (relaid_wf w) hd he
      rw [one_pow, one_mul] at this
      exact this
    have hA : ∀ e, 0 ≤ triArea (calcK0 m pn).1 e := fun e => by unfold triArea; positivity
    constructor
    · refine List.sum_le_sum fun e he => ?_
      rw [harea e he, hgam e he, hgam e he]
      have k0 := mul_le_mul_of_nonneg_left (key e he 0).1 (pow_two_nonneg (g e v 0))
      have k1 := mul_le_mul_of_nonneg_left (key e he 1).1 (pow_two_nonneg (g e v 1))
      have := mul_le_mul_of_nonneg_left (add_le_add k0 k1) (hA e)
      refine le_trans (le_of_eq ?_) (this.trans (le_of_eq ?_)) <;> ring
    · rw [← List.sum_map_mul_left]
      refine List.sum_le_sum fun e he => ?_
      rw [harea e he, hgam e he, hgam e he]
      have k0 := mul_le_mul_of_nonneg_left (key e he 0).2 (pow_two_nonneg (g e v 0))
      have k1 := mul_le_mul_of_nonneg_left (key e he 1).2 (pow_two_nonneg (g e v 1))
      have := mul_le_mul_of_nonneg_left (add_le_add k0 k1) (hA e)
      refine le_trans (le_of_eq ?_) (this.trans (le_of_eq ?_)) <;> ring
  rw [hform, hform', e0]
  constructor
  · nlinarith [hsh.1]
  · nlinarith [hsh.2, mul_nonneg hc0 (mul_nonneg t3.le hpos0)]

theorem thinned_supported {t : ℝ} (ht : t ≠ 0) (n : ℕ) (S : Set ℕ) (z : ℕ → ℝ) : Supported n S (thinned t z) ↔ Supported n S z := by
  have : ∀ j, thinned t z j = 0 ↔ z j = 0 := by intro j; unfold thinned; split_ifs <;> simp [ht]
  unfold Supported
  simp only [this]

theorem thinned_from {t : ℝ} (ht : t ≠ 0) (z : ℕ → ℝ) : ∃ y, z = thinned t y := by
  refine ⟨thinned t⁻¹ z, ?_⟩
  funext j
  unfold thinned
  split_ifs <;> field_simp

theorem thinned_work (t : ℝ) (n : ℕ) (v f : ℕ → ℝ) : ∑ i ∈ range n, thinned t v i * thinLoad t f i = t ^ 3 * ∑ i ∈ range n, v i * f i := by
  rw [Finset.mul_sum]
  refine Finset.sum_congr rfl fun i _ => ?_
  unfold thinned thinLoad
  split_ifs <;> ring

/-- C127: no locking. With the loads scaled for bending (`t^3`), the work of the loads on the plate with all thicknesses multiplied by `t <= 1` is at most `t^3` times the
work on the original plate and at least `t^3 / (1 + c)` times it, where `c` bounds `h^2 / (alpha * l^2)` over the triangles of the original plate and does not
depend on `t` -/
theorem C127_work (hr : Reachable m) (hr' : Reachable m') {pn : Bool} (hg : GoodPlate m pn) (h : ThinPlate t m m') (ht : 0 < t) (ht1 : t ≤ 1) {method : String} {al : ℝ}
    (ha : 0 < al) {fa : Bool} {c : ℝ} (hc : ∀ e ∈ m.eids, cavg m pn e (fun l => l.h) ^ 2 ≤ c * (al * charLen m fa e ^ 2)) {K K' : Mat} (hK : Stiffness m pn method al fa K)
    (hK' : Stiffness m' pn method al fa K') {S : Set ℕ} {f d d' : ℕ → ℝ} (hd : StaticSol K S f d) (hd' : StaticSol K' S (thinLoad t f) d') :
    ∑ i ∈ range K.dim, d' i * thinLoad t f i ≤ t ^ 3 * ∑ i ∈ range K.dim, d i * f i ∧
      t ^ 3 * ∑ i ∈ range K.dim, d i * f i ≤ (1 + c) * ∑ i ∈ range K.dim, d' i * thinLoad t f i := by
  obtain ⟨hdd, hc0, hE⟩ := C127_energy hr hr' hg h ht ht1 ha hc hK hK'
  have hg' := h.good ht hr.wf hr'.wf hg
  have t3 : 0 < t ^ 3 := by positivity
  obtain ⟨y, rfl⟩ := thinned_from ht.ne' d'
  have hsup : Supported K.dim S y := by rw [← thinned_supported ht.ne', ← hdd]; exact hd'.1
  have hsupd : Supported K'.dim S (thinned t d) := by rw [thinned_supported ht.ne', hdd]; exact hd.1
  have f1 := form_work hd.1 hd.2
  have f2 := form_work hd'.1 hd'.2
  rw [hdd, thinned_work] at f2
  rw [thinned_work]
  have m1 := work_max (C78_symmetric hr hg hK) (fun x => (modes_total hr hg ha.le hK (d := x)).1) hd.1 hd.2 (x := y) hsup
  have e1 := (hE y).1
  rw [hdd] at e1
  constructor
  · have : t ^ 3 * form K.dim K.get y y ≤ t ^ 3 * ∑ i ∈ range K.dim, y i * f i := e1.trans f2.le
    have := le_of_mul_le_mul_left this t3
    exact mul_le_mul_of_nonneg_left (by linarith) t3.le
  · have hc1 : 0 < 1 + c := by linarith
    have e2 := (hE fun i => (1 + c)⁻¹ * d i).2
    rw [form_smul, f1] at e2
    have hx : Supported K'.dim S (thinned t fun i => (1 + c)⁻¹ * d i) := by
      rw [thinned_supported ht.ne', hdd]; intro i hi hiS; dsimp only; rw [hd.1 i hi hiS, mul_zero]
    have m2 := work_max (C78_symmetric hr' hg' hK') (fun x => (modes_total hr' hg' ha.le hK' (d := x)).1) hd'.1 hd'.2 hx
    rw [hdd] at m2 e2
    rw [thinned_work, thinned_work] at m2
    have e3 : ∑ i ∈ range K.dim, (1 + c)⁻¹ * d i * f i = (1 + c)⁻¹ * ∑ i ∈ range K.dim, d i * f i := by
      rw [Finset.mul_sum]; exact Finset.sum_congr rfl fun i _ => by ring
    rw [e3] at m2
    have e4 : (1 + c) * (t ^ 3 * ((1 + c)⁻¹ * (1 + c)⁻¹ * ∑ i ∈ range K.dim, d i * f i)) = (1 + c)⁻¹ * (t ^ 3 * ∑ i ∈ range K.dim, d i * f i) := by field_simp
    rw [e4] at e2
    have e5 : (1 + c)⁻¹ * (t ^ 3 * ∑ i ∈ range K.dim, d i * f i) ≤ t ^ 3 * ∑ i ∈ range K.dim, y i * f i := by linarith
    rwa [inv_mul_le_iff₀ hc1] at e5

/-- C127: the deflection under a transverse force (or a moment) at a node: the thin plate under `t^3` times the force deflects no more than the original one, and not less than
`1 / (1 + c)` times as much, however thin it is -/
theorem C127_point (hr : Reachable m) (hr' : Reachable m') {pn : Bool} (hg : GoodPlate m pn) (h : ThinPlate t m m') (ht : 0 < t) (ht1 : t ≤ 1) {method : String} {al : ℝ}
    (ha : 0 < al) {fa : Bool} {c : ℝ} (hc : ∀ e ∈ m.eids, cavg m pn e (fun l => l.h) ^ 2 ≤ c * (al * charLen m fa e ^ 2)) {K K' : Mat} (hK : Stiffness m pn method al fa K)
    (hK' : Stiffness m' pn method al fa K') {S : Set ℕ} {j : ℕ} (hj : j < K.dim) (hj2 : 2 ≤ j % 5) {q : ℝ} (hq : 0 < q) {d d' : ℕ → ℝ}
    (hd : StaticSol K S (fun i => if i = j then q else 0) d) (hd' : StaticSol K' S (fun i => if i = j then t ^ 3 * q else 0) d') : d' j ≤ d j ∧ d j ≤ (1 + c) * d' j := by
  have hl : thinLoad t (fun i => if i = j then q else 0) = fun i => if i = j then t ^ 3 * q else 0 := by
    funext i
    unfold thinLoad
    by_cases hij : i = j
    · subst hij; rw [if_neg (by omega)]; simp
    · simp [hij]
  rw [← hl] at hd'
  obtain ⟨h1, h2⟩ := C127_work hr hr' hg h ht ht1 ha hc hK hK' hd hd'
  rw [hl] at h1 h2
  have t3 : 0 < t ^ 3 * q := by positivity
  simp only [mul_ite, mul_zero, Finset.sum_ite_eq', Finset.mem_range, hj, if_true] at h1 h2
  exact ⟨le_of_mul_le_mul_right (by linarith) t3, le_of_mul_le_mul_right (by linarith) t3⟩

end

/-! Concrete case: the unit square made thinner and thinner. -/

/-- the laminate of the square `exSq` with its thickness multiplied by `t` -/
noncomputable def exFoil (t : ℝ) : Lam := exLam t (t ^ 3) t t

/-- the unit square of the thin laminate -/
noncomputable def exThin (t : ℝ) : Mesh := exMesh (exFoil t) (exFoil t) (exFoil t) (exFoil t) (exFoil t) (exFoil t)

theorem exThin_thin (t : ℝ) : ThinPlate t exSq (exThin t) := by
  have hl : ThinLam t exIso (exFoil t) := by
    constructor <;> (try intro i j) <;> simp only [exIso, exFoil, exLam] <;> (try split_ifs) <;> ring
  have hn : (exThin t).nids = exSq.nids := by unfold exThin; rw [exMesh_nids, exMesh_nids]
  have hxyz : ∀ i ∈ exSq.nids, ((exThin t).node i).xyz = (exSq.node i).xyz := by
    intro i hi
    rw [exMesh_nids] at hi
    unfold exThin
    simp only [List.mem_cons, List.not_mem_nil, or_false] at hi
    rcases hi with rfl | rfl | rfl | rfl <;> simp only [exMesh_node1, exMesh_node2, exMesh_node3, exMesh_node4]
  refine { toLamRel := ⟨fun e he => ?_, fun i hi => ?_⟩, nids := hn, eids := by unfold exThin; rw [exMesh_eids, exMesh_eids], tri := fun e he => ?_,
           hx := fun i hi => ?_, hy := fun i hi => ?_, basic := fun i hi => ?_, flat := fun i hi j hj => ?_ }
  · rw [exMesh_eids] at he
    rw [id]
    unfold exThin
    simp only [List.mem_cons, List.not_mem_nil, or_false] at he
    rcases he with rfl | rfl
    · rw [exMesh_tria1, exMesh_tria1]; exact .some hl
    · rw [exMesh_tria2, exMesh_tria2]; exact .some hl
  · rw [exMesh_nids] at hi
    rw [id]
    unfold exThin
    obtain ⟨e1, e2, e3, e4⟩ := exMesh_nprop (exFoil t) (exFoil t) (exFoil t) (exFoil t) (exFoil t) (exFoil t)
    obtain ⟨f1, f2, f3, f4⟩ := exMesh_nprop exIso exIso exIso exIso exIso exIso
    simp only [List.mem_cons, List.not_mem_nil, or_false] at hi
    rcases hi with rfl | rfl | rfl | rfl
    · rw [e1, f1]; exact .some hl
    · rw [e2, f2]; exact .some hl
    · rw [e3, f3]; exact .some hl
    · rw [e4, f4]; exact .some hl
  · rw [exMesh_eids] at he
    unfold corners exThin
    simp only [List.mem_cons, List.not_mem_nil, or_false] at he
    rcases he with rfl | rfl
    · simp only [exMesh_tria1]
    · simp only [exMesh_tria2]
  · unfold nx; rw [hxyz i hi]
  · unfold ny; rw [hxyz i hi]
  · unfold exThin at hi ⊢
    rw [exMesh_cp _ _ _ _ _ _ i hi]; rfl
  · rw [hn] at hi hj
    rw [hxyz i hi, hxyz j hj]
    exact (exMesh_planar exIso exIso exIso exIso exIso exIso).flat i hi j hj

/-- the longest side of the triangles of the square is the square root of 2 -/
theorem exSq_longest {e : ℕ} (he : e ∈ exSq.eids) : charLen exSq false e ^ 2 = 2 := by
  have h2 : (1 : ℝ) ≤ Real.sqrt 2 := by rw [Real.one_le_sqrt]; norm_num
  rw [exMesh_eids] at he
  simp only [List.mem_cons, List.not_mem_nil, or_false] at he
  rcases he with rfl | rfl
  · have : charLen exSq false 1 = Real.sqrt 2 := by
      simp only [charLen, dist2, nx, ny, exMesh_tria1, exMesh_node1, exMesh_node2, exMesh_node3]
      norm_num [h2]
    rw [this]; norm_num
  · have : charLen exSq false 2 = Real.sqrt 2 := by
      simp only [charLen, dist2, nx, ny, exMesh_tria2, exMesh_node1, exMesh_node3, exMesh_node4]
      norm_num [h2]
    rw [this]; norm_num

/-- the square clamped along its left side under a transverse force at node 2 (degree of freedom 7), with `alpha = 0.1`: made `1/t` times thinner it deflects under `t^3` times
the force by at least a sixth as much -/
example (pn : Bool) {method : String} (hme : method = "cell-based" ∨ method = "cell-based-no-smoothing") {t : ℝ} (ht : 0 < t) (ht1 : t ≤ 1) :
    ∃ K K', Stiffness exSq pn method (1 / 10) false K ∧ Stiffness (exThin t) pn method (1 / 10) false K' ∧ ∃ d d',
      StaticSol K {x | x < 5 ∨ 15 ≤ x} (fun i => if i = 7 then 1 else 0) d ∧ StaticSol K' {x | x < 5 ∨ 15 ≤ x} (fun i => if i = 7 then t ^ 3 * 1 else 0) d' ∧
        0 < d 7 ∧ d' 7 ≤ d 7 ∧ d 7 ≤ (1 + 5) * d' 7 := by
  have hr := exMesh_reachable exIso exIso exIso exIso exIso exIso
  have hr' : Reachable (exThin t) := exMesh_reachable ..
  have hg' := (exThin_thin t).good ht hr.wf hr'.wf (exSq_good pn)
  obtain ⟨K, hK⟩ := exSq_stiffness hme pn (1 / 10) false
  obtain ⟨K', hK'⟩ := stiffness_exists hr' hg' (exMesh_props ..) (by rw [(exThin_thin t).nids, exMesh_nids]; simp) hme (1 / 10) false
  have hh' : Held (exThin t) {x | x < 5 ∨ 15 ≤ x} := by
    have := exSq_held
    unfold Held at this ⊢
    rw [(exThin_thin t).nids]
    obtain ⟨i, hi, j, hj, h⟩ := this
    refine ⟨i, hi, j, hj, ?_⟩
    simp only [(exThin_thin t).hx i hi, (exThin_thin t).hx j hj, (exThin_thin t).hy i hi, (exThin_thin t).hy j hj, dofNo, (exThin_thin t).nids]
    exact h
  obtain ⟨d, hd, _⟩ := C76_static hr (exSq_good pn) (by norm_num) hK exSq_held fun i => if i = 7 then 1 else 0
  obtain ⟨d', hd', _⟩ := C76_static hr' hg' (by norm_num) hK' hh' fun i => if i = 7 then t ^ 3 * 1 else 0
  have hdim : K.dim = 20 := by rw [(stiffness_energy hr (exSq_good pn) hK).1, exMesh_nids]; rfl
  have hpt := C127_point hr hr' (exSq_good pn) (exThin_thin t) ht ht1 (by norm_num) (c := 5) (fun e he => by
    rw [cavg_homog hr.wf (exMesh_Homog exIso pn) he, exSq_longest he]; norm_num [exIso, exLam]) hK hK' (j := 7) (by omega) (by norm_num) one_pos hd hd'
  refine ⟨K, K', hK, hK', d, d', hd, hd', ?_, hpt⟩
  have hw := form_work hd.1 hd.2
  simp only [mul_ite, mul_zero, mul_one, Finset.sum_ite_eq', Finset.mem_range, hdim, show 7 < 20 by norm_num, if_true] at hw
  rw [← hw, ← hdim]
  refine held_stable hr (exSq_good pn) (by norm_num) hK exSq_held d hd.1 ?_
  by_contra hcon
  push Not at hcon
  have := hd.2 7 (by omega) (by simp)
  rw [if_pos rfl] at this
  rw [show ∑ j ∈ range K.dim, K.get 7 j * d j = 0 from Finset.sum_eq_zero fun j hj => by rw [hcon j (Finset.mem_range.1 hj), mul_zero]] at this
  norm_num at this

end Meshless
