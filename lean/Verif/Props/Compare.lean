import Verif.Lemmas.Compare
import Verif.Props.TurnSolve

/-! Number of buckling factors; more supports; stiffer laminates; superposition of loads. -/

set_option autoImplicit false

namespace Meshless
open Spec Finset

/-! ### C95 -/

section
variable {m : Mesh} (hr : Reachable m) {pn : Bool} (hg : GoodPlate m pn) {method : String} {al : ℝ} {fa : Bool} {K G : Mat} (hK : Stiffness m pn method al fa K)
  {S : Set ℕ} (hS : Stable K S) {d : List ℝ} (hG : calcKG (calcK0 m pn).1 d pn = .ok G)
include hr hg hK hS hG

open Classical in
/-- C95: a plate with `n` free deflections has at most `n` different buckling factors: modes of different factors are told apart by their deflections -/
theorem C95_modes {ι : Type} [Fintype ι] {c : ι → ℝ} (hc : Function.Injective c) {x : ι → ℕ → ℝ} (hx : ∀ i, BucklingMode K G S (c i) (x i)) :
    Fintype.card ι ≤ ((range K.dim).filter fun j => j % 5 = 2 ∧ j ∉ S).card := by
  set W := (range K.dim).filter fun j => j % 5 = 2 ∧ j ∉ S with hW
  have hli : LinearIndependent ℝ (fun (i : ι) (j : W) => x i j) := by
    rw [Fintype.linearIndependent_iff]
    intro g hg0 k
    let z : ℕ → ℝ := fun j => ∑ i, g i * x i j
    have hz : Supported K.dim S z := fun j hj hjS => by
      change ∑ i, g i * x i j = 0
      exact Finset.sum_eq_zero fun i _ => by rw [(hx i).2.1 j hj hjS, mul_zero]
    have hw : ∀ j < K.dim, j % 5 = 2 → z j = 0 := by
      intro j hj h2
      by_cases hjS : j ∈ S
      · exact hz j hj hjS
      · have := congrFun hg0 ⟨j, by rw [hW, Finset.mem_filter, Finset.mem_range]; exact ⟨hj, h2, hjS⟩⟩
        simpa [Finset.sum_apply, z] using this
    have hG0 : form K.dim G.get z (x k) = 0 := by
      unfold form
      refine Finset.sum_eq_zero fun i hi => Finset.sum_eq_zero fun j _ => ?_
      by_cases h : i % 5 = 2
      · rw [hw i (Finset.mem_range.1 hi) h]; ring
      · rw [(C30_symmetric hG).2 i j (Or.inl h)]; ring
    have h1 := mode_form (hx k) hz
    rw [hG0, mul_zero, add_zero, form_sum_left] at h1
    rw [Finset.sum_eq_single k (fun i _ hik => by
      rw [(C83_orthogonal hr hg hK hG (hx i) (hx k) fun e => hik (hc e)).1, mul_zero]) (by simp)] at h1
    exact (mul_eq_zero.1 h1).resolve_right (hS _ (hx k).2.1 (hx k).1).ne'
  have := hli.fintype_card_le_finrank
  rwa [Module.finrank_fintype_fun_eq_card, Fintype.card_coe] at this

open Classical in
/-- C95: the set of buckling factors is finite and has at most as many elements as there are free deflections -/
theorem C95_factors : {c | ∃ x, BucklingMode K G S c x}.Finite ∧
    {c | ∃ x, BucklingMode K G S c x}.ncard ≤ ((range K.dim).filter fun j => j % 5 = 2 ∧ j ∉ S).card := by
  have key : ∀ t : Finset ℝ, (t : Set ℝ) ⊆ {c | ∃ x, BucklingMode K G S c x} → t.card ≤ ((range K.dim).filter fun j => j % 5 = 2 ∧ j ∉ S).card := by
    intro t ht
    have hex : ∀ c : t, ∃ x, BucklingMode K G S c x := fun c => ht c.2
    choose x hx using hex
    have := C95_modes hr hg hK hS hG (c := fun c : t => (c : ℝ)) Subtype.val_injective hx
    rwa [Fintype.card_coe] at this
  have hfin : {c | ∃ x, BucklingMode K G S c x}.Finite := by
    by_contra hinf
    obtain ⟨t, ht, hcard⟩ := Set.Infinite.exists_subset_card_eq hinf (((range K.dim).filter fun j => j % 5 = 2 ∧ j ∉ S).card + 1)
    have := key t ht
    omega
  refine ⟨hfin, ?_⟩
  rw [Set.ncard_eq_toFinset_card _ hfin]
  exact key _ (by simp)

end

/-! ### C96 -/

/-- C96: supporting more degrees of freedom never increases the work of the loads (twice the stored energy) -/
theorem C96_deflection {m : Mesh} (hr : Reachable m) {pn : Bool} (hg : GoodPlate m pn) {method : String} {al : ℝ} (ha : 0 ≤ al) {fa : Bool} {K : Mat}
    (hK : Stiffness m pn method al fa K) {S S' : Set ℕ} (hSS : S ⊆ S') {f d d' : ℕ → ℝ} (hd : StaticSol K S f d) (hd' : StaticSol K S' f d') :
    ∑ i ∈ range K.dim, d' i * f i ≤ ∑ i ∈ range K.dim, d i * f i := by
  have h1 := work_max (C78_symmetric hr hg hK) (fun x => (modes_total hr hg ha hK (d := x)).1) hd.1 hd.2 (x := d') fun i hi hiS => hd'.1 i hi (hSS hiS)
  have h2 := form_work hd'.1 hd'.2
  linarith

/-- C96 for a single unit load: its deflection does not increase -/
theorem C96_point {m : Mesh} (hr : Reachable m) {pn : Bool} (hg : GoodPlate m pn) {method : String} {al : ℝ} (ha : 0 ≤ al) {fa : Bool} {K : Mat}
    (hK : Stiffness m pn method al fa K) {S S' : Set ℕ} (hSS : S ⊆ S') {x : ℕ} (hx : x < K.dim) {d d' : ℕ → ℝ} (hd : StaticSol K S (fun i => if i = x then 1 else 0) d)
    (hd' : StaticSol K S' (fun i => if i = x then 1 else 0) d') : 0 ≤ d' x ∧ d' x ≤ d x := by
  have h := C96_deflection hr hg ha hK hSS hd hd'
  have h0 := (modes_total hr hg ha hK (d := d')).1
  rw [form_work hd'.1 hd'.2] at h0
  constructor
  · simpa [Finset.sum_ite_eq', hx] using h0
  · simpa [Finset.sum_ite_eq', hx] using h

/-- C96: for a given pre-stress, supporting more degrees of freedom does not lower the first buckling factor: below every positive factor with more supports
there is one with fewer -/
theorem C96_buckling {m : Mesh} (hr : Reachable m) {pn : Bool} (hg : GoodPlate m pn) {method : String} {al : ℝ} {fa : Bool} {K G : Mat}
    (hK : Stiffness m pn method al fa K) {S S' : Set ℕ} (hSS : S ⊆ S') (hS : Stable K S) {d : List ℝ} (hG : calcKG (calcK0 m pn).1 d pn = .ok G) {c' : ℝ} (hc' : 0 < c')
    {x' : ℕ → ℝ} (hx' : BucklingMode K G S' c' x') : ∃ c, 0 < c ∧ c ≤ c' ∧ ∃ x, BucklingMode K G S c x := by
  have hsup : Supported K.dim S x' := fun i hi hiS => hx'.2.1 i hi (hSS hiS)
  have h1 := mode_form hx' hx'.2.1
  have h2 := hS x' hsup hx'.1
  have hneg : form K.dim G.get x' x' < 0 := by
    by_contra h
    push Not at h
    nlinarith
  obtain ⟨c, hc, hex, _, hle⟩ := C86_first hr hg hK hS hG hsup hneg
  refine ⟨c, hc, ?_, hex⟩
  rwa [show form K.dim K.get x' x' / -form K.dim G.get x' x' = c' by rw [div_eq_iff (by linarith)]; linarith] at hle

/-! ### C97 -/

/-- C97: stiffer laminates never make the plate softer: for the same displacement the energy does not fall -/
theorem C97_energy {m m' : Mesh} (hr : Reachable m) (hr' : Reachable m') {pn : Bool} (hg : GoodPlate m pn) (hg' : GoodPlate m' pn) (h : Stiffened m m') {method : String}
    {al : ℝ} (ha : 0 ≤ al) {fa : Bool} {K K' : Mat} (hK : Stiffness m pn method al fa K) (hK' : Stiffness m' pn method al fa K') :
    K'.dim = K.dim ∧ ∀ d, form K.dim K.get d d ≤ form K'.dim K'.get d d := by
  obtain ⟨hdim, K0, hK0, hd0, hform⟩ := stiffness_energy hr hg hK
  obtain ⟨hdim', K0', hK0', hd0', hform'⟩ := stiffness_energy hr' hg' hK'
  obtain ⟨hs, _, hh, _⟩ := calcK0_ok hr.wf hK0
  obtain ⟨hs', _, hh', _⟩ := calcK0_ok hr'.wf hK0'
  have hst : Stiffened (calcK0 m pn).1 (calcK0 m' pn).1 :=
    { nids := by rw [hs.nids, hs'.nids, h.nids], eids := by rw [hs.eids, hs'.eids, h.eids], ekeys := by rw [hs.ekeys, hs'.ekeys, h.ekeys]
      corner := fun e => by rw [hs.tria, hs'.tria]; exact h.corner e
      xyz := fun i => by rw [hs.xyz, hs'.xyz, h.xyz]
      etrias := fun k => by rw [hs.trias, hs'.trias, h.etrias]
      tprop := fun e he => by rw [hs.tria, hs'.tria]; exact h.tprop e (hs.eids ▸ he)
      nprop := fun i hi => by rw [hs.prop, hs'.prop]; exact h.nprop i (hs.nids ▸ hi) }
  refine ⟨by rw [hdim, hdim', h.nids], fun d => ?_⟩
  rw [hform, hform', C18_energy hr hg.proper hg.planar hK0, C18_energy hr' hg'.proper hg'.planar hK0']
  refine add_le_add (h.energy_le hr.wf hg.proper pn d) ?_
  unfold shearEnergy
  rw [hst.eids, hst.striArea, hst.scellStrain, hst.swholeGamma]
  refine List.sum_le_sum fun e he => mul_le_mul_of_nonneg_left ?_ (abs_nonneg _)
  have hl2 : ∀ l, InUse (calcK0 m pn).1 pn l → StiffShear l := fun l h => hg.shear l (hs.inUse.1 h)
  have m0 := hst.shearMod_le (hs.wf hr.wf) (hs.hasProps hh) hl2 ha fa he 0
  have m1 := hst.shearMod_le (hs.wf hr.wf) (hs.hasProps hh) hl2 ha fa he 1
  have e0 := mul_le_mul_of_nonneg_left m0 (mul_self_nonneg ((if method = "cell-based" then cellStrain (calcK0 m pn).1 else wholeGamma (calcK0 m pn).1) e d 0))
  have e1 := mul_le_mul_of_nonneg_left m1 (mul_self_nonneg ((if method = "cell-based" then cellStrain (calcK0 m pn).1 else wholeGamma (calcK0 m pn).1) e d 1))
  linarith

/-- C97: for the same supports and loads, stiffer laminates never increase the work of the loads -/
theorem C97_deflection {m m' : Mesh} (hr : Reachable m) (hr' : Reachable m') {pn : Bool} (hg : GoodPlate m pn) (hg' : GoodPlate m' pn) (h : Stiffened m m')
    {method : String} {al : ℝ} (ha : 0 ≤ al) {fa : Bool} {K K' : Mat} (hK : Stiffness m pn method al fa K) (hK' : Stiffness m' pn method al fa K') {S : Set ℕ}
    {f d d' : ℕ → ℝ} (hd : StaticSol K S f d) (hd' : StaticSol K' S f d') : ∑ i ∈ range K.dim, d' i * f i ≤ ∑ i ∈ range K.dim, d i * f i := by
  obtain ⟨hdd, hle⟩ := C97_energy hr hr' hg hg' h ha hK hK'
  obtain ⟨h1, h2⟩ := hd'
  rw [hdd] at h1 h2
  simp only [hdd] at hle
  exact work_mono (C78_symmetric hr hg hK) (fun x => (modes_total hr hg ha hK (d := x)).1) hle hd.1 hd.2 h1 h2

/-- statements that assign laminates -/
def Op.isProp : Op → Bool
  | .setNodeProp _ _ => true
  | .setTriaProp _ _ => true
  | _ => false

/-- assigning laminates keeps the mesh -/
theorem laminates_only : ∀ (ops : List Op) (m : Mesh), (∀ op ∈ ops, op.isProp = true) → (run m ops).nids = m.nids ∧ (run m ops).eids = m.eids ∧
    (run m ops).ekeys = m.ekeys ∧ (∀ e, ((run m ops).tria e).n1 = (m.tria e).n1 ∧ ((run m ops).tria e).n2 = (m.tria e).n2 ∧ ((run m ops).tria e).n3 = (m.tria e).n3) ∧
    (∀ i, ((run m ops).node i).xyz = (m.node i).xyz) ∧ ∀ k, ((run m ops).edge k).trias = (m.edge k).trias := by
  intro ops
  induction ops with
  | nil => intro m _; exact ⟨rfl, rfl, rfl, fun _ => ⟨rfl, rfl, rfl⟩, fun _ => rfl, fun _ => rfl⟩
  | cons op ops ih =>
    intro m ho
    have hstep : (step m op).nids = m.nids ∧ (step m op).eids = m.eids ∧ (step m op).ekeys = m.ekeys ∧
        (∀ e, ((step m op).tria e).n1 = (m.tria e).n1 ∧ ((step m op).tria e).n2 = (m.tria e).n2 ∧ ((step m op).tria e).n3 = (m.tria e).n3) ∧
        (∀ i, ((step m op).node i).xyz = (m.node i).xyz) ∧ ∀ k, ((step m op).edge k).trias = (m.edge k).trias := by
      have h := ho op (by simp)
      cases op with
      | setNodeProp i p =>
        simp only [step]
        split
        · refine ⟨rfl, rfl, rfl, fun _ => ⟨rfl, rfl, rfl⟩, fun j => ?_, fun _ => rfl⟩
          by_cases hj : j = i <;> simp [Mesh.updNode, Function.update, hj]
        · exact ⟨rfl, rfl, rfl, fun _ => ⟨rfl, rfl, rfl⟩, fun _ => rfl, fun _ => rfl⟩
      | setTriaProp e p =>
        simp only [step]
        split
        · refine ⟨rfl, rfl, rfl, fun j => ?_, fun _ => rfl, fun _ => rfl⟩
          by_cases hj : j = e <;> simp [Mesh.updTria, Function.update, hj]
        · exact ⟨rfl, rfl, rfl, fun _ => ⟨rfl, rfl, rfl⟩, fun _ => rfl, fun _ => rfl⟩
      | _ => cases h
    obtain ⟨a1, a2, a3, a4, a5, a6⟩ := hstep
    obtain ⟨b1, b2, b3, b4, b5, b6⟩ := ih (step m op) fun o h => ho o (by simp [h])
    exact ⟨b1.trans a1, b2.trans a2, b3.trans a3, fun e => ⟨(b4 e).1.trans (a4 e).1, (b4 e).2.1.trans (a4 e).2.1, (b4 e).2.2.trans (a4 e).2.2⟩,
      fun i => (b5 i).trans (a5 i), fun k => (b6 k).trans (a6 k)⟩

/-- a stiffened good plate is a good plate -/
theorem Spec.Stiffened.good {m m' : Mesh} (h : Stiffened m m') {pn : Bool} (hg : GoodPlate m pn) (hb : ∀ i ∈ m'.nids, (m'.node i).cp (m'.node i).xyz = (m'.node i).xyz) :
    GoodPlate m' pn := by
  have hin : ∀ l', InUse m' pn l' → ∃ l, InUse m pn l ∧ LamLe l l' := by
    intro l' hl'
    unfold InUse at hl' ⊢
    have rel : ∀ {o o' : Option Lam}, Option.Rel LamLe o o' → o' = some l' → ∃ l, o = some l ∧ LamLe l l' := by
      intro o o' hr e
      subst e
      cases hr with
      | some hr => exact ⟨_, rfl, hr⟩
    cases pn with
    | true =>
      simp only [if_true] at hl' ⊢
      obtain ⟨i, hi, e⟩ := hl'
      obtain ⟨l, h1, h2⟩ := rel (h.nprop i (h.nids ▸ hi)) e
      exact ⟨l, ⟨i, h.nids ▸ hi, h1⟩, h2⟩
    | false =>
      simp only [Bool.false_eq_true, if_false] at hl' ⊢
      obtain ⟨e, he, ee⟩ := hl'
      obtain ⟨l, h1, h2⟩ := rel (h.tprop e (h.eids ▸ he)) ee
      exact ⟨l, ⟨e, h.eids ▸ he, h1⟩, h2⟩
  have hcor : ∀ e i, IsCorner m' e i ↔ IsCorner m e i := by
    intro e i; simp only [IsCorner, h.corner]
  have hadj : Adjacent m' = Adjacent m := by
    funext e e'; simp only [Adjacent, h.ekeys, h.etrias]
  refine ⟨⟨?_, ?_, ?_⟩, ⟨hb, ?_, ?_, ?_⟩, ⟨?_, ?_⟩, ?_, ?_⟩
  · intro e he; simp only [h.corner]; exact hg.proper.distinct e (h.eids ▸ he)
  · intro k hk; rw [h.etrias]; exact hg.proper.manifold k (h.ekeys ▸ hk)
  · intro e he e' he' H; exact hg.proper.simple e (h.eids ▸ he) e' (h.eids ▸ he') fun i => by rw [← hcor, ← hcor]; exact H i
  · intro i hi j hj; rw [h.xyz, h.xyz]; exact hg.planar.flat i (h.nids ▸ hi) j (h.nids ▸ hj)
  · intro e he; simp only [h.corner, h.ssarea]; exact hg.planar.nondeg e (h.eids ▸ he)
  · intro k hk t1 t2 ht; rw [h.ssarea, h.scorners]; exact hg.planar.opposite k (h.ekeys ▸ hk) t1 t2 (h.etrias k ▸ ht)
  · rw [h.eids, hadj]; exact hg.piece.walk
  · intro i hi
    obtain ⟨e, he, hc⟩ := hg.piece.used i (h.nids ▸ hi)
    exact ⟨e, h.eids.symm ▸ he, (hcor e i).2 hc⟩
  · intro l' hl' x hx
    obtain ⟨l, h1, h2⟩ := hin l' hl'
    exact (hg.abd l h1 x hx).trans_le (h2.abd x)
  · intro l' hl'
    obtain ⟨l, h1, h2⟩ := hin l' hl'
    obtain ⟨s1, s2, s3, s4, s5⟩ := hg.shear l h1
    exact ⟨s1.trans_le h2.h, s2.trans_le h2.k13, s3.trans_le h2.k23, s4.trans_le h2.e00, s5.trans_le h2.e11⟩

/-! ### C98 -/

/-- C98: load cases superpose. The static solution for the load `a f + b g` is `a` times that for `f` plus `b` times that for `g`, and the geometric stiffness
matrices combine in the same way. -/
theorem C98_superposition {m : Mesh} (hr : Reachable m) {pn : Bool} (hg : GoodPlate m pn) {method : String} {al : ℝ} {fa : Bool} {K : Mat}
    (hK : Stiffness m pn method al fa K) {S : Set ℕ} (hS : Stable K S) {f g : ℕ → ℝ} (a b : ℝ) {d1 d2 d3 : List ℝ} (hl1 : d1.length = 5 * m.nids.length)
    (hl2 : d2.length = 5 * m.nids.length) (hl3 : d3.length = 5 * m.nids.length) (h1 : StaticSol K S f (vec d1)) (h2 : StaticSol K S g (vec d2))
    (h3 : StaticSol K S (fun i => a * f i + b * g i) (vec d3)) :
    (∀ i < K.dim, vec d3 i = a * vec d1 i + b * vec d2 i) ∧
    ∀ G1 G2 G3, calcKG (calcK0 m pn).1 d1 pn = .ok G1 → calcKG (calcK0 m pn).1 d2 pn = .ok G2 → calcKG (calcK0 m pn).1 d3 pn = .ok G3 →
      ∀ i j, G3.get i j = a * G1.get i j + b * G2.get i j := by
  obtain ⟨hdim, _⟩ := stiffness_energy hr hg hK
  have hsol : StaticSol K S (fun i => a * f i + b * g i) fun i => a * vec d1 i + b * vec d2 i := by
    refine ⟨fun i hi hiS => by beta_reduce; rw [h1.1 i hi hiS, h2.1 i hi hiS, mul_zero, mul_zero, add_zero], fun i hi hiS => ?_⟩
    beta_reduce
    rw [← h1.2 i hi hiS, ← h2.2 i hi hiS, Finset.mul_sum, Finset.mul_sum, ← Finset.sum_add_distrib]
    exact Finset.sum_congr rfl fun j _ => by ring
  have hu := stable_unique hS h3 hsol
  refine ⟨hu, fun G1 G2 G3 hG1 hG2 hG3 => ?_⟩
  have hlist : d3 = List.zipWith (fun x y => a * x + b * y) d1 d2 := by
    refine List.ext_getElem (by simp [hl1, hl2, hl3]) fun i i1 i2 => ?_
    have := hu i (by omega)
    unfold vec at this
    rw [List.getD_eq_getElem _ _ i1, List.getD_eq_getElem _ _ (by omega), List.getD_eq_getElem _ _ (by omega)] at this
    simp [this]
  rcases C31_linear (calcK0 m pn).1 pn a b (d1 := d1) (d2 := d2) (by rw [hl1, hl2]) with ⟨e, e1, _⟩ | ⟨K1, K2, K', e1, e2, e3, _, _, e6⟩
  · rw [hG1] at e1; cases e1
  · rw [← hlist, hG3] at e3
    rw [hG1] at e1
    rw [hG2] at e2
    cases e1; cases e2; cases e3
    exact e6

/-! ### concrete cases -/

/-- the square clamped along its left side has two free deflections, so at most two buckling factors -/
example (pn : Bool) : ∃ K G, Stiffness exSq pn "cell-based" 0 true K ∧ calcKG (calcK0 exSq pn).1 exPress pn = .ok G ∧
    {c | ∃ x, BucklingMode K G {x | x < 5 ∨ 15 ≤ x} c x}.ncard ≤ 2 := by
  obtain ⟨K, hK⟩ := exSq_stiffness (Or.inl rfl) pn 0 true
  have hr := exMesh_reachable exIso exIso exIso exIso exIso exIso
  obtain ⟨K0, hK0, _⟩ := exMesh_k0 exIso exIso exIso exIso exIso exIso pn
  obtain ⟨hs, _, hh, _⟩ := calcK0_ok hr.wf hK0
  have haf : AfterK0 (calcK0 exSq pn).1 := .intro exSq hr pn K0 hK0 [] (by simp)
  obtain ⟨G, hG, _⟩ := C49_kG haf (hs.proper (exMesh_proper ..)) (hs.hasProps hh) (d := exPress) (by rw [hs.nids, exMesh_nids]; rfl)
  refine ⟨K, G, hK, hG, (C95_factors hr (exSq_good pn) hK (held_stable hr (exSq_good pn) le_rfl hK exSq_held) hG).2.trans ?_⟩
  have hd : K.dim = 20 := by rw [(stiffness_energy hr (exSq_good pn) hK).1, exMesh_nids]; rfl
  rw [hd]
  refine (Finset.card_le_card (t := {7, 12}) fun j hj => ?_).trans (by decide)
  simp only [Finset.mem_filter, Finset.mem_range, Set.mem_ofPred_eq, Finset.mem_insert, Finset.mem_singleton] at hj ⊢
  omega

/-- clamping a third node of the square does not increase the deflection under a unit load on the fourth -/
example : ∃ K, Stiffness exSq true "cell-based" (1 / 5) false K ∧ ∃ d d' : ℕ → ℝ, StaticSol K {x | x < 5 ∨ 15 ≤ x} (fun i => if i = 7 then 1 else 0) d ∧
    StaticSol K {x | x < 5 ∨ 10 ≤ x} (fun i => if i = 7 then 1 else 0) d' ∧ 0 ≤ d' 7 ∧ d' 7 ≤ d 7 := by
  obtain ⟨K, hK⟩ := exSq_stiffness (Or.inl rfl) true (1 / 5) false
  have hr := exMesh_reachable exIso exIso exIso exIso exIso exIso
  have hh : Held exSq {x | x < 5 ∨ 10 ≤ x} := by
    obtain ⟨i, hi, j, hj, h⟩ := exSq_held
    have sub : {x : ℕ | x < 5 ∨ 15 ≤ x} ⊆ {x | x < 5 ∨ 10 ≤ x} := fun x hx => by simp only [Set.mem_ofPred_eq] at hx ⊢; omega
    exact ⟨i, hi, j, hj, h.imp (fun h => ⟨h.1, fun r hr => ⟨sub (h.2 r hr).1, sub (h.2 r hr).2⟩⟩) fun h => ⟨h.1, fun r hr => ⟨sub (h.2 r hr).1, sub (h.2 r hr).2⟩⟩⟩
  obtain ⟨d, hd, _⟩ := C76_static hr (exSq_good true) (by norm_num) hK exSq_held fun i => if i = 7 then 1 else 0
  obtain ⟨d', hd', _⟩ := C76_static hr (exSq_good true) (by norm_num) hK hh fun i => if i = 7 then 1 else 0
  have hdim : K.dim = 20 := by rw [(stiffness_energy hr (exSq_good true) hK).1, exMesh_nids]; rfl
  exact ⟨K, hK, d, d', hd, hd', C96_point hr (exSq_good true) (by norm_num) hK (fun x hx => by simp only [Set.mem_ofPred_eq] at hx ⊢; omega) (by omega) hd hd'⟩

/-- a laminate twice as stiff -/
noncomputable def exIso2 : Lam := exLam 2 2 2 1

theorem exIso2_le : LamLe exIso exIso2 := by
  refine ⟨fun e => ?_, ?_, ?_, ?_, ?_, ?_⟩
  · have h : ∀ p q, abd exIso2 p q = 2 * abd exIso p q := by
      intro p q
      fin_cases p <;> fin_cases q <;> simp [abd, exIso, exIso2, exLam, sym3]
    have h0 : 0 ≤ lamProd exIso e e := by
      unfold lamProd
      simp only [exIso_abd]
      refine Finset.sum_nonneg fun i _ => ?_
      rw [Finset.sum_eq_single i (fun j _ hj => by rw [if_neg (Ne.symm hj)]; ring) (by simp)]
      simpa using mul_self_nonneg (e i)
    have : lamProd exIso2 e e = 2 * lamProd exIso e e := by
      unfold lamProd
      simp only [h, Finset.mul_sum]
      exact Finset.sum_congr rfl fun i _ => Finset.sum_congr rfl fun j _ => by ring
    linarith
  all_goals simp [exIso, exIso2, exLam]

/-- the square with the stiffer laminate at one corner and on one triangle: a unit load deflects it no more -/
example (pn : Bool) : ∃ K K', Stiffness exSq pn "cell-based" (1 / 5) false K ∧ Stiffness (exMesh exIso2 exIso exIso exIso exIso exIso2) pn "cell-based" (1 / 5) false K' ∧
    (∀ d, form K.dim K.get d d ≤ form K'.dim K'.get d d) ∧
    ∃ d d' : ℕ → ℝ, StaticSol K {x | x < 5 ∨ 15 ≤ x} (fun i => if i = 7 then 1 else 0) d ∧ StaticSol K' {x | x < 5 ∨ 15 ≤ x} (fun i => if i = 7 then 1 else 0) d' ∧
      d' 7 ≤ d 7 := by
  have hr := exMesh_reachable exIso exIso exIso exIso exIso exIso
  have hr' := exMesh_reachable exIso2 exIso exIso exIso exIso exIso2
  have hrefl : LamLe exIso exIso := ⟨fun _ => le_rfl, le_rfl, le_rfl, le_rfl, le_rfl, le_rfl⟩
  obtain ⟨a1, a2, a3, a4, a5, a6⟩ := laminates_only (exOps exIso exIso exIso exIso exIso exIso) exRead (by simp [exOps, Op.isProp])
  obtain ⟨b1, b2, b3, b4, b5, b6⟩ := laminates_only (exOps exIso2 exIso exIso exIso exIso exIso2) exRead (by simp [exOps, Op.isProp])
  have hst : Stiffened exSq (exMesh exIso2 exIso exIso exIso exIso exIso2) :=
    { nids := b1.trans a1.symm, eids := b2.trans a2.symm, ekeys := b3.trans a3.symm
      corner := fun e => ⟨(b4 e).1.trans (a4 e).1.symm, (b4 e).2.1.trans (a4 e).2.1.symm, (b4 e).2.2.trans (a4 e).2.2.symm⟩
      xyz := fun i => (b5 i).trans (a5 i).symm
      etrias := fun k => (b6 k).trans (a6 k).symm
      tprop := fun e he => by
        rw [exMesh_eids] at he
        simp only [List.mem_cons, List.not_mem_nil, or_false] at he
        rcases he with rfl | rfl
        · simp only [id]; rw [exMesh_tria1, exMesh_tria1]; exact .some hrefl
        · simp only [id]; rw [exMesh_tria2, exMesh_tria2]; exact .some exIso2_le
      nprop := fun i hi => by
        rw [exMesh_nids] at hi
        simp only [List.mem_cons, List.not_mem_nil, or_false] at hi
        obtain ⟨e1, e2, e3, e4⟩ := exMesh_nprop exIso exIso exIso exIso exIso exIso
        obtain ⟨f1, f2, f3, f4⟩ := exMesh_nprop exIso2 exIso exIso exIso exIso exIso2
        rcases hi with rfl | rfl | rfl | rfl
        · simp only [id]; rw [e1, f1]; exact .some exIso2_le
        · simp only [id]; rw [e2, f2]; exact .some hrefl
        · simp only [id]; rw [e3, f3]; exact .some hrefl
        · simp only [id]; rw [e4, f4]; exact .some hrefl }
  have hg' := hst.good (exSq_good pn) (fun i hi => by rw [exMesh_cp _ _ _ _ _ _ i hi]; rfl)
  obtain ⟨K, hK⟩ := exSq_stiffness (Or.inl rfl) pn (1 / 5) false
  obtain ⟨K', hK'⟩ := stiffness_exists hr' hg' (exMesh_props _ _ _ _ _ _ pn) (by rw [exMesh_nids]; simp) (method := "cell-based") (Or.inl rfl) (1 / 5) false
  have hh' : Held (exMesh exIso2 exIso exIso exIso exIso exIso2) {x | x < 5 ∨ 15 ≤ x} := by
    obtain ⟨i, hi, j, hj, h⟩ := exSq_held
    refine ⟨i, by rw [hst.nids]; exact hi, j, by rw [hst.nids]; exact hj, ?_⟩
    simp only [hst.snx, hst.sny, dofNo, hst.nids]
    exact h
  obtain ⟨d, hd, _⟩ := C76_static hr (exSq_good pn) (by norm_num) hK exSq_held fun i => if i = 7 then 1 else 0
  obtain ⟨d', hd', _⟩ := C76_static hr' hg' (by norm_num) hK' hh' fun i => if i = 7 then 1 else 0
  have hdim : K.dim = 20 := by rw [(stiffness_energy hr (exSq_good pn) hK).1, exMesh_nids]; rfl
  have := C97_deflection hr hr' (exSq_good pn) hg' hst (by norm_num) hK hK' hd hd'
  rw [hdim] at this
  exact ⟨K, K', hK, hK', (C97_energy hr hr' (exSq_good pn) hg' hst (by norm_num) hK hK').2, d, d', hd, hd', by simpa using this⟩

/-- on the clamped square the solutions for two unit loads superpose -/
example (pn : Bool) (a b : ℝ) : ∃ K, Stiffness exSq pn "cell-based" (1 / 5) false K ∧ ∃ d1 d2 d3 : List ℝ, d1 ≠ d2 ∧
    StaticSol K {x | x < 5 ∨ 15 ≤ x} (fun i => if i = 7 then 1 else 0) (vec d1) ∧ StaticSol K {x | x < 5 ∨ 15 ≤ x} (fun i => if i = 12 then 1 else 0) (vec d2) ∧
    StaticSol K {x | x < 5 ∨ 15 ≤ x} (fun i => a * (if i = 7 then 1 else 0) + b * if i = 12 then 1 else 0) (vec d3) ∧
    ∀ i < 20, vec d3 i = a * vec d1 i + b * vec d2 i := by
  obtain ⟨K, hK⟩ := exSq_stiffness (Or.inl rfl) pn (1 / 5) false
  have hr := exMesh_reachable exIso exIso exIso exIso exIso exIso
  have hdim : K.dim = 20 := by rw [(stiffness_energy hr (exSq_good pn) hK).1, exMesh_nids]; rfl
  have hs := held_stable hr (exSq_good pn) (by norm_num) hK exSq_held
  have sol : ∀ f : ℕ → ℝ, ∃ d : List ℝ, d.length = 5 * exSq.nids.length ∧ StaticSol K {x | x < 5 ∨ 15 ≤ x} f (vec d) := by
    intro f
    obtain ⟨d, ⟨h1, h2⟩, _⟩ := C76_static hr (exSq_good pn) (by norm_num) hK exSq_held f
    have hv : ∀ i < K.dim, vec ((List.range 20).map d) i = d i := by
      intro i hi
      unfold vec
      rw [List.getD_eq_getElem _ _ (by simp; omega)]
      simp
    refine ⟨(List.range 20).map d, by rw [exMesh_nids]; simp, fun i hi hiS => by rw [hv i hi]; exact h1 i hi hiS, fun i hi hiS => ?_⟩
    rw [← h2 i hi hiS]
    exact Finset.sum_congr rfl fun j hj => by rw [hv j (Finset.mem_range.1 hj)]
  obtain ⟨d1, l1, h1⟩ := sol fun i => if i = 7 then 1 else 0
  obtain ⟨d2, l2, h2⟩ := sol fun i => if i = 12 then 1 else 0
  obtain ⟨d3, l3, h3⟩ := sol fun i => a * (if i = 7 then 1 else 0) + b * if i = 12 then 1 else 0
  refine ⟨K, hK, d1, d2, d3, ?_, h1, h2, h3, fun i hi => (C98_superposition hr (exSq_good pn) hK hs a b l1 l2 l3 h1 h2 h3).1 i (by omega)⟩
  rintro rfl
  have e1 := h1.2 7 (by omega) (by simp)
  have e2 := h2.2 7 (by omega) (by simp)
  rw [e1] at e2
  norm_num at e2

end Meshless
