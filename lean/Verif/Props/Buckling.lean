import Verif.Lemmas.Pencil
import Verif.Props.KG
import Mathlib.Data.Complex.BigOperators

/-! Linear buckling of the supported plate: `calc_k0`, `add_k0s` with a cell method, a static solution, `calc_kG` of its displacements. -/

set_option autoImplicit false

namespace Meshless
open Spec Finset

theorem SameStatic.smembrane {m m' : Mesh} (h : SameStatic m m') : membrane m' = membrane m := by
  funext pn k d i
  simp only [membrane, h.savg, h.seps]

/-- supports that hold the plate make it stable -/
theorem held_stable {m : Mesh} (hr : Reachable m) {pn : Bool} (hg : GoodPlate m pn) {method : String} {al : ℝ} (ha : 0 ≤ al) {fa : Bool} {K : Mat}
    (hK : Stiffness m pn method al fa K) {S : Set ℕ} (hS : Held m S) : Stable K S := fun _ hd hne => C75_positive hr hg ha hK hS hd hne

/-- so do, for the smoothed method and two triangles, supports that exclude the rigid motions -/
theorem fixed_stable {m : Mesh} (hr : Reachable m) {pn : Bool} (hg : GoodPlate m pn) (h2 : 2 ≤ m.eids.length) {al : ℝ} (ha : 0 ≤ al) {fa : Bool} {K : Mat}
    (hK : Stiffness m pn "cell-based" al fa K) (S : Set ℕ) : Stable K S ↔ Fixed m S := C75_iff hr hg h2 ha hK S

theorem form_one_add (n : ℕ) (K G : ℕ → ℕ → ℝ) (c : ℝ) (v u : ℕ → ℝ) : form n (fun i j => K i j + c * G i j) v u = form n K v u + c * form n G v u := by
  have := form_add_mat n K G 1 c v u
  simpa using this

/-- a mode tested with a supported displacement -/
theorem mode_form {K G : Mat} {S : Set ℕ} {c : ℝ} {x v : ℕ → ℝ} (hx : BucklingMode K G S c x) (hv : Supported K.dim S v) :
    form K.dim K.get v x + c * form K.dim G.get v x = 0 := by
  rw [← form_one_add, form_work (f := fun _ => 0) hv hx.2.2]; simp

section
variable {m : Mesh} (hr : Reachable m) {pn : Bool} (hg : GoodPlate m pn) {method : String} {al : ℝ} {fa : Bool} {K G : Mat} (hK : Stiffness m pn method al fa K)
  {S : Set ℕ} (hS : Stable K S) {d : List ℝ} (hG : calcKG (calcK0 m pn).1 d pn = .ok G)
include hr hg hK hS hG

/-- C83: buckling factors are real. No supported complex displacement is a mode for a factor that is not real. -/
theorem C83_real {c : ℂ} {x : ℕ → ℂ} (hx : ComplexMode K G S c x) : c.im = 0 := by
  obtain ⟨⟨i0, hi0, hne⟩, hsup, heq⟩ := hx
  have hsK := C78_symmetric hr hg hK
  have hsG : ∀ i < K.dim, ∀ j < K.dim, G.get i j = G.get j i := fun i _ j _ => (C30_symmetric hG).1 i j
  let a : ℕ → ℝ := fun i => (x i).re
  let b : ℕ → ℝ := fun i => (x i).im
  have ha : Supported K.dim S a := fun i hi hiS => by change (x i).re = 0; rw [hsup i hi hiS]; rfl
  have hb : Supported K.dim S b := fun i hi hiS => by change (x i).im = 0; rw [hsup i hi hiS]; rfl
  have hre : ∀ i < K.dim, i ∉ S → ∑ j ∈ range K.dim, (K.get i j + c.re * G.get i j) * a j = ∑ j ∈ range K.dim, c.im * G.get i j * b j := by
    intro i hi hiS
    have h := congrArg Complex.re (heq i hi hiS)
    rw [Complex.re_sum, Complex.zero_re] at h
    rw [← sub_eq_zero, ← Finset.sum_sub_distrib, ← h]
    refine Finset.sum_congr rfl fun j _ => ?_
    simp [a, b]
  have him : ∀ i < K.dim, i ∉ S → ∑ j ∈ range K.dim, (K.get i j + c.re * G.get i j) * b j = -∑ j ∈ range K.dim, c.im * G.get i j * a j := by
    intro i hi hiS
    have h := congrArg Complex.im (heq i hi hiS)
    rw [Complex.im_sum, Complex.zero_im] at h
    rw [← sub_eq_zero, sub_neg_eq_add, ← Finset.sum_add_distrib, ← h]
    refine Finset.sum_congr rfl fun j _ => ?_
    simp [a, b]
  have e1 : ∀ v, Supported K.dim S v → form K.dim K.get v a + c.re * form K.dim G.get v a = c.im * form K.dim G.get v b := by
    intro v hv
    rw [← form_one_add, form_work (f := fun i => ∑ j ∈ range K.dim, c.im * G.get i j * b j) hv hre, form_eq_sum, Finset.mul_sum]
    refine Finset.sum_congr rfl fun i _ => ?_
    rw [Finset.mul_sum, Finset.mul_sum, Finset.mul_sum]
    exact Finset.sum_congr rfl fun j _ => by ring
  have e2 : ∀ v, Supported K.dim S v → form K.dim K.get v b + c.re * form K.dim G.get v b = -(c.im * form K.dim G.get v a) := by
    intro v hv
    rw [← form_one_add, form_work (f := fun i => -∑ j ∈ range K.dim, c.im * G.get i j * a j) hv him, form_eq_sum, Finset.mul_sum, ← Finset.sum_neg_distrib]
    refine Finset.sum_congr rfl fun i _ => ?_
    rw [Finset.mul_sum, mul_neg, Finset.mul_sum, Finset.mul_sum]
    congr 1
    exact Finset.sum_congr rfl fun j _ => by ring
  by_contra hc
  have f1 := e1 b hb
  have f2 := e2 a ha
  rw [form_symm hsK b a, form_symm hsG b a] at f1
  have g1 := e1 a ha
  have g2 := e2 b hb
  rw [form_symm hsG b a] at g2
  have hz : form K.dim G.get a a + form K.dim G.get b b = 0 := by
    have : c.im * (form K.dim G.get a a + form K.dim G.get b b) = 0 := by linarith
    exact (mul_eq_zero.1 this).resolve_left hc
  have hk : form K.dim K.get a a + form K.dim K.get b b = 0 := by
    have : form K.dim G.get b b = -form K.dim G.get a a := by linarith
    rw [this] at g2
    linarith
  have nonneg : ∀ v, Supported K.dim S v → 0 ≤ form K.dim K.get v v := by
    intro v hv
    by_cases hv0 : ∃ i < K.dim, v i ≠ 0
    · exact (hS v hv hv0).le
    · push Not at hv0
      rw [form_congr (v' := fun _ => 0) (u' := fun _ => 0) hv0 hv0]; simp [form]
  have hna := nonneg a ha
  have hnb := nonneg b hb
  by_cases h0 : a i0 = 0
  · have := hS b hb ⟨i0, hi0, fun h => hne (Complex.ext h0 h)⟩
    linarith
  · have := hS a ha ⟨i0, hi0, h0⟩
    linarith

omit hS in
/-- C83: modes of different factors are orthogonal, both in the energy of the plate and in the work of the pre-stress -/
theorem C83_orthogonal {c c' : ℝ} {x x' : ℕ → ℝ} (hx : BucklingMode K G S c x) (hx' : BucklingMode K G S c' x') (hc : c ≠ c') :
    form K.dim K.get x x' = 0 ∧ form K.dim G.get x x' = 0 := by
  have h1 := mode_form hx hx'.2.1
  have h2 := mode_form hx' hx.2.1
  rw [form_symm (C78_symmetric hr hg hK) x' x, form_symm (fun i _ j _ => (C30_symmetric hG).1 i j) x' x] at h1
  have h3 : form K.dim G.get x x' = 0 := by
    have : (c - c') * form K.dim G.get x x' = 0 := by linarith
    exact (mul_eq_zero.1 this).resolve_left (sub_ne_zero.2 hc)
  rw [h3, mul_zero, add_zero] at h2
  exact ⟨h2, h3⟩

omit hr hg hK in
/-- C83: the plate leaves its plane in every mode -/
theorem C83_transverse {c : ℝ} {x : ℕ → ℝ} (hx : BucklingMode K G S c x) : ∃ i < K.dim, i % 5 = 2 ∧ x i ≠ 0 := by
  by_contra hcon
  push Not at hcon
  have h0 : form K.dim G.get x x = 0 := by
    unfold form
    refine Finset.sum_eq_zero fun i hi => Finset.sum_eq_zero fun j _ => ?_
    by_cases h : i % 5 = 2
    · rw [hcon i (Finset.mem_range.1 hi) h]; ring
    · rw [(C30_symmetric hG).2 i j (Or.inl h)]; ring
  have h1 := mode_form hx hx.2.1
  rw [h0, mul_zero, add_zero] at h1
  exact absurd h1 (hS x hx.2.1 hx.1).ne'

/-- C85: no buckling under tension. If the membrane forces of the pre-buckling state are nowhere compressive, there is no buckling factor `c ≥ 0`. -/
theorem C85_tension (hd : d.length = 5 * m.nids.length) (ht : Tension m pn (vec d)) {c : ℝ} {x : ℕ → ℝ} (hx : BucklingMode K G S c x) : c < 0 := by
  obtain ⟨hdim, K0, hK0, _, _⟩ := stiffness_energy hr hg hK
  obtain ⟨hs, _, hh, _⟩ := calcK0_ok hr.wf hK0
  have haf : AfterK0 (calcK0 m pn).1 := .intro m hr pn K0 hK0 [] (by simp)
  have hlen : d.length = 5 * (calcK0 m pn).1.nids.length := by rw [hs.nids]; exact hd
  have hform := C29_energy haf (hs.proper hg.proper) (hs.planar hg.planar) (hs.hasProps hh) hlen hG x x
  have hGd : G.dim = K.dim := by rw [(calcKG_sum hG).1, hdim]; omega
  rw [hGd] at hform
  have hnn : 0 ≤ form K.dim G.get x x := by
    rw [hform]
    unfold geometric
    refine List.sum_nonneg ?_
    intro y hy
    obtain ⟨k, hk, rfl⟩ := List.mem_map.1 hy
    dsimp only
    rw [hs.smembrane]
    refine mul_nonneg (abs_nonneg _) ?_
    have := ht k (hs.ekeys ▸ hk) (gradX (calcK0 m pn).1 (dom (calcK0 m pn).1 k) (disp (calcK0 m pn).1 x 2)) (gradY (calcK0 m pn).1 (dom (calcK0 m pn).1 k) (disp (calcK0 m pn).1 x 2))
    linarith
  have h1 := mode_form hx hx.2.1
  have h2 := hS x hx.2.1 hx.1
  by_contra hcon
  push Not at hcon
  nlinarith

/-- C86: the first buckling factor is the limit of stability. For a load factor `t ≥ 0` the loaded plate `K + t G` is positive definite on the supported
displacements exactly when `t` is below every positive buckling factor. -/
theorem C86_stability {t : ℝ} (ht : 0 ≤ t) :
    (∀ v, Supported K.dim S v → (∃ i < K.dim, v i ≠ 0) → 0 < form K.dim (fun i j => K.get i j + t * G.get i j) v v) ↔
    ∀ c x, 0 < c → BucklingMode K G S c x → t < c := by
  have hsK := C78_symmetric hr hg hK
  have hsG : ∀ i < K.dim, ∀ j < K.dim, G.get i j = G.get j i := fun i _ j _ => (C30_symmetric hG).1 i j
  constructor
  · intro h c x hc hx
    have h1 := mode_form hx hx.2.1
    have h2 := hS x hx.2.1 hx.1
    have h3 := h x hx.2.1 hx.1
    rw [form_one_add] at h3
    by_contra hcon
    push Not at hcon
    have h4 : form K.dim G.get x x < 0 := by
      by_contra h'
      push Not at h'
      nlinarith
    nlinarith
  · intro h v hv hne
    rw [form_one_add]
    by_contra hcon
    push Not at hcon
    have h2 := hS v hv hne
    have h4 : form K.dim G.get v v < 0 := by
      by_contra h'
      push Not at h'
      nlinarith [mul_nonneg ht h']
    obtain ⟨c, hc, hle, _, y, hy1, hy2, hy3⟩ := first_factor hsK hsG hS hv h4
    have := h c y hc ⟨hy2, hy1, hy3⟩
    nlinarith

/-- C86: the first buckling factor exists as soon as the pre-stress does negative work on some supported displacement -/
theorem C86_first {z : ℕ → ℝ} (hz : Supported K.dim S z) (hneg : form K.dim G.get z z < 0) : ∃ c, 0 < c ∧ (∃ x, BucklingMode K G S c x) ∧
    (∀ c' x, 0 < c' → BucklingMode K G S c' x → c ≤ c') ∧ c ≤ form K.dim K.get z z / -form K.dim G.get z z := by
  have hsK := C78_symmetric hr hg hK
  have hsG : ∀ i < K.dim, ∀ j < K.dim, G.get i j = G.get j i := fun i _ j _ => (C30_symmetric hG).1 i j
  obtain ⟨c, hc, hle, hpsd, y, hy1, hy2, hy3⟩ := first_factor hsK hsG hS hz hneg
  refine ⟨c, hc, ⟨y, hy2, hy1, hy3⟩, ?_, ?_⟩
  · intro c' x hc' hx
    have h1 := mode_form hx hx.2.1
    have h2 := hS x hx.2.1 hx.1
    have h3 := hpsd x hx.2.1
    by_contra hcon
    push Not at hcon
    have h4 : form K.dim G.get x x < 0 := by
      by_contra h'
      push Not at h'
      nlinarith
    nlinarith
  · rw [le_div_iff₀ (by linarith)]; exact hle

end

theorem stable_unique {K : Mat} {S : Set ℕ} (hS : Stable K S) {f d d' : ℕ → ℝ} (h : StaticSol K S f d) (h' : StaticSol K S f d') : ∀ i < K.dim, d i = d' i := by
  by_contra hcon
  push Not at hcon
  obtain ⟨i, hi, hne⟩ := hcon
  have hsup : Supported K.dim S fun i => 1 * d i + -1 * d' i := fun i hi hiS => by beta_reduce; rw [h.1 i hi hiS, h'.1 i hi hiS]; ring
  have h1 := hS _ hsup ⟨i, hi, fun h => hne (by linarith)⟩
  rw [form_comb, form_work hsup h.2, form_work hsup h'.2] at h1
  linarith

/-- C84: the buckling load does not depend on the size of the reference load. If `d` and `d'` are the static solutions for the loads `f` and `s f` (`s ≠ 0`), the
factor `c` of a mode for the first becomes `c / s` for the second: the critical load `c f = (c / s) (s f)` is the same. -/
theorem C84_reference {m : Mesh} (hr : Reachable m) {pn : Bool} (hg : GoodPlate m pn) {method : String} {al : ℝ} {fa : Bool} {K G G' : Mat}
    (hK : Stiffness m pn method al fa K) {S : Set ℕ} (hS : Stable K S) {f : ℕ → ℝ} {s : ℝ} (hs0 : s ≠ 0) {d d' : List ℝ} (hl : d.length = 5 * m.nids.length)
    (hl' : d'.length = 5 * m.nids.length) (hd : StaticSol K S f (vec d)) (hd' : StaticSol K S (fun i => s * f i) (vec d'))
    (hG : calcKG (calcK0 m pn).1 d pn = .ok G) (hG' : calcKG (calcK0 m pn).1 d' pn = .ok G') (c : ℝ) (x : ℕ → ℝ) :
    BucklingMode K G S c x ↔ BucklingMode K G' S (c / s) x := by
  obtain ⟨hdim, _⟩ := stiffness_energy hr hg hK
  have hsol : StaticSol K S (fun i => s * f i) fun i => s * vec d i := by
    refine ⟨fun i hi hiS => by beta_reduce; rw [hd.1 i hi hiS, mul_zero], fun i hi hiS => ?_⟩
    beta_reduce
    rw [← hd.2 i hi hiS, Finset.mul_sum]
    exact Finset.sum_congr rfl fun j _ => by ring
  have hu := stable_unique hS hd' hsol
  have hlist : d' = List.zipWith (fun x y => s * x + 0 * y) d d := by
    refine List.ext_getElem (by simp [hl, hl']) fun i h1 h2 => ?_
    have := hu i (by omega)
    unfold vec at this
    rw [List.getD_eq_getElem _ _ h1, List.getD_eq_getElem _ _ (by omega)] at this
    simp [this]
  have hGG : ∀ i j, G'.get i j = s * G.get i j := by
    rcases C31_linear (calcK0 m pn).1 pn s 0 (d1 := d) (d2 := d) rfl with ⟨e, e1, _⟩ | ⟨K1, K2, K', e1, e2, e3, _, _, e6⟩
    · rw [hG] at e1; cases e1
    · rw [← hlist, hG'] at e3
      rw [hG] at e1
      cases e1; cases e3
      intro i j; rw [e6]; ring
  unfold BucklingMode
  have : ∀ i j, c / s * G'.get i j = c * G.get i j := by intro i j; rw [hGG]; field_simp
  simp only [this]

/-! ### concrete case: the clamped square under compression -/

/-- shortening in `x`: `u = -x` -/
noncomputable def exPress : List ℝ := [0, 0, 0, 0, 0, -1, 0, 0, 0, 0, -1, 0, 0, 0, 0, 0, 0, 0, 0, 0]

/-- the deflection `w = x` of the square -/
noncomputable def exSlope : ℕ → ℝ := fun j => if j = 7 ∨ j = 12 then 1 else 0

theorem exSq_work (pn : Bool) (a : ℝ) : ∃ G, calcKG (calcK0 exSq pn).1 [0, 0, 0, 0, 0, a, 0, 0, 0, 0, a, 0, 0, 0, 0, 0, 0, 0, 0, 0] pn = .ok G ∧ form 20 G.get exSlope exSlope = a := by
  obtain ⟨K, hK, _⟩ := C11_success (exMesh_reachable exIso exIso exIso exIso exIso exIso) (exMesh_proper ..) (by rw [exMesh_nids]; simp) (exMesh_props _ _ _ _ _ _ pn)
  obtain ⟨hs, _, hh, _⟩ := calcK0_ok (exMesh_reachable exIso exIso exIso exIso exIso exIso).wf hK
  have hin : (calcK0 exSq pn).1.nids = [1, 2, 3, 4] := by rw [hs.nids, exMesh_nids]
  have haf : AfterK0 (calcK0 exSq pn).1 := .intro exSq (exMesh_reachable ..) pn K hK [] (by simp)
  have hl : ([0, 0, 0, 0, 0, a, 0, 0, 0, 0, a, 0, 0, 0, 0, 0, 0, 0, 0, 0] : List ℝ).length = 5 * (calcK0 exSq pn).1.nids.length := by
    rw [hin]; rfl
  obtain ⟨G, hG, hdim⟩ := C49_kG haf (hs.proper (exMesh_proper ..)) (hs.hasProps hh) hl
  rw [hin] at hdim
  refine ⟨G, hG, ?_⟩
  have hH : Homog (calcK0 exSq pn).1 pn exIso := by
    have := exMesh_Homog exIso pn
    unfold Homog at this ⊢
    simpa only [hs.nids, hs.eids, hs.prop, hs.tria] using this
  have h := C68_patch haf (hs.proper (exMesh_proper ..)) (hs.planar (exMesh_planar ..)) (hs.hasProps hh) hH hl hG
    (c := fun _ => 0) (p := fun r => if r = 0 then a else 0) (q := fun _ => 0) (by
      intro r hr i hi
      rw [hin] at hi
      simp only [List.mem_cons, List.not_mem_nil, or_false] at hr hi
      rcases hr with rfl | rfl | rfl | rfl <;> rcases hi with rfl | rfl | rfl | rfl <;>
        simp only [disp, vec, hin, nx, ny, hs.xyz, exMesh_node1, exMesh_node2, exMesh_node3, exMesh_node4] <;>
        norm_num [List.idxOf_cons])
    (z := exSlope) (cz := 0) (px := 1) (py := 0) (by
      intro i hi
      rw [hin] at hi
      simp only [List.mem_cons, List.not_mem_nil, or_false] at hi
      rcases hi with rfl | rfl | rfl | rfl <;>
        simp only [disp, hin, nx, ny, hs.xyz, exMesh_node1, exMesh_node2, exMesh_node3, exMesh_node4] <;>
        norm_num [List.idxOf_cons, exSlope])
  have harea : ((calcK0 exSq pn).1.eids.map (triArea (calcK0 exSq pn).1)).sum = 1 := by
    rw [hs.eids, hs.striArea]; exact exMesh_area ..
  rw [hdim, harea] at h
  rw [show (20 : ℕ) = 5 * [1, 2, 3, 4].length from rfl, h]
  simp [exIso, exLam]

/-- C83, C84, C86 there: the square with its left side clamped and shortened in `x` buckles; the first factor is the limit of stability -/
example : ∃ K G c x, Stiffness exSq false "cell-based" (1 / 5) true K ∧ calcKG (calcK0 exSq false).1 exPress false = .ok G ∧ 0 < c ∧
    BucklingMode K G {x | x < 5 ∨ 15 ≤ x} c x ∧ (∃ i < K.dim, i % 5 = 2 ∧ x i ≠ 0) ∧
    ∀ t, 0 ≤ t → t < c → ∀ v, Supported K.dim {x | x < 5 ∨ 15 ≤ x} v → (∃ i < K.dim, v i ≠ 0) → 0 < form K.dim (fun i j => K.get i j + t * G.get i j) v v := by
  obtain ⟨K, hK⟩ := exSq_stiffness (Or.inl rfl) false (1 / 5) true
  obtain ⟨G, hG, hw⟩ := exSq_work false (-1)
  have hS := held_stable (exMesh_reachable ..) (exSq_good false) (by norm_num) hK exSq_held
  obtain ⟨hdim, _⟩ := stiffness_energy (exMesh_reachable ..) (exSq_good false) hK
  rw [exMesh_nids] at hdim
  have hd20 : K.dim = 20 := hdim
  have hz : Supported K.dim {x | x < 5 ∨ 15 ≤ x} exSlope := by
    intro i _ hi
    simp only [Set.mem_ofPred_eq] at hi
    unfold exSlope
    rw [if_neg]; omega
  obtain ⟨c, hc, ⟨x, hx⟩, hmin, _⟩ := C86_first (exMesh_reachable ..) (exSq_good false) hK hS hG hz (by rw [hd20, hw]; norm_num)
  refine ⟨K, G, c, x, hK, hG, hc, hx, C83_transverse hS hG hx, fun t ht htc => ?_⟩
  exact (C86_stability (exMesh_reachable ..) (exSq_good false) hK hS hG ht).2 fun c' x' hc' hx' => htc.trans_le (hmin c' x' hc' hx')

/-- C84 there: shortening by 3 in place of 1 is the solution for three times the loads; the factors are a third -/
example : ∃ K G G' f, Stiffness exSq false "cell-based" (1 / 5) true K ∧ calcKG (calcK0 exSq false).1 exPress false = .ok G ∧
    StaticSol K {x | x < 5 ∨ 15 ≤ x} f (vec exPress) ∧ ∀ c x, BucklingMode K G {x | x < 5 ∨ 15 ≤ x} c x ↔ BucklingMode K G' {x | x < 5 ∨ 15 ≤ x} (c / 3) x := by
  obtain ⟨K, hK⟩ := exSq_stiffness (Or.inl rfl) false (1 / 5) true
  obtain ⟨G, hG, _⟩ := exSq_work false (-1)
  obtain ⟨G', hG', _⟩ := exSq_work false (-3)
  have hS := held_stable (exMesh_reachable ..) (exSq_good false) (by norm_num) hK exSq_held
  have hsup : Supported K.dim {x | x < 5 ∨ 15 ≤ x} (vec exPress) := by
    intro i _ hi
    simp only [Set.mem_ofPred_eq] at hi
    rcases hi with hi | hi
    · interval_cases i <;> rfl
    · by_cases h20 : i < 20
      · interval_cases i <;> rfl
      · unfold vec; rw [List.getD_eq_default]; simp only [exPress, List.length_cons, List.length_nil]; omega
  have h3 : vec [0, 0, 0, 0, 0, -3, 0, 0, 0, 0, -3, 0, 0, 0, 0, 0, 0, 0, 0, 0] = fun i => 3 * vec exPress i := by
    funext i
    by_cases h20 : i < 20
    · interval_cases i <;> simp [vec, exPress]
    · unfold vec
      rw [List.getD_eq_default _ _ (by simp only [List.length_cons, List.length_nil]; omega),
        List.getD_eq_default _ _ (by simp only [exPress, List.length_cons, List.length_nil]; omega)]
      ring
  refine ⟨K, G, G', fun i => ∑ j ∈ range K.dim, K.get i j * vec exPress j, hK, hG, ⟨hsup, fun _ _ _ => rfl⟩, fun c x => ?_⟩
  refine C84_reference (exMesh_reachable ..) (exSq_good false) hK hS (s := 3) (by norm_num) (f := fun i => ∑ j ∈ range K.dim, K.get i j * vec exPress j)
    (by rw [exMesh_nids]; rfl) (by rw [exMesh_nids]; rfl) ⟨hsup, fun _ _ _ => rfl⟩ ?_ hG hG' c x
  rw [h3]
  refine ⟨fun i hi hiS => by beta_reduce; rw [hsup i hi hiS, mul_zero], fun i _ _ => ?_⟩
  beta_reduce
  rw [Finset.mul_sum]
  exact Finset.sum_congr rfl fun j _ => by ring

/-- C85: pulled instead of pressed, the square does not buckle -/
theorem exSq_tension (pn : Bool) : Tension exSq pn (vec [0, 0, 0, 0, 0, 1, 0, 0, 0, 0, 1, 0, 0, 0, 0, 0, 0, 0, 0, 0]) := by
  intro k hk a b
  have he := eps_linear (exMesh_reachable exIso exIso exIso exIso exIso exIso).wf (exMesh_proper ..) (exMesh_planar ..) hk
    (d := vec [0, 0, 0, 0, 0, 1, 0, 0, 0, 0, 1, 0, 0, 0, 0, 0, 0, 0, 0, 0]) (c := fun _ => 0) (p := fun r => if r = 0 then 1 else 0) (q := fun _ => 0) (by
      intro r hr i hi
      rw [exMesh_nids] at hi
      simp only [List.mem_cons, List.not_mem_nil, or_false] at hr hi
      rcases hr with rfl | rfl | rfl | rfl <;> rcases hi with rfl | rfl | rfl | rfl <;>
        simp only [disp, vec, exMesh_nids, nx, ny, exMesh_node1, exMesh_node2, exMesh_node3, exMesh_node4] <;>
        norm_num [List.idxOf_cons])
  have hN : ∀ i, membrane exSq pn k (vec [0, 0, 0, 0, 0, 1, 0, 0, 0, 0, 1, 0, 0, 0, 0, 0, 0, 0, 0, 0]) i = if i = 0 then 1 else 0 := by
    intro i
    unfold membrane
    rw [he]
    simp only [avg_const (exMesh_reachable exIso exIso exIso exIso exIso exIso).wf (exMesh_proper ..) (exMesh_planar ..) hk
      (Homog_slot (exMesh_reachable exIso exIso exIso exIso exIso exIso).wf (exMesh_proper ..) (exMesh_Homog exIso pn))]
    fin_cases i <;> simp [exIso, exLam, Fin.castLE, Fin.natAdd]
  rw [hN, hN, hN]
  simp
  exact mul_self_nonneg a

example : ∃ K G, Stiffness exSq true "cell-based-no-smoothing" (1 / 5) true K ∧
    calcKG (calcK0 exSq true).1 [0, 0, 0, 0, 0, 1, 0, 0, 0, 0, 1, 0, 0, 0, 0, 0, 0, 0, 0, 0] true = .ok G ∧
    ∀ c x, BucklingMode K G {x | x < 5 ∨ 15 ≤ x} c x → c < 0 := by
  obtain ⟨K, hK⟩ := exSq_stiffness (Or.inr rfl) true (1 / 5) true
  obtain ⟨G, hG, hw⟩ := exSq_work true 1
  have hS := held_stable (exMesh_reachable ..) (exSq_good true) (by norm_num) hK exSq_held
  exact ⟨K, G, hK, hG, fun c x hx => C85_tension (exMesh_reachable ..) (exSq_good true) hK hS hG (by rw [exMesh_nids]; rfl) (exSq_tension true) hx⟩

end Meshless
