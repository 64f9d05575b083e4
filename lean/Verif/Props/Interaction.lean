import Verif.Spec.Interaction
import Verif.Props.Compare
import Mathlib.Analysis.Convex.Basic

/-! Several load cases: the loads a plate withstands form a convex set; lower bounds for the buckling factors of combined loads. -/

set_option autoImplicit false

namespace Meshless
open Spec Finset

section
variable {m : Mesh} (hr : Reachable m) {pn : Bool} (hg : GoodPlate m pn) {method : String} {al : ℝ} {fa : Bool} {K : Mat} (hK : Stiffness m pn method al fa K)
  {S : Set ℕ} (hS : Stable K S)
include hr hg hK hS

/-- every load has a load case -/
theorem case_exists (f : ℕ → ℝ) : ∃ d G, LoadCase m pn K S f d G := by
  obtain ⟨hdim, K0, hK0, _, _⟩ := stiffness_energy hr hg hK
  obtain ⟨hs, _, hh, _⟩ := calcK0_ok hr.wf hK0
  obtain ⟨d, ⟨h1, h2⟩, _⟩ := solve_unique K.get S (n := K.dim) (fun d hd h0 => by
    by_contra hcon
    push Not at hcon
    exact absurd h0 (hS d hd hcon).ne') f
  obtain ⟨l, hl⟩ : ∃ l : List ℝ, l = (List.range (5 * m.nids.length)).map d := ⟨_, rfl⟩
  have hlen : l.length = 5 * m.nids.length := by rw [hl]; simp
  have hv : ∀ i < K.dim, vec l i = d i := fun i hi => by
    unfold vec
    rw [List.getD_eq_getElem _ _ (by omega)]
    simp [hl]
  have haf : AfterK0 (calcK0 m pn).1 := .intro m hr pn K0 hK0 [] (by simp)
  obtain ⟨G, hG, _⟩ := C49_kG haf (hs.proper hg.proper) (hs.hasProps hh) (d := l) (by rw [hs.nids]; exact hlen)
  refine ⟨l, G, hlen, ⟨fun i hi hiS => by rw [hv i hi]; exact h1 i hi hiS, fun i hi hiS => ?_⟩, hG⟩
  rw [← h2 i hi hiS]
  exact Finset.sum_congr rfl fun j hj => by rw [hv j (Finset.mem_range.1 hj)]

/-- the load case of combined loads -/
theorem case_comb {f g : ℕ → ℝ} {a b : ℝ} {d1 d2 d3 : List ℝ} {G1 G2 G3 : Mat} (h1 : LoadCase m pn K S f d1 G1) (h2 : LoadCase m pn K S g d2 G2)
    (h3 : LoadCase m pn K S (fun i => a * f i + b * g i) d3 G3) (i j : ℕ) : G3.get i j = a * G1.get i j + b * G2.get i j :=
  (C98_superposition hr hg hK hS a b h1.length h2.length h3.length h1.solution h2.solution h3.solution).2 G1 G2 G3 h1.matrix h2.matrix h3.matrix i j

theorem case_form {f g : ℕ → ℝ} {a b : ℝ} {d1 d2 d3 : List ℝ} {G1 G2 G3 : Mat} (h1 : LoadCase m pn K S f d1 G1) (h2 : LoadCase m pn K S g d2 G2)
    (h3 : LoadCase m pn K S (fun i => a * f i + b * g i) d3 G3) (v : ℕ → ℝ) :
    form K.dim G3.get v v = a * form K.dim G1.get v v + b * form K.dim G2.get v v := by
  rw [show G3.get = fun i j => a * G1.get i j + b * G2.get i j from funext fun i => funext fun j => case_comb hr hg hK hS h1 h2 h3 i j]
  exact form_add_mat _ _ _ _ _ _ _

/-- a bound for the reciprocals of the positive buckling factors bounds the geometric stiffness -/
theorem bound_iff {f : ℕ → ℝ} {d : List ℝ} {G : Mat} (h : LoadCase m pn K S f d G) {r : ℝ} (h0 : 0 ≤ r) :
    (∀ c x, 0 < c → BucklingMode K G S c x → 1 / c ≤ r) ↔ ∀ v, Supported K.dim S v → -form K.dim G.get v v ≤ r * form K.dim K.get v v := by
  constructor
  · intro hb v hv
    by_cases hz : ∃ i < K.dim, v i ≠ 0
    · have hp := hS v hv hz
      by_cases hn : form K.dim G.get v v < 0
      · obtain ⟨c, hc, ⟨x, hx⟩, _, hle⟩ := C86_first hr hg hK hS h.matrix hv hn
        have := hb c x hc hx
        rw [le_div_iff₀ (by linarith)] at hle
        rw [div_le_iff₀ hc] at this
        have h2 : -form K.dim G.get v v ≤ (r * c) * -form K.dim G.get v v := le_mul_of_one_le_left (by linarith) this
        have h3 := mul_le_mul_of_nonneg_left hle h0
        linarith
      · have := mul_nonneg h0 hp.le
        linarith
    · push Not at hz
      have e : ∀ M : ℕ → ℕ → ℝ, form K.dim M v v = 0 := fun M => by
        unfold form
        exact Finset.sum_eq_zero fun i hi => Finset.sum_eq_zero fun j _ => by rw [hz i (Finset.mem_range.1 hi)]; ring
      rw [e, e]; simp
  · intro hb c x hc hx
    have h1 := mode_form hx hx.2.1
    have h2 := hS x hx.2.1 hx.1
    have h3 := hb x hx.2.1
    rw [div_le_iff₀ hc]
    by_contra hcon
    push Not at hcon
    have h4 : r * c * form K.dim K.get x x < 1 * form K.dim K.get x x := mul_lt_mul_of_pos_right hcon h2
    have h5 := mul_le_mul_of_nonneg_left h3 hc.le
    linarith

/-- for every load case the reciprocals of the positive buckling factors are bounded -/
theorem bound_exists {f : ℕ → ℝ} {d : List ℝ} {G : Mat} (h : LoadCase m pn K S f d G) :
    ∃ r : ℝ, 0 < r ∧ ∀ v, Supported K.dim S v → -form K.dim G.get v v ≤ r * form K.dim K.get v v := by
  by_cases hz : ∃ z, Supported K.dim S z ∧ form K.dim G.get z z < 0
  · obtain ⟨z, hz1, hz2⟩ := hz
    obtain ⟨c, hc, _, hmin, _⟩ := C86_first hr hg hK hS h.matrix hz1 hz2
    exact ⟨1 / c, by positivity, (bound_iff hr hg hK hS h (by positivity)).1 fun c' x hc' hx => one_div_le_one_div_of_le hc (hmin c' x hc' hx)⟩
  · push Not at hz
    refine ⟨1, one_pos, (bound_iff hr hg hK hS h one_pos.le).1 fun c x hc hx => ?_⟩
    have h1 := mode_form hx hx.2.1
    have h2 := hS x hx.2.1 hx.1
    have := mul_nonneg hc.le (hz x hx.2.1)
    linarith

/-- C137: the loads times `t` are withstood exactly if all positive buckling factors of the load case are above `t`. -/
theorem C137_limit {f : ℕ → ℝ} {d : List ℝ} {G : Mat} (h : LoadCase m pn K S f d G) {t : ℝ} (ht : 0 ≤ t) :
    Withstands m pn K S (fun i => t * f i) ↔ ∀ c x, 0 < c → BucklingMode K G S c x → t < c := by
  rw [← C86_stability hr hg hK hS h.matrix ht]
  constructor
  · rintro ⟨d', G', h', hp⟩
    have e : ∀ i j, G'.get i j = t * G.get i j := fun i j => by
      have := case_comb hr hg hK hS (a := t) (b := 0) h h (d3 := d') (G3 := G') (by simpa using h') i j
      rw [this]; ring
    simpa only [e] using hp
  · intro hp
    obtain ⟨d', G', h'⟩ := case_exists hr hg hK hS fun i => t * f i
    have e : ∀ i j, G'.get i j = t * G.get i j := fun i j => by
      have := case_comb hr hg hK hS (a := t) (b := 0) h h (d3 := d') (G3 := G') (by simpa using h') i j
      rw [this]; ring
    exact ⟨d', G', h', by simpa only [e] using hp⟩

/-- C137: the loads a supported plate withstands without buckling form a convex set: with two load cases it withstands all loads between them. -/
theorem C137_convex : Convex ℝ {f | Withstands m pn K S f} := by
  rintro f ⟨d1, G1, h1, p1⟩ g ⟨d2, G2, h2, p2⟩ a b ha hb hab
  obtain ⟨d3, G3, h3⟩ := case_exists hr hg hK hS fun i => a * f i + b * g i
  refine ⟨d3, G3, by simpa [Pi.add_def, Pi.smul_def] using h3, fun v hv hz => ?_⟩
  have e := fun G : Mat => form_one_add K.dim K.get G.get 1 v v
  simp only [one_mul] at e
  have q1 := p1 v hv hz
  have q2 := p2 v hv hz
  rw [e] at q1 q2 ⊢
  rw [case_form hr hg hK hS h1 h2 h3]
  have s : form K.dim K.get v v = a * form K.dim K.get v v + b * form K.dim K.get v v := by rw [← add_mul, hab, one_mul]
  rcases ha.lt_or_eq with ha | rfl
  · have := mul_pos ha q1
    have := mul_nonneg hb q2.le
    linarith
  · rw [zero_add] at hab
    subst hab
    linarith

/-- C137: it withstands small loads of either sign -/
theorem C137_small (f : ℕ → ℝ) : ∃ ε > 0, ∀ t, |t| ≤ ε → Withstands m pn K S fun i => t * f i := by
  obtain ⟨d, G, h⟩ := case_exists hr hg hK hS f
  obtain ⟨d', G', h'⟩ := case_exists hr hg hK hS fun i => -1 * f i + 0 * f i
  obtain ⟨r, hr0, hb⟩ := bound_exists hr hg hK hS h
  obtain ⟨r', hr0', hb'⟩ := bound_exists hr hg hK hS h'
  refine ⟨1 / (2 * (r + r')), by positivity, fun t ht => ?_⟩
  obtain ⟨d3, G3, h3⟩ := case_exists hr hg hK hS fun i => t * f i + 0 * f i
  refine ⟨d3, G3, by simpa using h3, fun v hv hz => ?_⟩
  have e := form_one_add K.dim K.get G3.get 1 v v
  simp only [one_mul] at e
  have hp := hS v hv hz
  have k1 := hb v hv
  have k2 := hb' v hv
  rw [case_form hr hg hK hS h h h'] at k2
  rw [e, case_form hr hg hK hS h h h3]
  have k3 : |form K.dim G.get v v| ≤ (r + r') * form K.dim K.get v v := by
    have := mul_nonneg hr0.le hp.le
    have := mul_nonneg hr0'.le hp.le
    rw [abs_le]
    constructor <;> linarith
  have k4 : |t * form K.dim G.get v v| ≤ 1 / (2 * (r + r')) * ((r + r') * form K.dim K.get v v) := by
    rw [abs_mul]
    exact mul_le_mul ht k3 (abs_nonneg _) (by positivity)
  have k5 : 1 / (2 * (r + r')) * ((r + r') * form K.dim K.get v v) = form K.dim K.get v v / 2 := by
    field_simp
  have := (abs_le.1 k4).1
  linarith

/-- C137, Dunkerley's bound: if `r1` and `r2` bound the reciprocals of the positive buckling factors of two load cases (zero if there are none), `a r1 + b r2`
bounds those of the combined load case. -/
theorem C137_dunkerley {f g : ℕ → ℝ} {a b : ℝ} (ha : 0 ≤ a) (hb : 0 ≤ b) {d1 d2 d3 : List ℝ} {G1 G2 G3 : Mat} (h1 : LoadCase m pn K S f d1 G1)
    (h2 : LoadCase m pn K S g d2 G2) (h3 : LoadCase m pn K S (fun i => a * f i + b * g i) d3 G3) {r1 r2 : ℝ} (hr1 : 0 ≤ r1) (hr2 : 0 ≤ r2)
    (hb1 : ∀ c x, 0 < c → BucklingMode K G1 S c x → 1 / c ≤ r1) (hb2 : ∀ c x, 0 < c → BucklingMode K G2 S c x → 1 / c ≤ r2) :
    ∀ c x, 0 < c → BucklingMode K G3 S c x → 1 / c ≤ a * r1 + b * r2 := by
  rw [bound_iff hr hg hK hS h1 hr1] at hb1
  rw [bound_iff hr hg hK hS h2 hr2] at hb2
  rw [bound_iff hr hg hK hS h3 (by positivity)]
  intro v hv
  rw [case_form hr hg hK hS h1 h2 h3]
  have := mul_le_mul_of_nonneg_left (hb1 v hv) ha
  have := mul_le_mul_of_nonneg_left (hb2 v hv) hb
  linarith

/-- C137: additional tension never makes the plate buckle -/
theorem C137_tension {f g : ℕ → ℝ} {b : ℝ} (hb : 0 ≤ b) (h1 : Withstands m pn K S f) {d2 : List ℝ} {G2 : Mat} (h2 : LoadCase m pn K S g d2 G2)
    (ht : Tension m pn (vec d2)) : Withstands m pn K S fun i => f i + b * g i := by
  obtain ⟨d1, G1, h1, p1⟩ := h1
  obtain ⟨d3, G3, h3⟩ := case_exists hr hg hK hS fun i => 1 * f i + b * g i
  refine ⟨d3, G3, by simpa using h3, fun v hv hz => ?_⟩
  have e := fun G : Mat => form_one_add K.dim K.get G.get 1 v v
  simp only [one_mul] at e
  have q1 := p1 v hv hz
  have q2 := (bound_iff hr hg hK hS h2 le_rfl).1 (fun c x hc hx => absurd (C85_tension hr hg hK hS h2.matrix h2.length ht hx) (by linarith)) v hv
  rw [e] at q1 ⊢
  rw [case_form hr hg hK hS h1 h2 h3]
  have := mul_nonneg hb (by linarith : 0 ≤ form K.dim G2.get v v)
  linarith

end

/-- the loads that shorten the square held at its left side, and those that pull it -/
theorem exSq_case (pn : Bool) {K : Mat} {a : ℝ} (hd : K.dim = 20) : ∃ G f, LoadCase exSq pn K {x | x < 5 ∨ 15 ≤ x} f [0, 0, 0, 0, 0, a, 0, 0, 0, 0, a, 0, 0, 0, 0, 0, 0, 0, 0, 0] G ∧
    form 20 G.get exSlope exSlope = a := by
  obtain ⟨G, hG, hw⟩ := exSq_work pn a
  refine ⟨G, fun i => ∑ j ∈ range K.dim, K.get i j * vec [0, 0, 0, 0, 0, a, 0, 0, 0, 0, a, 0, 0, 0, 0, 0, 0, 0, 0, 0] j, ⟨by rw [exMesh_nids]; rfl, ⟨?_, fun _ _ _ => rfl⟩, hG⟩, hw⟩
  intro i h20 hi
  rw [hd] at h20
  simp only [Set.mem_ofPred_eq] at hi
  rcases hi with hi | hi <;> interval_cases i <;> rfl

/-- C137 there: the square withstands the pressing loads `f` times `t` exactly up to the first buckling factor `T`, pulling loads `g` besides `t f` only help. -/
example : ∃ (K : Mat) (f g : ℕ → ℝ) (T : ℝ), Stiffness exSq false "cell-based" (1 / 5) true K ∧ 0 < T ∧ (∀ t, 0 ≤ t → (Withstands exSq false K {x | x < 5 ∨ 15 ≤ x} (fun i => t * f i) ↔ t < T)) ∧
    ∀ t b, 0 ≤ t → t < T → 0 ≤ b → Withstands exSq false K {x | x < 5 ∨ 15 ≤ x} fun i => t * f i + b * g i := by
  obtain ⟨K, hK⟩ := exSq_stiffness (Or.inl rfl) false (1 / 5) true
  have hS := held_stable (exMesh_reachable ..) (exSq_good false) (by norm_num) hK exSq_held
  obtain ⟨hdim, _⟩ := stiffness_energy (exMesh_reachable ..) (exSq_good false) hK
  rw [exMesh_nids] at hdim
  have hd20 : K.dim = 20 := hdim
  obtain ⟨G, f, hf, hw⟩ := exSq_case false (a := -1) hd20
  obtain ⟨G', g, hg, _⟩ := exSq_case false (a := 1) hd20
  have hz : Supported K.dim {x | x < 5 ∨ 15 ≤ x} exSlope := by
    intro i _ hi
    simp only [Set.mem_ofPred_eq] at hi
    unfold exSlope
    rw [if_neg]; omega
  obtain ⟨c, hc, ⟨x, hx⟩, hmin, _⟩ := C86_first (exMesh_reachable ..) (exSq_good false) hK hS hf.matrix hz (by rw [hd20, hw]; norm_num)
  have key : ∀ t, 0 ≤ t → (Withstands exSq false K {x | x < 5 ∨ 15 ≤ x} (fun i => t * f i) ↔ t < c) := fun t ht =>
    (C137_limit (exMesh_reachable ..) (exSq_good false) hK hS hf ht).trans ⟨fun h => h c x hc hx, fun h c' x' hc' hx' => h.trans_le (hmin c' x' hc' hx')⟩
  exact ⟨K, f, g, c, hK, hc, key, fun t b ht htc hb =>
    C137_tension (exMesh_reachable ..) (exSq_good false) hK hS hb ((key t ht).2 htc) hg (exSq_tension false)⟩

end Meshless
