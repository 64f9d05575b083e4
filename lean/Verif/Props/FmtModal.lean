import Verif.Spec.FmtModal
import Verif.Props.Ieee
import Verif.Props.FloatModal

/-!
C155: static solutions, pre-stress, buckling factors, modes and the limit of stability with matrices computed in a format with infinities, NaN and
underflow.
-/

set_option autoImplicit false

namespace Meshless
open Spec Finset

/-- exact arithmetic, seen as one of unit roundoff `t` -/
noncomputable def Rounding.coarse (t : ℝ) (h0 : 0 ≤ t) (h1 : t < 1) : Rounding :=
  ⟨t, id, h0, h1, fun x => by simpa using mul_nonneg h0 (abs_nonneg x), fun _ => rfl, rfl, fun _ _ => rfl⟩

theorem fmtAssembled_fun {f : Fmt} {m : Mesh} {pn : Bool} {method : String} {al : ℝ} {fa : Bool} {F F' : FMat} (h : FmtAssembled f m pn method al fa F)
    (h' : FmtAssembled f m pn method al fa F') : F = F' := by
  obtain ⟨A, a1, a2⟩ := h
  obtain ⟨B, b1, b2⟩ := h'
  obtain rfl := Except.ok.inj (a1.symm.trans b1)
  exact congrArg Prod.fst (a2.symm.trans b2)

theorem Spec.CloseTo.finite {F : FMat} {K : Mat} {δ : ℝ} (h : CloseTo F K δ) : AllFinite F := fun i hi j hj => by
  obtain ⟨x, e, _⟩ := h.2 i (h.1 ▸ hi) j (h.1 ▸ hj)
  exact ⟨x, e⟩

theorem Spec.CloseTo.numbers {F : FMat} {K : Mat} {δ : ℝ} (h : CloseTo F K δ) {i j : ℕ} (hi : i < K.dim) (hj : j < K.dim) :
    |(numbers F).get i j - K.get i j| ≤ δ := by
  obtain ⟨x, e, hx⟩ := h.2 i hi j hj
  unfold Spec.numbers
  simp only [e]
  exact hx

/-- the static problem with a matrix near that of a stable plate -/
theorem near_static {K : Mat} {S : Set ℕ} (hS : Stable K S) {p d : ℕ → ℝ} (hd : StaticSol K S p d) (c C0 : ℝ) :
    ∃ C t0 : ℝ, 0 < t0 ∧ ∀ t, 0 ≤ t → t < 1 → t ≤ t0 → ∀ X : Mat, X.dim = K.dim → (∀ i < K.dim, ∀ j < K.dim, |X.get i j - K.get i j| ≤ C0 * t) →
      (∀ p', ∃ d', StaticSol X S p' d' ∧ ∀ d'', StaticSol X S p' d'' → ∀ i < X.dim, d'' i = d' i) ∧
      ∀ p' d', (∀ i < K.dim, |p' i - p i| ≤ c * t) → SolvedUpTo X S p' d' (c * t) → ∀ i < K.dim, |d' i - d i| ≤ C * t := by
  let ι := {q : ℝ × Mat // (0 ≤ q.1 ∧ q.1 < 1) ∧ q.2.dim = K.dim ∧ ∀ i < K.dim, ∀ j < K.dim, |q.2.get i j - K.get i j| ≤ C0 * q.1}
  let π : ι → Rounding := fun q => Rounding.coarse q.1.1 q.2.1.1 q.2.1.2
  have hacc : ∀ r < K.dim, ∀ s < K.dim, Acc π (fun q => q.1.2.get r s) (K.get r s) := fun r hr s hs => acc_of_le (c := C0) fun q => q.2.2.2 r hr s hs
  obtain ⟨u1, hu1, hsol⟩ := smallU_iff.1 (solve_near (n := K.dim) (K := K.get) S hS.inj (F := fun q : ι => q.1.2.get) hacc)
  let κ := {q : ι × (ℕ → ℝ) × (ℕ → ℝ) // (∀ i < K.dim, |q.2.1 i - p i| ≤ c * q.1.1.1) ∧ SolvedUpTo q.1.1.2 S q.2.1 q.2.2 (c * q.1.1.1)}
  have hacc2 := solve_acc (π := fun q : κ => π q.1.1) (n := K.dim) (K := K.get) (S := S) hS.inj (F := fun q => q.1.1.1.2.get)
    (fun r hr s hs => acc_of_le (c := C0) fun q : κ => q.1.1.2.2.2 r hr s hs) (f := p) (f' := fun q => q.1.2.1) (fun r hr => acc_of_le (c := c) fun q => q.2.1 r hr) (c := c)
    (D := fun q => q.1.2.2) (fun q r hr hrS => q.2.2.1 r (by rw [q.1.1.2.2.1]; exact hr) hrS)
    (fun q r hr hrS => by have := q.2.2.2 r (by rw [q.1.1.2.2.1]; exact hr) hrS; rwa [q.1.1.2.2.1] at this) hd.1 hd.2
  obtain ⟨C, _, hC⟩ := acc_uniform hacc2
  obtain ⟨u2, hu2, hC⟩ := smallU_iff.1 hC
  refine ⟨C, min u1 u2, lt_min hu1 hu2, fun t h0 h1 ht X hX hE => ⟨fun p' => ?_, fun p' d' e1 e2 => ?_⟩⟩
  · obtain ⟨d', a, b⟩ := solve_inj (n := K.dim) X.get S (hsol ⟨(t, X), ⟨h0, h1⟩, hX, hE⟩ (ht.trans (min_le_left _ _))) p'
    refine ⟨d', ⟨?_, ?_⟩, fun d'' h => ?_⟩
    · unfold Supported; rw [hX]; exact a.1
    · rw [hX]; exact a.2
    · have g1 := h.1
      have g2 := h.2
      unfold Supported at g1
      rw [hX] at g1 g2 ⊢
      exact b d'' ⟨g1, g2⟩
  · exact hC ⟨(⟨(t, X), ⟨h0, h1⟩, hX, hE⟩, p', d'), e1, e2⟩ (ht.trans (min_le_right _ _))

section
variable {m0 : Mesh} (hr : Reachable m0) (ops : List Op) {pn : Bool} (hp : Proper (run m0 ops)) (hg : Planar (run m0 ops))

include hr hp hg in
/-- C155: in every sufficiently fine and wide format the computed stiffness matrix is finite, gives static problems with exactly one solution, and every vector
that solves one up to the roundoff differs from the exact solution of the exact problem by at most a constant times `u + eta` -/
theorem C155_static {method : String} (ht : ThickFor method (run m0 ops) pn) {al : ℝ} (hal : 0 ≤ al) {fa : Bool} {K : Mat}
    (hK : Assembled (run m0 ops) pn method al fa K) {S : Set ℕ} (hS : Stable K S) {p d : ℕ → ℝ} (hd : StaticSol K S p d) (c : ℝ) :
    ∃ C t0 B : ℝ, 0 < t0 ∧ ∀ f : Fmt, f.u + f.eta ≤ t0 → B ≤ f.big → ∃ F, FmtAssembled f (run m0 ops) pn method al fa F ∧ F.dim = K.dim ∧ AllFinite F ∧
      (∀ p', ∃ d', StaticSol (numbers F) S p' d' ∧ ∀ d'', StaticSol (numbers F) S p' d'' → ∀ i < F.dim, d'' i = d' i) ∧
      ∀ p' d', (∀ i < K.dim, |p' i - p i| ≤ c * (f.u + f.eta)) → SolvedUpTo (numbers F) S p' d' (c * (f.u + f.eta)) →
        ∀ i < K.dim, |d' i - d i| ≤ C * (f.u + f.eta) := by
  obtain ⟨C0, t1, B, ht1, h1⟩ := C150_assembled hr ops hp hg ht hal hK
  obtain ⟨C, t2, ht2, h2⟩ := near_static hS hd c C0
  refine ⟨C, min (1 / 2) (min t1 t2), B, lt_min (by norm_num) (lt_min ht1 ht2), fun f hf hB => ?_⟩
  obtain ⟨F, f1, f2⟩ := h1 f (hf.trans ((min_le_right _ _).trans (min_le_left _ _))) hB
  have hh : f.u + f.eta ≤ 1 / 2 := hf.trans (min_le_left _ _)
  obtain ⟨g1, g2⟩ := h2 (f.u + f.eta) (add_nonneg f.u_nonneg f.eta_nonneg) (by linarith) (hf.trans ((min_le_right _ _).trans (min_le_right _ _)))
    (numbers F) f2.1 (fun i hi j hj => f2.numbers hi hj)
  exact ⟨F, f1, f2.1, f2.finite, g1, g2⟩

include hr hp hg in
/-- C155: the geometric stiffness matrix computed from such a solution is finite and differs from the exact one by at most a constant times `u + eta` -/
theorem C155_prestress {method : String} (ht : ThickFor method (run m0 ops) pn) {al : ℝ} (hal : 0 ≤ al) {fa : Bool} {K : Mat}
    (hK : Assembled (run m0 ops) pn method al fa K) {S : Set ℕ} (hS : Stable K S) {p : ℕ → ℝ} {d : List ℝ} (hl : d.length = K.dim)
    (hd : StaticSol K S p (vec d)) {G : Mat} (hG : calcKG (calcK0 (run m0 ops) pn).1 d pn = .ok G) (c : ℝ) :
    ∃ C t0 B : ℝ, 0 < t0 ∧ ∀ f : Fmt, f.u + f.eta ≤ t0 → B ≤ f.big → ∀ F, FmtAssembled f (run m0 ops) pn method al fa F →
      ∀ (p' : ℕ → ℝ) (d' : List ℝ), d'.length = F.dim → (∀ i < K.dim, |p' i - p i| ≤ c * (f.u + f.eta)) → SolvedUpTo (numbers F) S p' (vec d') (c * (f.u + f.eta)) →
      ∃ G', f.calcKG (f.calcK0 (run m0 ops) pn).1 (f.calcK0 (run m0 ops) pn).2.1 d' pn = .ok G' ∧ CloseTo G' G (C * (f.u + f.eta)) := by
  obtain ⟨C1, t1, B1, h1, hst⟩ := C155_static hr ops hp hg ht hal hK hS hd c
  obtain ⟨K0, h0, _⟩ := hK
  obtain ⟨C2, t2, B2, h2, hkg⟩ := C150_kG hr ops hp hg h0 hG C1
  refine ⟨C2, min t1 t2, max B1 B2, lt_min h1 h2, fun f hf hB F hF p' d' hl' hp' hsol => ?_⟩
  obtain ⟨F', g1, g2, _, _, g4⟩ := hst f (hf.trans (min_le_left _ _)) ((le_max_left _ _).trans hB)
  obtain rfl := fmtAssembled_fun hF g1
  exact hkg f (hf.trans (min_le_right _ _)) ((le_max_right _ _).trans hB) d' (by rw [hl', g2, hl]) fun i hi => g4 p' (vec d') hp' hsol i (by rw [← hl]; exact hi)

end

section
variable {m0 : Mesh} (hr : Reachable m0) (ops : List Op) {pn : Bool} (hg : GoodPlate (run m0 ops) pn) {method : String} {al : ℝ} (hal : 0 ≤ al) {fa : Bool}
  {S : Set ℕ} {p : ℕ → ℝ} {K G : Mat} (ha : Analysis (run m0 ops) pn method al fa S p K G) (hS : Stable K S)
include hr hg hal ha hS

/-- C155: the analysis can be carried out; both computed matrices are finite and near the exact ones -/
theorem C155_matrices (c : ℝ) (hc : 0 ≤ c) : ∃ C t0 B : ℝ, 0 ≤ C ∧ 0 < t0 ∧ ∀ f : Fmt, f.u + f.eta ≤ t0 → B ≤ f.big →
    (∃ F G', FmtAnalysis f (run m0 ops) pn method al fa S p c F G') ∧
    ∀ F G', FmtAnalysis f (run m0 ops) pn method al fa S p c F G' → CloseTo F K (C * (f.u + f.eta)) ∧ CloseTo G' G (C * (f.u + f.eta)) ∧ G.dim = K.dim := by
  obtain ⟨hK, d, hl, hd, hG⟩ := ha.stiffness
  have hr' := hr.run ops
  obtain ⟨K0, h0, _⟩ := hK.assembled
  obtain ⟨_, _, hh, _⟩ := calcK0_ok hr'.wf h0
  have ht := thickFor_of hr'.wf hg.proper hg.planar hh (fun l h => (hg.shear l h).1) method
  have hGd : G.dim = K.dim := by
    obtain ⟨h1, _⟩ := calcKG_sum hG
    obtain ⟨h2, _⟩ := stiffness_energy hr' hg hK
    rw [h1, hl, h2]; omega
  obtain ⟨C1, u1, B1, hu1, h1⟩ := C150_assembled hr ops hg.proper hg.planar ht hal hK.assembled
  obtain ⟨C2, u2, B2, hu2, h2⟩ := C155_prestress hr ops hg.proper hg.planar ht hal hK.assembled hS hl hd hG c
  obtain ⟨C3, u3, B3, hu3, h3⟩ := C155_static hr ops hg.proper hg.planar ht hal hK.assembled hS hd c
  refine ⟨|C1| + |C2|, min u1 (min u2 u3), max B1 (max B2 B3), by positivity, lt_min hu1 (lt_min hu2 hu3), fun f hf hB => ?_⟩
  have hf1 := hf.trans (min_le_left _ _)
  have hf2 := hf.trans ((min_le_right _ _).trans (min_le_left _ _))
  have hf3 := hf.trans ((min_le_right _ _).trans (min_le_right _ _))
  have hB1 := (le_max_left _ _).trans hB
  have hB2 := ((le_max_left _ _).trans (le_max_right _ _)).trans hB
  have hB3 := ((le_max_right _ _).trans (le_max_right _ _)).trans hB
  have hu : 0 ≤ f.u + f.eta := add_nonneg f.u_nonneg f.eta_nonneg
  have b1 : C1 * (f.u + f.eta) ≤ (|C1| + |C2|) * (f.u + f.eta) := mul_le_mul_of_nonneg_right ((le_abs_self _).trans (by linarith [abs_nonneg C2])) hu
  have b2 : C2 * (f.u + f.eta) ≤ (|C1| + |C2|) * (f.u + f.eta) := mul_le_mul_of_nonneg_right ((le_abs_self _).trans (by linarith [abs_nonneg C1])) hu
  have wid : ∀ {F : FMat} {K : Mat} {a b : ℝ}, CloseTo F K a → a ≤ b → CloseTo F K b := fun h hab =>
    ⟨h.1, fun i hi j hj => by obtain ⟨x, e, hx⟩ := h.2 i hi j hj; exact ⟨x, e, hx.trans hab⟩⟩
  constructor
  · obtain ⟨F, f1, f2, _, f3, _⟩ := h3 f hf3 hB3
    obtain ⟨d', d1, _⟩ := f3 p
    have hv : ∀ i < F.dim, vec ((List.range F.dim).map d') i = d' i := by
      intro i hi
      simp [vec, List.getD, hi]
    have hsol : SolvedUpTo (numbers F) S p (vec ((List.range F.dim).map d')) (c * (f.u + f.eta)) := by
      refine ⟨fun i hi h => by rw [hv i hi]; exact d1.1 i hi h, fun i hi h => ?_⟩
      rw [Finset.sum_congr rfl fun j hj => by rw [hv j (Finset.mem_range.1 hj)], d1.2 i hi h, sub_self, abs_zero]
      exact mul_nonneg (mul_nonneg hc hu) (add_nonneg (Finset.sum_nonneg fun _ _ => mul_nonneg (abs_nonneg _) (abs_nonneg _)) (abs_nonneg _))
    have hff : ∀ i : ℕ, |p i - p i| ≤ c * (f.u + f.eta) := fun i => by rw [sub_self, abs_zero]; exact mul_nonneg hc hu
    obtain ⟨G', g1, _⟩ := h2 f hf2 hB2 F f1 p _ (by simp) (fun i _ => hff i) hsol
    exact ⟨F, G', f1, p, _, by simp, fun i _ => hff i, hsol, g1⟩
  · rintro F G' ⟨f1, p', d', e1, e2, e3, e4⟩
    obtain ⟨F', g1, g2⟩ := h1 f hf1 hB1
    obtain rfl := fmtAssembled_fun f1 g1
    obtain ⟨G'', k1, k2⟩ := h2 f hf2 hB2 F f1 p' d' e1 (by rw [← g2.1]; exact e2) e3
    obtain rfl := Except.ok.inj (e4.symm.trans k1)
    exact ⟨wid g2 b1, wid k2 b2, hGd⟩

/-- the same with one bound, in the form used below -/
theorem fmtAnalysis_near (c : ℝ) (hc : 0 ≤ c) : ∃ C t0 B : ℝ, 0 ≤ C ∧ 0 < t0 ∧ t0 ≤ 1 ∧ ∀ f : Fmt, f.u + f.eta ≤ t0 → B ≤ f.big →
    ∀ F G', FmtAnalysis f (run m0 ops) pn method al fa S p c F G' → NearMats K G (numbers F) (numbers G') (C * (f.u + f.eta)) := by
  obtain ⟨C, t0, B, hC, ht, h⟩ := C155_matrices hr ops hg hal ha hS c hc
  refine ⟨C, min t0 1, B, hC, lt_min ht one_pos, min_le_right _ _, fun f hf hB F G' hF => ?_⟩
  obtain ⟨h1, h2, h3⟩ := (h f (hf.trans (min_le_left _ _)) hB).2 F G' hF
  exact ⟨h1.1, h2.1.trans h3, fun i hi j hj => h1.numbers hi hj, fun i hi j hj => h2.numbers (h3 ▸ hi) (h3 ▸ hj)⟩

/-- C155: every computed factor of bounded size, and its mode, are within a constant times `u + eta` of an exact factor, which is real, and of an exact mode
of this factor -/
theorem C155_factors (c L : ℝ) (hc : 0 ≤ c) : ∃ C t0 B : ℝ, 0 < t0 ∧ ∀ f : Fmt, f.u + f.eta ≤ t0 → B ≤ f.big →
    ∀ F G', FmtAnalysis f (run m0 ops) pn method al fa S p c F G' → ∀ (l : ℂ) (x : ℕ → ℂ), ‖l‖ ≤ L → ModeUpTo (numbers F) (numbers G') S l x (c * (f.u + f.eta)) →
      ∃ (l' : ℝ) (y : ℕ → ℂ), ComplexMode K G S l' y ∧ ‖l - l'‖ ≤ C * (f.u + f.eta) ∧ ∀ i < K.dim, ‖x i - y i‖ ≤ C * (f.u + f.eta) * ∑ j ∈ range K.dim, ‖x j‖ := by
  obtain ⟨C1, t1, B, hC1, ht1, h1, hnear⟩ := fmtAnalysis_near hr ops hg hal ha hS c hc
  obtain ⟨hK, d, hl, hd, hG⟩ := ha.stiffness
  obtain ⟨C, u0, hu0, h⟩ := near_factors (C78_symmetric (hr.run ops) hg hK) (fun i _ j _ => (C30_symmetric hG).1 i j) hS L hc hC1
  exact ⟨C, min t1 u0, B, lt_min ht1 hu0, fun f hf hB F G' hF => h _ (add_nonneg f.u_nonneg f.eta_nonneg) ((hf.trans (min_le_left _ _)).trans h1)
    (hf.trans (min_le_right _ _)) _ _ (hnear f (hf.trans (min_le_left _ _)) hB F G' hF)⟩

/-- C155, converse: every exact factor and mode of bounded size solves the computed equations up to a residual of a constant times `u + eta` -/
theorem C155_found (c L : ℝ) (hc : 0 ≤ c) : ∃ C t0 B : ℝ, 0 < t0 ∧ ∀ f : Fmt, f.u + f.eta ≤ t0 → B ≤ f.big →
    ∀ F G', FmtAnalysis f (run m0 ops) pn method al fa S p c F G' → ∀ (l : ℂ) (x : ℕ → ℂ), ‖l‖ ≤ L → ComplexMode K G S l x →
      ModeUpTo (numbers F) (numbers G') S l x (C * (f.u + f.eta)) := by
  obtain ⟨C1, t1, B, hC1, ht1, _, hnear⟩ := fmtAnalysis_near hr ops hg hal ha hS c hc
  obtain ⟨C, u0, hu0, h⟩ := near_found (G := G) hS L hC1
  exact ⟨C, min t1 u0, B, lt_min ht1 hu0, fun f hf hB F G' hF => h _ (add_nonneg f.u_nonneg f.eta_nonneg) (hf.trans (min_le_right _ _)) _ _
    (hnear f (hf.trans (min_le_left _ _)) hB F G' hF)⟩

/-- C155: below the first positive factor by more than a constant times `u + eta` the computed matrix of the loaded plate is positive definite on the supported
displacements, above it by more than that it is not -/
theorem C155_limit (c L : ℝ) (hc : 0 ≤ c) {c1 : ℝ} (hc1 : 0 < c1) {y : ℕ → ℝ} (hy : BucklingMode K G S c1 y) (hmin : ∀ c' x, 0 < c' → BucklingMode K G S c' x → c1 ≤ c') :
    ∃ C t0 B : ℝ, 0 < t0 ∧ ∀ f : Fmt, f.u + f.eta ≤ t0 → B ≤ f.big → ∀ F G', FmtAnalysis f (run m0 ops) pn method al fa S p c F G' →
      (∀ t, 0 ≤ t → t < c1 - C * (f.u + f.eta) → ∀ v, Supported F.dim S v → (∃ i < F.dim, v i ≠ 0) →
        0 < form F.dim (fun i j => (numbers F).get i j + t * (numbers G').get i j) v v) ∧
      ∀ t, c1 + C * (f.u + f.eta) < t → t ≤ L → ∃ v, Supported F.dim S v ∧ form F.dim (fun i j => (numbers F).get i j + t * (numbers G').get i j) v v < 0 := by
  obtain ⟨C1, t1, B, hC1, ht1, _, hnear⟩ := fmtAnalysis_near hr ops hg hal ha hS c hc
  obtain ⟨hK, d, hl, hd, hG⟩ := ha.stiffness
  obtain ⟨C, h⟩ := near_limit (C78_symmetric (hr.run ops) hg hK) (fun i _ j _ => (C30_symmetric hG).1 i j) hS L hC1 hc1 hy hmin
  exact ⟨C, t1, B, ht1, fun f hf hB F G' hF => h _ (add_nonneg f.u_nonneg f.eta_nonneg) _ _ (hnear f hf hB F G' hF)⟩

end

/-- C155: the square with its left side clamped and shortened in `x`: the hypotheses hold, there is a first factor -/
example : ∃ K G p c1 y, Analysis exSq false "cell-based" (1 / 5) true {x | x < 5 ∨ 15 ≤ x} p K G ∧ 0 < c1 ∧ BucklingMode K G {x | x < 5 ∨ 15 ≤ x} c1 y ∧
    (∃ C t0 B : ℝ, 0 < t0 ∧ ∀ f : Fmt, f.u + f.eta ≤ t0 → B ≤ f.big → ∃ F G', FmtAnalysis f (run exRead sqOps) false "cell-based" (1 / 5) true {x | x < 5 ∨ 15 ≤ x} p 10 F G' ∧
      AllFinite F ∧ AllFinite G' ∧ F.dim = 20 ∧ (∀ (l : ℂ) (x : ℕ → ℂ), ‖l‖ ≤ 1000 → ModeUpTo (numbers F) (numbers G') {x | x < 5 ∨ 15 ≤ x} l x (10 * (f.u + f.eta)) →
        ∃ (l' : ℝ) (z : ℕ → ℂ), ComplexMode K G {x | x < 5 ∨ 15 ≤ x} l' z ∧ ‖l - l'‖ ≤ C * (f.u + f.eta))) ∧
    ∃ C t0 B : ℝ, 0 < t0 ∧ ∀ f : Fmt, f.u + f.eta ≤ t0 → B ≤ f.big → ∀ F G', FmtAnalysis f (run exRead sqOps) false "cell-based" (1 / 5) true {x | x < 5 ∨ 15 ≤ x} p 10 F G' →
      (∀ t, 0 ≤ t → t < c1 - C * (f.u + f.eta) → ∀ v, Supported F.dim {x | x < 5 ∨ 15 ≤ x} v → (∃ i < F.dim, v i ≠ 0) →
        0 < form F.dim (fun i j => (numbers F).get i j + t * (numbers G').get i j) v v) ∧
      ∀ t, c1 + C * (f.u + f.eta) < t → t ≤ 1000 → ∃ v, Supported F.dim {x | x < 5 ∨ 15 ≤ x} v ∧ form F.dim (fun i j => (numbers F).get i j + t * (numbers G').get i j) v v < 0 := by
  obtain ⟨K, hK⟩ := exSq_stiffness (Or.inl rfl) false (1 / 5) true
  obtain ⟨G, hG, hw⟩ := exSq_work false (-1)
  have hS := held_stable (exMesh_reachable ..) (exSq_good false) (by norm_num) hK exSq_held
  obtain ⟨hdim, _⟩ := stiffness_energy (exMesh_reachable ..) (exSq_good false) hK
  rw [exMesh_nids] at hdim
  have hd20 : K.dim = 20 := hdim
  have hz : Supported K.dim {x | x < 5 ∨ 15 ≤ x} exSlope := by
    intro i _ hi
    simp only [Set.mem_ofPred_eq] at hi
    unfold exSlope
    rw [if_neg]; omega
  have hsup : Supported K.dim {x | x < 5 ∨ 15 ≤ x} (vec exPress) := by
    intro i h20 hi
    rw [hd20] at h20
    simp only [Set.mem_ofPred_eq] at hi
    interval_cases i <;> first | rfl | omega
  obtain ⟨c1, hc1, ⟨y, hy⟩, hmin, _⟩ := C86_first (exMesh_reachable ..) (exSq_good false) hK hS hG hz (by rw [hd20, hw]; norm_num)
  have ha : Analysis exSq false "cell-based" (1 / 5) true {x | x < 5 ∨ 15 ≤ x} (fun i => ∑ j ∈ range K.dim, K.get i j * vec exPress j) K G :=
    ⟨Or.inl rfl, hK.assembled, exPress, by rw [hd20]; rfl, ⟨hsup, fun _ _ _ => rfl⟩, hG⟩
  refine ⟨K, G, _, c1, y, ha, hc1, hy, ?_, C155_limit exRead_reachable sqOps (exSq_good false) (by norm_num) ha hS 10 1000 (by norm_num) hc1 hy hmin⟩
  obtain ⟨C1, t1, B1, _, ht1, h1⟩ := C155_matrices exRead_reachable sqOps (exSq_good false) (by norm_num) ha hS 10 (by norm_num)
  obtain ⟨C2, t2, B2, ht2, h2⟩ := C155_factors exRead_reachable sqOps (exSq_good false) (by norm_num) ha hS 10 1000 (by norm_num)
  refine ⟨C2, min t1 t2, max B1 B2, lt_min ht1 ht2, fun f hf hB => ?_⟩
  obtain ⟨⟨F, G', hF⟩, h3⟩ := h1 f (hf.trans (min_le_left _ _)) ((le_max_left _ _).trans hB)
  obtain ⟨e1, e2, _⟩ := h3 F G' hF
  refine ⟨F, G', hF, e1.finite, e2.finite, e1.1.trans hd20, fun l x hl hx => ?_⟩
  obtain ⟨l', z, a, b, _⟩ := h2 f (hf.trans (min_le_right _ _)) ((le_max_right _ _).trans hB) F G' hF l x hl hx
  exact ⟨l', z, a, b⟩

end Meshless
