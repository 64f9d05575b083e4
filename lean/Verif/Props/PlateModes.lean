import Verif.Lemmas.ModeSpan
import Verif.Props.PlateMode
import Verif.Lemmas.Hinged

/-!
C148: computed buckling modes and modes of the plate theory.
-/

set_option autoImplicit false

namespace Meshless
open Spec Finset Filter MeasureTheory Topology Real

/-- the members of a modal basis with `μ ≠ 0` are modes -/
theorem modal_mode {K G : Mat} {S : Set ℕ} {T : Type} [Fintype T] {p : T → ℕ → ℝ} {μ : T → ℝ} (hm : Modal K.dim K.get G.get S T p μ) {a : T} (hμ : μ a ≠ 0) : BucklingMode K G S (-1 / μ a) (p a) := by
  refine ⟨hm.nonzero _, hm.sup _, fun i hi hi' => ?_⟩
  have h1 := hm.row a hi hi'
  have : ∑ j ∈ range K.dim, (K.get i j + -1 / μ a * G.get i j) * p a j = ∑ j ∈ range K.dim, K.get i j * p a j + -1 / μ a * ∑ j ∈ range K.dim, G.get i j * p a j := by
    rw [Finset.mul_sum, ← Finset.sum_add_distrib]; exact Finset.sum_congr rfl fun j _ => by ring
  rw [this, h1]
  field_simp
  ring

theorem modal_close {lam μ δ : ℝ} (hδ : δ ≤ 1) (h : |1 + lam * μ| < δ) : μ ≠ 0 ∧ |1 - lam / (-1 / μ)| < δ := by
  have hμ : μ ≠ 0 := fun h0 => by
    rw [h0, mul_zero, add_zero, abs_one] at h
    linarith
  refine ⟨hμ, ?_⟩
  rw [show 1 - lam / (-1 / μ) = 1 + lam * μ by field_simp; ring]
  exact h

/-- C148: the nodal values of a smooth mode of the plate theory are close, in energy, to a combination of computed modes whose factors are close to its factor: with the bound `δ` for the
relative distance of the factors, the energy of the difference is at most a constant times the square of the size of the triangles over `δ²` -/
theorem C148_span {s L0 L1 c g tau H al κ A B M E Lm : ℝ} (hs0 : 0 ≤ s) (hL0 : 0 ≤ L0) (hL1 : 0 ≤ L1) (hc : 0 < c) (hg0 : 0 < g) (htau : 0 < tau) (hal : 0 ≤ al) (hκ : 0 ≤ κ) (hB : 0 ≤ B) (hM : 0 ≤ M)
    (hE : 0 ≤ E) : ∃ C : ℝ, 0 ≤ C ∧ ∀ (m : Mesh) (pn : Bool) (l : ℝ × ℝ → Lam), Reachable m → SmoothPlate m pn l s L0 L1 c g tau → totalArea m ≤ A → ∀ h, 0 ≤ h → h ≤ H → Size m h →
      ∀ (method : String) (fa : Bool) (S : Set ℕ) (D Dx Dy F Fx Fy : ℕ → ℝ × ℝ → ℝ) (lam : ℝ) (K G : Mat) (z d' : ℕ → ℝ) (d : List ℝ), RotHeld m S κ → SmoothField m D Dx Dy B M → SmoothField m F Fx Fy B M →
      |lam| ≤ Lm → ModeProblem m pn l method al fa S Dx Dy F Fx Fy lam K G z d → Nodal m D d' → form K.dim K.get (fun i => vec d i - d' i) (fun i => vec d i - d' i) ≤ E * (h + litErr method) ^ 2 →
      ∀ δ, 0 < δ → δ ≤ 1 → ∃ (N : ℕ) (b r : Fin N → ℝ) (x : Fin N → ℕ → ℝ), (∀ a, BucklingMode K G S (b a) (x a) ∧ |1 - lam / b a| < δ) ∧
        δ ^ 2 * form K.dim K.get (fun i => z i - ∑ a, r a * x a i) (fun i => z i - ∑ a, r a * x a i) ≤ C * (h + litErr method) ^ 2 := by
  classical
  obtain ⟨C, hC0, hC⟩ := C147_residual (H := H) (A := A) (Lm := Lm) hs0 hL0 hL1 hc hg0 htau hal hκ hB hM hE
  refine ⟨C, hC0, fun m pn l hr hsp hA h h0 hhH hh method fa S D Dx Dy F Fx Fy lam K G z d' d hrot hD hF hlam hpr hd' hdd δ hδ hδ1 => ?_⟩
  have hres := hC m pn l hr hsp hA h h0 hhH hh method fa S D Dx Dy F Fx Fy lam K G z d' d hrot hD hF hlam hpr hd' hdd
  have hsym := C78_symmetric hr hsp.good hpr.stiff
  obtain ⟨_, p, μ, hm⟩ := modal_exists hsym (fun i _ j _ => (C30_symmetric hpr.geo).1 i j) S hpr.stable
  have key := modes_span hm hsym hpr.supp (by positivity) hδ hres
  let Q := {a // |1 + lam * μ a| < δ}
  let e : Fin (Fintype.card Q) ≃ Q := (Fintype.equivFin Q).symm
  refine ⟨Fintype.card Q, fun a => -1 / μ (e a).1, fun a => form K.dim K.get (p (e a).1) z, fun a => p (e a).1, fun a => ?_, ?_⟩
  · obtain ⟨h1, h2⟩ := modal_close hδ1 (e a).2
    exact ⟨modal_mode hm h1, h2⟩
  · have e1 : ∀ i, ∑ a, form K.dim K.get (p (e a).1) z * p (e a).1 i = ∑ a with |1 + lam * μ a| < δ, form K.dim K.get (p a) z * p a i := fun i => by
      rw [Equiv.sum_comp e (fun a : Q => form K.dim K.get (p a.1) z * p a.1 i)]
      exact (Finset.sum_subtype (univ.filter fun a => |1 + lam * μ a| < δ) (fun a => by simp) (fun a => form K.dim K.get (p a) z * p a i)).symm
    simp only [e1]
    exact key

/-- a positive definite form is at least a multiple of the squares -/
theorem gram_least {k : ℕ} (E : Fin k → Fin k → ℝ) (h : ∀ c : Fin k → ℝ, (∃ i, c i ≠ 0) → 0 < ∑ i, ∑ j, c i * c j * E i j) : ∃ γ, 0 < γ ∧ ∀ c : Fin k → ℝ, γ * ∑ i, c i ^ 2 ≤ ∑ i, ∑ j, c i * c j * E i j := by
  have hcl : IsClosed {c : Fin k → ℝ | ∑ i, c i ^ 2 = 1} := isClosed_eq (by fun_prop) continuous_const
  have hsub : {c : Fin k → ℝ | ∑ i, c i ^ 2 = 1} ⊆ Metric.closedBall 0 1 := fun c hc => by
    rw [mem_closedBall_zero_iff, pi_norm_le_iff_of_nonneg zero_le_one]
    intro i
    have := Finset.single_le_sum (f := fun i => c i ^ 2) (fun i _ => sq_nonneg (c i)) (mem_univ i)
    rw [Real.norm_eq_abs]
    exact (sq_le_one_iff_abs_le_one _).1 (this.trans (le_of_eq hc))
  have hco : IsCompact {c : Fin k → ℝ | ∑ i, c i ^ 2 = 1} := (isCompact_closedBall 0 1).of_isClosed_subset hcl hsub
  have hnz : ∀ c : Fin k → ℝ, 0 < ∑ i, c i ^ 2 → ∃ i, c i ≠ 0 := fun c hc => by
    by_contra h0
    push Not at h0
    rw [Finset.sum_eq_zero fun i _ => by rw [h0 i]; ring] at hc
    exact lt_irrefl _ hc
  rcases Set.eq_empty_or_nonempty {c : Fin k → ℝ | ∑ i, c i ^ 2 = 1} with he | hne
  · refine ⟨1, one_pos, fun c => ?_⟩
    rcases (Finset.sum_nonneg fun i _ => sq_nonneg (c i)).eq_or_lt with h0 | h0
    · have hz : ∀ i, c i = 0 := fun i => by
        have := (Finset.sum_eq_zero_iff_of_nonneg fun i _ => sq_nonneg (c i)).1 h0.symm i (mem_univ _)
        exact pow_eq_zero_iff two_ne_zero |>.1 this
      simp [hz]
    · exfalso
      have : (fun i => c i / √(∑ i, c i ^ 2)) ∈ {c : Fin k → ℝ | ∑ i, c i ^ 2 = 1} := by
        change ∑ i, (c i / √(∑ i, c i ^ 2)) ^ 2 = 1
        simp only [div_pow, Real.sq_sqrt h0.le]
        rw [← Finset.sum_div, div_self h0.ne']
      rw [he] at this
      exact this
  · obtain ⟨c0, hc0, hmin⟩ := hco.exists_isMinOn hne (f := fun c => ∑ i, ∑ j, c i * c j * E i j) (by fun_prop)
    refine ⟨∑ i, ∑ j, c0 i * c0 j * E i j, h c0 (hnz c0 (by rw [show ∑ i, c0 i ^ 2 = 1 from hc0]; exact one_pos)), fun c => ?_⟩
    rcases (Finset.sum_nonneg fun i _ => sq_nonneg (c i)).eq_or_lt with h0 | h0
    · have hz : ∀ i, c i = 0 := fun i => by
        have := (Finset.sum_eq_zero_iff_of_nonneg fun i _ => sq_nonneg (c i)).1 h0.symm i (mem_univ _)
        exact pow_eq_zero_iff two_ne_zero |>.1 this
      simp [hz]
    · have h1 : (fun i => c i / √(∑ i, c i ^ 2)) ∈ {c : Fin k → ℝ | ∑ i, c i ^ 2 = 1} := by
        change ∑ i, (c i / √(∑ i, c i ^ 2)) ^ 2 = 1
        simp only [div_pow, Real.sq_sqrt h0.le]
        rw [← Finset.sum_div, div_self h0.ne']
      have h2 := isMinOn_iff.1 hmin _ h1
      have h3 : ∑ i, ∑ j, c i / √(∑ i, c i ^ 2) * (c j / √(∑ i, c i ^ 2)) * E i j = (∑ i, ∑ j, c i * c j * E i j) / ∑ i, c i ^ 2 := by
        rw [Finset.sum_div]
        refine Finset.sum_congr rfl fun i _ => ?_
        rw [Finset.sum_div]
        refine Finset.sum_congr rfl fun j _ => ?_
        rw [div_mul_div_comm, Real.mul_self_sqrt h0.le]; ring
      beta_reduce at h2
      rw [h3] at h2
      rwa [le_div_iff₀ h0] at h2

/-- forms close to a positive definite one -/
theorem gram_near {k : ℕ} {E E' : Fin k → Fin k → ℝ} {γ : ℝ} (hγ : 0 < γ) (h : ∀ c : Fin k → ℝ, γ * ∑ i, c i ^ 2 ≤ ∑ i, ∑ j, c i * c j * E i j) (hE : ∀ i j, |E' i j - E i j| ≤ γ / (2 * (k + 1)))
    (c : Fin k → ℝ) : γ / 2 * ∑ i, c i ^ 2 ≤ ∑ i, ∑ j, c i * c j * E' i j := by
  have h1 : |∑ i, ∑ j, c i * c j * E' i j - ∑ i, ∑ j, c i * c j * E i j| ≤ γ / (2 * (k + 1)) * (∑ i, |c i|) ^ 2 := by
    rw [← Finset.sum_sub_distrib, pow_two, Finset.sum_mul_sum, mul_sum]
    refine (Finset.abs_sum_le_sum_abs _ _).trans (Finset.sum_le_sum fun i _ => ?_)
    rw [← Finset.sum_sub_distrib, mul_sum]
    refine (Finset.abs_sum_le_sum_abs _ _).trans (Finset.sum_le_sum fun j _ => ?_)
    rw [← mul_sub, abs_mul, abs_mul, mul_comm]
    exact mul_le_mul_of_nonneg_right (hE i j) (by positivity)
  have h2 : (∑ i, |c i|) ^ 2 ≤ k * ∑ i, c i ^ 2 := by
    have := sq_sum_le_card_mul_sum_sq (s := (univ : Finset (Fin k))) (f := fun i => |c i|)
    simpa [Finset.card_univ, Fintype.card_fin, sq_abs] using this
  have h3 : γ / (2 * (k + 1)) * (∑ i, |c i|) ^ 2 ≤ γ / 2 * ∑ i, c i ^ 2 := by
    refine (mul_le_mul_of_nonneg_left h2 (by positivity)).trans ?_
    rw [← mul_assoc]
    refine mul_le_mul_of_nonneg_right ?_ (Finset.sum_nonneg fun i _ => sq_nonneg _)
    rw [div_mul_eq_mul_div, div_le_div_iff₀ (by positivity) two_pos]
    nlinarith
  have h4 := (abs_le.1 (h1.trans h3)).1
  have := h c
  linarith

/-- factors whose relative distance from `lam` tends to zero -/
theorem factor_tendsto {lam : ℝ} {b δ : ℕ → ℝ} (hδ : Tendsto δ atTop (nhds 0)) (h : ∀ᶠ n in atTop, |1 - lam / b n| ≤ δ n) : Tendsto b atTop (nhds lam) := by
  have q : Tendsto (fun n => lam / b n) atTop (nhds 1) := by
    have s2 : Tendsto (fun n => 1 - lam / b n) atTop (nhds 0) := squeeze_zero_norm' (h.mono fun n hn => by rwa [Real.norm_eq_abs]) hδ
    have := s2.const_sub 1
    rw [sub_zero] at this
    exact this.congr fun n => by ring
  have hl0 : lam ≠ 0 := fun h => by
    rw [h] at q
    simp only [zero_div] at q
    exact zero_ne_one (tendsto_nhds_unique tendsto_const_nhds q)
  have := (tendsto_const_nhds (x := lam)).div q one_ne_zero
  rw [div_one] at this
  refine this.congr fun n => ?_
  simp only [Pi.div_apply]
  rw [div_div_eq_mul_div, mul_div_cancel_left₀ _ hl0]

section
variable {Om : Set (ℝ × ℝ)} {l : ℝ × ℝ → Lam} {pn : Bool} {s : ℝ} {m : ℕ → Mesh} {L0 L1 c g tau : ℝ} {D Dx Dy : ℕ → ℝ × ℝ → ℝ} {B M lam : ℝ} {k : ℕ} {F Fx Fy : Fin k → ℕ → ℝ × ℝ → ℝ}

theorem modes_limit (hr : ∀ n, Reachable (m n)) (hg : ∀ n, GoodPlate (m n) pn) (hR : Refined Om l pn s m) (hs0 : 0 ≤ s) (hL0 : 0 ≤ L0) (hL1 : 0 ≤ L1) (hl : LamOn Om l L0 L1) (hc0 : 0 < c) (hg0 : 0 < g)
    (htau : 0 < tau) (hc : ∀ x ∈ Om, AtLeast c (l x)) (hsh : ∀ x ∈ Om, ShearAtLeast g (l x)) (ht : ∀ x ∈ Om, tau ≤ (l x).h) {al : ℝ} (hal : 0 ≤ al) {fa : Bool}
    (hB : 0 ≤ B) (hM : 0 ≤ M) (hD : FieldOn Om D Dx Dy B M) (hF : ∀ a, FieldOn Om (F a) (Fx a) (Fy a) B M) {h : ℕ → ℝ} (hh : ∀ n, Size (m n) (h n)) (h0 : Tendsto h atTop (nhds 0)) {S : ℕ → Set ℕ} {κ : ℝ} (hκ : 0 ≤ κ)
    (hS : ∀ n, RotHeld (m n) (S n) κ) {K G : ℕ → Mat} {z : Fin k → ℕ → ℕ → ℝ} {d' : ℕ → ℕ → ℝ} {d : ℕ → List ℝ}
    (hK : ∀ n, Stiffness (m n) pn "cell-based-no-smoothing" al fa (K n)) (hst : ∀ n, Stable (K n) (S n)) (hG : ∀ n, calcKG (calcK0 (m n) pn).1 (d n) pn = .ok (G n))
    (hpr : ∀ a n, ModeProblem (m n) pn l "cell-based-no-smoothing" al fa (S n) Dx Dy (F a) (Fx a) (Fy a) lam (K n) (G n) (z a n) (d n))
    (hd' : ∀ n, Nodal (m n) D (d' n)) {E : ℝ} (hE : 0 ≤ E) (hdd : ∀ᶠ n in atTop, form (K n).dim (K n).get (fun i => vec (d n) i - d' n i) (fun i => vec (d n) i - d' n i) ≤ E * |h n| ^ 2)
    (hind : ∀ r : Fin k → ℝ, (∃ a, r a ≠ 0) → 0 < ∑ a, ∑ b, r a * r b * (plateEnergy Om l (Fx a) (Fy a) (Fx b) (Fy b) + plateShear Om l (F a) (Fx a) (Fy a) (F b) (Fx b) (Fy b))) :
    ∃ b : ℕ → Fin k → ℝ, (∀ a, Tendsto (fun n => b n a) atTop (nhds lam)) ∧
      ∀ᶠ n in atTop, ∃ x : Fin k → ℕ → ℝ, (∀ a, BucklingMode (K n) (G n) (S n) (b n a) (x a)) ∧ ∀ a a', a ≠ a' → form (K n).dim (K n).get (x a) (x a') = 0 := by
  classical
  obtain ⟨C, hC0, hC⟩ := C147_residual (s := s) (L0 := L0) (L1 := L1) (c := c) (g := g) (tau := tau) (H := 1) (al := al) (κ := κ) (A := volume.real Om) (B := B) (M := M) (E := E) (Lm := |lam|)
    hs0 hL0 hL1 hc0 hg0 htau hal hκ hB hM hE
  obtain ⟨γ, hγ, hgram⟩ := gram_least _ hind
  have t2 := fun a b => C122_stiffness hr hR hL1 hl htau ht hal hM (hF a) (hF b) hK (fun n => (hpr a n).nodal) (fun n => (hpr b n).nodal)
  have habs := h0.abs
  rw [abs_zero] at habs
  obtain ⟨δ, hδ⟩ : ∃ δ : ℕ → ℝ, δ = fun n => (2 * k * C / γ + 1) * (|h n| + 1 / ((n : ℝ) + 1)) := ⟨_, rfl⟩
  have hδpos : ∀ n, 0 < δ n := fun n => by rw [hδ]; positivity
  have hδ0 : Tendsto δ atTop (nhds 0) := by
    have := (habs.add tendsto_one_div_add_atTop_nhds_zero_nat).const_mul (2 * k * C / γ + 1)
    rw [add_zero, mul_zero] at this
    rw [hδ]
    exact this
  have hnear : ∀ᶠ n in atTop, ∀ a b, |form (K n).dim (K n).get (z a n) (z b n) - (plateEnergy Om l (Fx a) (Fy a) (Fx b) (Fy b) + plateShear Om l (F a) (Fx a) (Fy a) (F b) (Fx b) (Fy b))| ≤ γ / (2 * (k + 1)) := by
    rw [eventually_all]
    intro a
    rw [eventually_all]
    intro b
    have := (t2 a b).sub_const (plateEnergy Om l (Fx a) (Fy a) (Fx b) (Fy b) + plateShear Om l (F a) (Fx a) (Fy a) (F b) (Fx b) (Fy b))
    rw [sub_self] at this
    have := this.abs
    rw [abs_zero] at this
    exact this.eventually_le_const (by positivity)
  have ev : ∀ᶠ n in atTop, ∃ b : Fin k → ℝ, (∃ x : Fin k → ℕ → ℝ, (∀ a, BucklingMode (K n) (G n) (S n) (b a) (x a)) ∧ ∀ a a', a ≠ a' → form (K n).dim (K n).get (x a) (x a') = 0) ∧ ∀ a, |1 - lam / b a| < δ n := by
    filter_upwards [habs.eventually_le_const zero_lt_one, hdd, hnear, hδ0.eventually_le_const zero_lt_one] with n a1 a2 a3 a4
    have e1 : litErr "cell-based-no-smoothing" = 0 := by unfold litErr; rw [if_neg (by decide)]
    have hsub := fun e (he : e ∈ (m n).eids) => (hR.tiles n).sub he
    have hres : ∀ a v, Supported (K n).dim (S n) v → (form (K n).dim (K n).get v (z a n) + lam * form (K n).dim (G n).get v (z a n)) ^ 2 ≤ C * |h n| ^ 2 * form (K n).dim (K n).get v v := fun a v hv => by
      have := hC (m n) pn l (hr n) (refined_smooth hg hR hl hc hsh ht n) (hR.tiles n).area.le |h n| (abs_nonneg _) a1 (fun e he => (hh n e he).trans (le_abs_self _)) "cell-based-no-smoothing" fa (S n) D Dx Dy (F a) (Fx a)
        (Fy a) lam (K n) (G n) (z a n) (d' n) (d n) (hS n) (hD.smooth hsub) ((hF a).smooth hsub) le_rfl (hpr a n) (hd' n) (by rwa [e1, add_zero]) v hv
      rwa [e1, add_zero] at this
    have hsym := C78_symmetric (hr n) (hg n) (hK n)
    obtain ⟨_, p, μ, hm⟩ := modal_exists hsym (fun i _ j _ => (C30_symmetric (hG n)).1 i j) (S n) (hst n)
    have hlt : k * (C * |h n| ^ 2) < δ n ^ 2 * (γ / 2) := by
      obtain ⟨t, htt⟩ : ∃ t, t = |h n| + 1 / ((n : ℝ) + 1) := ⟨_, rfl⟩
      obtain ⟨q, hq⟩ : ∃ q, q = 2 * k * C / γ := ⟨_, rfl⟩
      have hq0 : 0 ≤ q := by rw [hq]; positivity
      have hqγ : q * γ = 2 * k * C := by rw [hq]; field_simp
      have hp : 0 < 1 / ((n : ℝ) + 1) := by positivity
      have ht0 : 0 < t := by rw [htt]; positivity
      have hht : |h n| ^ 2 ≤ t ^ 2 := pow_le_pow_left₀ (abs_nonneg _) (by rw [htt]; linarith) 2
      have hδn : δ n = (q + 1) * t := by rw [hδ, hq, htt]
      rw [hδn, mul_pow]
      have b1 : k * (C * |h n| ^ 2) ≤ k * (C * t ^ 2) := mul_le_mul_of_nonneg_left (mul_le_mul_of_nonneg_left hht hC0) (Nat.cast_nonneg _)
      have b2 : 0 < t ^ 2 * γ := by positivity
      have b3 : 0 ≤ q ^ 2 * t ^ 2 * γ := by positivity
      have b4 : 0 ≤ k * C * t ^ 2 := by positivity
      have b5 : (q + 1) ^ 2 * t ^ 2 * (γ / 2) = q ^ 2 * t ^ 2 * γ / 2 + (q * γ) * t ^ 2 + t ^ 2 * γ / 2 := by ring
      rw [b5, hqγ]
      linarith
    have hcard := modes_many hm hsym (z := fun a => z a n) (fun a => (hpr a n).supp) (by positivity) (hδpos n) hres (γ := γ / 2) (fun r => by
      refine (gram_near hγ hgram a3 r).trans (le_of_eq ?_)
      rw [(form_combo univ (K n).get r (fun a => z a n) _).1]
      refine Finset.sum_congr rfl fun i _ => ?_
      rw [(form_combo univ (K n).get r (fun a => z a n) _).2, mul_sum]
      exact Finset.sum_congr rfl fun j _ => by ring) hlt
    let e : Fin k ↪ {i // |1 + lam * μ i| < δ n} := (Fin.castLEEmb hcard).trans (Fintype.equivFin _).symm.toEmbedding
    refine ⟨fun a => -1 / μ (e a).1, ⟨fun a => p (e a).1, fun a => modal_mode hm (modal_close a4 (e a).2).1, fun a a' haa => hm.orth _ _ fun hh => haa (e.injective (Subtype.ext hh))⟩, fun a => (modal_close a4 (e a).2).2⟩
  refine ⟨fun n => if hn : ∃ b : Fin k → ℝ, (∃ x : Fin k → ℕ → ℝ, (∀ a, BucklingMode (K n) (G n) (S n) (b a) (x a)) ∧ ∀ a a', a ≠ a' → form (K n).dim (K n).get (x a) (x a') = 0) ∧ ∀ a, |1 - lam / b a| < δ n
    then hn.choose else 0, fun a => factor_tendsto hδ0 (ev.mono fun n hn => ?_), ev.mono fun n hn => ?_⟩
  · simp only [dif_pos hn]
    exact (hn.choose_spec.2 a).le
  · simp only [dif_pos hn]
    exact hn.choose_spec.1

/-- C148: if `k` independent modes of the plate theory have the factor `lam`, then on fine meshes `k` computed factors with orthogonal modes are close to `lam` -/
theorem C148_multiple (hr : ∀ n, Reachable (m n)) (hg : ∀ n, GoodPlate (m n) pn) (hR : Refined Om l pn s m) (hs0 : 0 ≤ s) (hL0 : 0 ≤ L0) (hL1 : 0 ≤ L1) (hl : LamOn Om l L0 L1) (hc0 : 0 < c) (hg0 : 0 < g)
    (htau : 0 < tau) (hc : ∀ x ∈ Om, AtLeast c (l x)) (hsh : ∀ x ∈ Om, ShearAtLeast g (l x)) (ht : ∀ x ∈ Om, tau ≤ (l x).h) {al : ℝ} (hal : 0 ≤ al) {fa : Bool}
    (hB : 0 ≤ B) (hM : 0 ≤ M) (hD : FieldOn Om D Dx Dy B M) (hF : ∀ a, FieldOn Om (F a) (Fx a) (Fy a) B M) (hmode : ∀ a, BucklingField Om l Dx Dy (F a) (Fx a) (Fy a) lam) {S : ℕ → Set ℕ} {R : ℝ}
    (hS : ∀ n, Guided (m n) (S n) R) (hrim : ∀ a n, FreeRim (m n) l Dx Dy (F a) (Fx a) (Fy a) lam (S n)) {K G : ℕ → Mat} (hK : ∀ n, Stiffness (m n) pn "cell-based-no-smoothing" al fa (K n)) {d : ℕ → List ℝ}
    (hd : ∀ n, (d n).length = 5 * (m n).nids.length) (hdD : ∀ n, Nodal (m n) D (vec (d n))) (hG : ∀ n, calcKG (calcK0 (m n) pn).1 (d n) pn = .ok (G n)) {z : Fin k → ℕ → ℕ → ℝ} (hz : ∀ a n, Nodal (m n) (F a) (z a n))
    (hzS : ∀ a n, Supported (K n).dim (S n) (z a n))
    (hind : ∀ r : Fin k → ℝ, (∃ a, r a ≠ 0) → 0 < ∑ a, ∑ b, r a * r b * (plateEnergy Om l (Fx a) (Fy a) (Fx b) (Fy b) + plateShear Om l (F a) (Fx a) (Fy a) (F b) (Fx b) (Fy b))) :
    ∃ b : ℕ → Fin k → ℝ, (∀ a, Tendsto (fun n => b n a) atTop (nhds lam)) ∧
      ∀ᶠ n in atTop, ∃ x : Fin k → ℕ → ℝ, (∀ a, BucklingMode (K n) (G n) (S n) (b n a) (x a)) ∧ ∀ a a', a ≠ a' → form (K n).dim (K n).get (x a) (x a') = 0 := by
  obtain ⟨h, hh, h0⟩ := hR.size
  refine modes_limit hr hg hR hs0 hL0 hL1 hl hc0 hg0 htau hc hsh ht hal hB hM hD hF hh h0 (by positivity : 0 ≤ 2 + 96 * R ^ 2) (fun n => guided_rotHeld (hr n).wf (hg n).proper (hg n).planar (hS n).rotGuided)
    hK (fun n => C143_stable (hr n) (hg n) (hS n) hal (hK n)) hG (fun a n => ⟨hK n, C143_stable (hr n) (hg n) (hS n) hal (hK n),
    C147_weak (hr n) (hg n).proper (hg n).planar (fun e he => (hR.tiles n).sub he) (hmode a) (hrim a n), hz a n, hzS a n, hd n, hG n⟩) hdD le_rfl (Eventually.of_forall fun n => ?_) hind
  simp [form]

/-- C148: the same for the pre-stress computed from a load case whose solution in the plate theory is `D` -/
theorem C148_multiple_computed (hr : ∀ n, Reachable (m n)) (hg : ∀ n, GoodPlate (m n) pn) (hR : Refined Om l pn s m) (hs0 : 0 ≤ s) (hL0 : 0 ≤ L0) (hL1 : 0 ≤ L1) (hl : LamOn Om l L0 L1) (hc0 : 0 < c) (hg0 : 0 < g)
    (htau : 0 < tau) (hc : ∀ x ∈ Om, AtLeast c (l x)) (hsh : ∀ x ∈ Om, ShearAtLeast g (l x)) (ht : ∀ x ∈ Om, tau ≤ (l x).h) {al : ℝ} (hal : 0 ≤ al) {fa : Bool}
    (hB : 0 ≤ B) (hM : 0 ≤ M) (hD : FieldOn Om D Dx Dy B M) (hF : ∀ a, FieldOn Om (F a) (Fx a) (Fy a) B M) (hmode : ∀ a, BucklingField Om l Dx Dy (F a) (Fx a) (Fy a) lam) {S : ℕ → Set ℕ} {R : ℝ}
    (hS : ∀ n, Guided (m n) (S n) R) (hrim : ∀ a n, FreeRim (m n) l Dx Dy (F a) (Fx a) (Fy a) lam (S n)) {K G : ℕ → Mat} {d : ℕ → List ℝ} {Sp : ℕ → Set ℕ} {κ : ℝ} (hκ : 0 ≤ κ) (hSp : ∀ n, RotHeld (m n) (Sp n) κ) {z' f : ℕ → ℕ → ℝ}
    (hpr : ∀ n, StaticProblem (m n) pn l "cell-based-no-smoothing" al fa (Sp n) D Dx Dy (K n) (z' n) (f n) (vec (d n)))
    (hd : ∀ n, (d n).length = 5 * (m n).nids.length) (hG : ∀ n, calcKG (calcK0 (m n) pn).1 (d n) pn = .ok (G n)) {z : Fin k → ℕ → ℕ → ℝ} (hz : ∀ a n, Nodal (m n) (F a) (z a n))
    (hzS : ∀ a n, Supported (K n).dim (S n) (z a n))
    (hind : ∀ r : Fin k → ℝ, (∃ a, r a ≠ 0) → 0 < ∑ a, ∑ b, r a * r b * (plateEnergy Om l (Fx a) (Fy a) (Fx b) (Fy b) + plateShear Om l (F a) (Fx a) (Fy a) (F b) (Fx b) (Fy b))) :
    ∃ b : ℕ → Fin k → ℝ, (∀ a, Tendsto (fun n => b n a) atTop (nhds lam)) ∧
      ∀ᶠ n in atTop, ∃ x : Fin k → ℕ → ℝ, (∀ a, BucklingMode (K n) (G n) (S n) (b n a) (x a)) ∧ ∀ a a', a ≠ a' → form (K n).dim (K n).get (x a) (x a') = 0 := by
  obtain ⟨h, hh, h0⟩ := hR.size
  obtain ⟨C, hC0, hC⟩ := C132_rate (s := s) (L0 := L0) (L1 := L1) (c := c) (g := g) (tau := tau) (H := 1) (al := al) (κ := κ) (A := volume.real Om) (S := B) (M := M) hs0 hL0 hL1 hc0 hg0 htau hal hκ hB hM
  refine modes_limit hr hg hR hs0 hL0 hL1 hl hc0 hg0 htau hc hsh ht hal hB hM hD hF hh h0 (by positivity : 0 ≤ 2 + 96 * R ^ 2) (fun n => guided_rotHeld (hr n).wf (hg n).proper (hg n).planar (hS n).rotGuided)
    (fun n => (hpr n).stiff) (fun n => C143_stable (hr n) (hg n) (hS n) hal (hpr n).stiff) hG (fun a n => ⟨(hpr n).stiff, C143_stable (hr n) (hg n) (hS n) hal (hpr n).stiff,
    C147_weak (hr n) (hg n).proper (hg n).planar (fun e he => (hR.tiles n).sub he) (hmode a) (hrim a n), hz a n, hzS a n, hd n, hG n⟩) (fun n => (hpr n).nodal) hC0 ?_ hind
  have habs := h0.abs
  rw [abs_zero] at habs
  filter_upwards [habs.eventually_le_const zero_lt_one] with n hn
  have hsub := fun e (he : e ∈ (m n).eids) => (hR.tiles n).sub he
  have e1 : litErr "cell-based-no-smoothing" = 0 := by unfold litErr; rw [if_neg (by decide)]
  have key := (hC (m n) pn l (hr n) (refined_smooth hg hR hl hc hsh ht n) (hR.tiles n).area.le |h n| (abs_nonneg _) hn (fun e he => (hh n e he).trans (le_abs_self _)) "cell-based-no-smoothing" fa (Sp n) D Dx Dy (K n)
    (z' n) (f n) (vec (d n)) (hSp n) (hD.smooth hsub) (hpr n)).1
  rwa [e1, add_zero] at key

/-- C148: along refinements the nodal values of a smooth mode of the plate theory tend, in energy, to the span of the computed modes with factors close to its factor -/
theorem C148_shape {F Fx Fy : ℕ → ℝ × ℝ → ℝ} (hr : ∀ n, Reachable (m n)) (hg : ∀ n, GoodPlate (m n) pn) (hR : Refined Om l pn s m) (hs0 : 0 ≤ s) (hL0 : 0 ≤ L0) (hL1 : 0 ≤ L1) (hl : LamOn Om l L0 L1) (hc0 : 0 < c) (hg0 : 0 < g)
    (htau : 0 < tau) (hc : ∀ x ∈ Om, AtLeast c (l x)) (hsh : ∀ x ∈ Om, ShearAtLeast g (l x)) (ht : ∀ x ∈ Om, tau ≤ (l x).h) {al : ℝ} (hal : 0 ≤ al) {fa : Bool}
    (hB : 0 ≤ B) (hM : 0 ≤ M) (hD : FieldOn Om D Dx Dy B M) (hF : FieldOn Om F Fx Fy B M) (hmode : BucklingField Om l Dx Dy F Fx Fy lam) {S : ℕ → Set ℕ} {R : ℝ} (hS : ∀ n, Guided (m n) (S n) R)
    (hrim : ∀ n, FreeRim (m n) l Dx Dy F Fx Fy lam (S n)) {K G : ℕ → Mat} (hK : ∀ n, Stiffness (m n) pn "cell-based-no-smoothing" al fa (K n)) {d : ℕ → List ℝ}
    (hd : ∀ n, (d n).length = 5 * (m n).nids.length) (hdD : ∀ n, Nodal (m n) D (vec (d n))) (hG : ∀ n, calcKG (calcK0 (m n) pn).1 (d n) pn = .ok (G n)) {z : ℕ → ℕ → ℝ} (hz : ∀ n, Nodal (m n) F (z n))
    (hzS : ∀ n, Supported (K n).dim (S n) (z n)) {δ η : ℝ} (hδ : 0 < δ) (hδ1 : δ ≤ 1) (hη : 0 < η) :
    ∀ᶠ n in atTop, ∃ (N : ℕ) (b r : Fin N → ℝ) (x : Fin N → ℕ → ℝ), (∀ a, BucklingMode (K n) (G n) (S n) (b a) (x a) ∧ |1 - lam / b a| < δ) ∧
      form (K n).dim (K n).get (fun i => z n i - ∑ a, r a * x a i) (fun i => z n i - ∑ a, r a * x a i) ≤ η := by
  obtain ⟨h, hh, h0⟩ := hR.size
  obtain ⟨C, hC0, hC⟩ := C148_span (s := s) (L0 := L0) (L1 := L1) (c := c) (g := g) (tau := tau) (H := 1) (al := al) (κ := 2 + 96 * R ^ 2) (A := volume.real Om) (B := B) (M := M) (E := 0) (Lm := |lam|)
    hs0 hL0 hL1 hc0 hg0 htau hal (by positivity) hB hM le_rfl
  have habs := h0.abs
  rw [abs_zero] at habs
  have h1 := (habs.pow 2).const_mul C
  rw [zero_pow two_ne_zero, mul_zero] at h1
  filter_upwards [habs.eventually_le_const zero_lt_one, h1.eventually_le_const (show 0 < δ ^ 2 * η by positivity)] with n a1 a2
  have e1 : litErr "cell-based-no-smoothing" = 0 := by unfold litErr; rw [if_neg (by decide)]
  have hsub := fun e (he : e ∈ (m n).eids) => (hR.tiles n).sub he
  obtain ⟨N, b, r, x, k1, k2⟩ := hC (m n) pn l (hr n) (refined_smooth hg hR hl hc hsh ht n) (hR.tiles n).area.le |h n| (abs_nonneg _) a1 (fun e he => (hh n e he).trans (le_abs_self _)) "cell-based-no-smoothing" fa (S n)
    D Dx Dy F Fx Fy lam (K n) (G n) (z n) (vec (d n)) (d n) (guided_rotHeld (hr n).wf (hg n).proper (hg n).planar (hS n).rotGuided) (hD.smooth hsub) (hF.smooth hsub) le_rfl
    ⟨hK n, C143_stable (hr n) (hg n) (hS n) hal (hK n), C147_weak (hr n) (hg n).proper (hg n).planar hsub hmode (hrim n), hz n, hzS n, hd n, hG n⟩ (hdD n) (by simp [form]) δ hδ hδ1
  rw [e1, add_zero] at k2
  exact ⟨N, b, r, x, k1, le_of_mul_le_mul_left (k2.trans a2) (by positivity)⟩

end

/-! ### concrete cases: the hinged unit square pushed together -/

/-- Pushed together along `x`: for all numbers of half waves `p`, `q` there are computed factors that tend to the factor of the theory, and the mode of the theory is close
to the computed modes with factors near it. -/
example (pn : Bool) (p q : ℕ) (hp : 0 < p) (hq : 0 < q) : ∃ (m : ℕ → Mesh) (K G : ℕ → Mat) (b : ℕ → ℝ), (∀ n, GridMesh (n + 1) (fun _ => exIso) pn (m n)) ∧
    (∀ n, Stiffness (m n) pn "cell-based-no-smoothing" (1 / 10) false (K n)) ∧ (∀ n, calcKG (calcK0 (m n) pn).1 (gridList (n + 1) (squeeze 1 0)) pn = .ok (G n)) ∧
    Tendsto b atTop (nhds (hinFactor p q 1 0)) ∧ (∀ᶠ n in atTop, ∃ x, BucklingMode (K n) (G n) (gridHinge (n + 1)) (b n) x) ∧
    ∀ᶠ n in atTop, ∃ (N : ℕ) (b r : Fin N → ℝ) (x : Fin N → ℕ → ℝ), (∀ a, BucklingMode (K n) (G n) (gridHinge (n + 1)) (b a) (x a) ∧ |1 - hinFactor p q 1 0 / b a| < 1 / 1000) ∧
      form (K n).dim (K n).get (fun i => gridVals (n + 1) (hin p q) i - ∑ a, r a * x a i) (fun i => gridVals (n + 1) (hin p q) i - ∑ a, r a * x a i) ≤ 1 / 1000 := by
  choose m h using fun n => gridMesh_exists (Nat.succ_pos n) (fun _ => exLam_stiff one_pos one_pos one_pos one_pos) pn
  choose K0 K hK0 hK hG using fun n => (h n).made (Or.inr rfl) (1 / 10) false
  have hl : ∀ n, (gridList (n + 1) (squeeze 1 0)).length = 5 * (m n).nids.length := fun n => by rw [gridList_length, (h n).count]
  choose G hG using fun n => hG n _ (hl n)
  have hc : ∀ x ∈ unitSquare, AtLeast 1 ((fun _ => exIso : ℝ × ℝ → Lam) x) := fun _ _ => exLam_least le_rfl le_rfl
  have hsh : ∀ x ∈ unitSquare, ShearAtLeast 1 ((fun _ => exIso : ℝ × ℝ → Lam) x) := fun _ _ => exIso_shearLeast
  have hth : ∀ x ∈ unitSquare, 1 ≤ ((fun _ => exIso : ℝ × ℝ → Lam) x).h := fun _ _ => le_rfl
  obtain ⟨B, hB0, hBp⟩ : ∃ B : ℝ, 1 ≤ B ∧ hinMax p q * ((p + q + 1) * π) ≤ B := ⟨max 1 _, le_max_left _ _, le_max_right _ _⟩
  obtain ⟨M, hM0, hMp⟩ : ∃ M : ℝ, 0 ≤ M ∧ hinMax p q * ((p + q + 1) * π) * (2 * π * (p + q + 1)) ≤ M := ⟨max 0 _, le_max_left _ _, le_max_right _ _⟩
  have hD := squeeze_on (a := 1) (b := 0) (B := B) (M := M) (by rwa [abs_one]) (by rw [abs_zero]; linarith) hM0
  have hF := hin_on p q hBp hMp
  have hp' : (0:ℝ) < p := by exact_mod_cast hp
  have hq' : (0:ℝ) < q := by exact_mod_cast hq
  have hlam : 0 < hinFactor p q 1 0 := div_pos (hinLoad_pos hp) (mul_pos (hinTop_pos p q) (by positivity))
  have hmode := hin_mode p q (a := 1) (b := 0) (by rw [one_mul, zero_mul, add_zero]; positivity)
  have hray := C147_rayleigh (fun n => (h n).reach) (fun n => (h n).good) (grid_refined h) (by norm_num) zero_le_one le_rfl exUniform_on one_pos one_pos one_pos hc hsh hth (by norm_num) (by linarith)
    hM0 hD hF hmode (fun n => (h n).guided (Nat.succ_pos n)) (fun n => (h n).hin_rim (Nat.succ_pos n) p q 1 0 _) hK hl (fun n => (h n).nodal_list _) hG (fun n => (h n).nodal (hin p q))
    (fun n => hin_supported p q (Nat.succ_pos n) _)
  have hpos : 0 < plateEnergy unitSquare (fun _ => exIso) (hinX p q) (hinY p q) (hinX p q) (hinY p q) + plateShear unitSquare (fun _ => exIso) (hin p q) (hinX p q) (hinY p q) (hin p q) (hinX p q) (hinY p q) := by
    refine lt_of_lt_of_eq ?_ hray.symm
    refine lt_of_lt_of_eq ?_ (congrArg _ (squeeze_geometric 1 0 p q p q).symm)
    rw [mul_neg, neg_mul, neg_neg]
    refine mul_pos hlam (square_pos (x := (1 / (4 * p), 1 / (2 * q))) ?_ (fun x => by rw [one_mul, zero_mul, add_zero]; exact mul_self_nonneg _) ?_ ?_)
    · have := hwave_cont p q
      unfold hinX hinY
      fun_prop
    · have h1 : (1:ℝ) ≤ p := by exact_mod_cast hp
      have h2 : (1:ℝ) ≤ q := by exact_mod_cast hq
      unfold unitSquare
      rw [interior_prod_eq, interior_Icc]
      exact ⟨⟨by positivity, by rw [div_lt_one (by positivity)]; linarith⟩, by positivity, by rw [div_lt_one (by positivity)]; linarith⟩
    · rw [one_mul, zero_mul, add_zero, ← pow_two]
      refine pow_ne_zero 2 (mul_ne_zero (by simp only [hinAmp, if_true]; exact (hinTop_pos p q).ne') (mul_ne_zero (by positivity) ?_))
      unfold hwave wave
      have a1 : π * (p * (1 / (4 * p))) + (((if 2 = 3 then 1 else 0) + 1 : ℕ) : ℝ) * (π / 2) = π - π / 4 := by
        have : (p : ℝ) * (1 / (4 * p)) = 1 / 4 := by field_simp
        rw [this]; norm_num; ring
      have a2 : π * (q * (1 / (2 * q))) + ((if 2 = 4 then 1 else 0 : ℕ) : ℝ) * (π / 2) = π / 2 := by
        have : (q : ℝ) * (1 / (2 * q)) = 1 / 2 := by field_simp
        rw [this]; norm_num; ring
      rw [a1, a2, Real.sin_pi_sub, Real.sin_pi_div_four, Real.sin_pi_div_two]
      positivity
  obtain ⟨b, hb, hx⟩ := C147_limit (fun n => (h n).reach) (fun n => (h n).good) (grid_refined h) (by norm_num) zero_le_one le_rfl exUniform_on one_pos one_pos one_pos hc hsh hth (by norm_num) (by linarith)
    hM0 hD hF hmode (fun n => (h n).guided (Nat.succ_pos n)) (fun n => (h n).hin_rim (Nat.succ_pos n) p q 1 0 _) hK hl (fun n => (h n).nodal_list _) hG (fun n => (h n).nodal (hin p q))
    (fun n => hin_supported p q (Nat.succ_pos n) _) hpos
  refine ⟨m, K, G, b, h, hK, hG, hb, hx, ?_⟩
  exact C148_shape (fun n => (h n).reach) (fun n => (h n).good) (grid_refined h) (by norm_num) zero_le_one le_rfl exUniform_on one_pos one_pos one_pos hc hsh hth (by norm_num) (by linarith)
    hM0 hD hF hmode (fun n => (h n).guided (Nat.succ_pos n)) (fun n => (h n).hin_rim (Nat.succ_pos n) p q 1 0 _) hK hl (fun n => (h n).nodal_list _) hG (fun n => (h n).nodal (hin p q))
    (fun n => hin_supported p q (Nat.succ_pos n) _) (by norm_num) (by norm_num) (by norm_num)

/-- Pushed together along both axes: the modes with one and two half waves and with two and one have the same factor, and two computed factors with orthogonal modes
tend to it. -/
example (pn : Bool) : ∃ (m : ℕ → Mesh) (K G : ℕ → Mat) (b : ℕ → Fin 2 → ℝ), (∀ n, GridMesh (n + 1) (fun _ => exIso) pn (m n)) ∧
    (∀ n, Stiffness (m n) pn "cell-based-no-smoothing" (1 / 10) false (K n)) ∧ (∀ n, calcKG (calcK0 (m n) pn).1 (gridList (n + 1) (squeeze 1 1)) pn = .ok (G n)) ∧
    (∀ a, Tendsto (fun n => b n a) atTop (nhds (hinFactor 1 2 1 1))) ∧
    ∀ᶠ n in atTop, ∃ x : Fin 2 → ℕ → ℝ, (∀ a, BucklingMode (K n) (G n) (gridHinge (n + 1)) (b n a) (x a)) ∧ ∀ a a', a ≠ a' → form (K n).dim (K n).get (x a) (x a') = 0 := by
  choose m h using fun n => gridMesh_exists (Nat.succ_pos n) (fun _ => exLam_stiff one_pos one_pos one_pos one_pos) pn
  choose K0 K hK0 hK hG using fun n => (h n).made (Or.inr rfl) (1 / 10) false
  have hl : ∀ n, (gridList (n + 1) (squeeze 1 1)).length = 5 * (m n).nids.length := fun n => by rw [gridList_length, (h n).count]
  choose G hG using fun n => hG n _ (hl n)
  have hc : ∀ x ∈ unitSquare, AtLeast 1 ((fun _ => exIso : ℝ × ℝ → Lam) x) := fun _ _ => exLam_least le_rfl le_rfl
  have hsh : ∀ x ∈ unitSquare, ShearAtLeast 1 ((fun _ => exIso : ℝ × ℝ → Lam) x) := fun _ _ => exIso_shearLeast
  have hth : ∀ x ∈ unitSquare, 1 ≤ ((fun _ => exIso : ℝ × ℝ → Lam) x).h := fun _ _ => le_rfl
  obtain ⟨B, hB0, hB1, hB2⟩ : ∃ B : ℝ, 1 ≤ B ∧ hinMax 1 2 * (((1 : ℕ) + (2 : ℕ) + 1) * π) ≤ B ∧ hinMax 2 1 * (((2 : ℕ) + (1 : ℕ) + 1) * π) ≤ B :=
    ⟨max 1 (max _ _), le_max_left _ _, (le_max_left _ _).trans (le_max_right _ _), (le_max_right _ _).trans (le_max_right _ _)⟩
  obtain ⟨M, hM0, hM1, hM2⟩ : ∃ M : ℝ, 0 ≤ M ∧ hinMax 1 2 * (((1 : ℕ) + (2 : ℕ) + 1) * π) * (2 * π * ((1 : ℕ) + (2 : ℕ) + 1)) ≤ M ∧ hinMax 2 1 * (((2 : ℕ) + (1 : ℕ) + 1) * π) * (2 * π * ((2 : ℕ) + (1 : ℕ) + 1)) ≤ M :=
    ⟨max 0 (max _ _), le_max_left _ _, (le_max_left _ _).trans (le_max_right _ _), (le_max_right _ _).trans (le_max_right _ _)⟩
  have hD := squeeze_on (a := 1) (b := 1) (B := B) (M := M) (by rwa [abs_one]) (by rwa [abs_one]) hM0
  obtain ⟨p, hpp⟩ : ∃ p : Fin 2 → ℕ, p = ![1, 2] := ⟨_, rfl⟩
  obtain ⟨q, hqq⟩ : ∃ q : Fin 2 → ℕ, q = ![2, 1] := ⟨_, rfl⟩
  have hF : ∀ a, FieldOn unitSquare (hin (p a) (q a)) (hinX (p a) (q a)) (hinY (p a) (q a)) B M := fun a => by
    rw [hpp, hqq]
    fin_cases a
    · exact hin_on 1 2 hB1 hM1
    · exact hin_on 2 1 hB2 hM2
  have hfac : ∀ a, hinFactor (p a) (q a) 1 1 = hinFactor 1 2 1 1 := fun a => by
    rw [hpp, hqq]
    fin_cases a
    · rfl
    · simp only [hinFactor, hinLoad, hinTop, Matrix.cons_val_one, Matrix.cons_val_zero, Fin.mk_one]
      congr 1 <;> push_cast <;> ring
  have hlam : 0 < hinFactor 1 2 1 1 := div_pos (hinLoad_pos one_pos) (mul_pos (hinTop_pos 1 2) (by norm_num))
  have hmode : ∀ a, BucklingField unitSquare (fun _ => exIso) (squeezeX 1) (squeezeY 1) (hin (p a) (q a)) (hinX (p a) (q a)) (hinY (p a) (q a)) (hinFactor 1 2 1 1) := fun a => by
    rw [← hfac a]
    refine hin_mode _ _ ?_
    rw [hpp, hqq]
    fin_cases a <;> norm_num
  have hw := fun a b => C147_virtual (fun n => (h n).reach) (fun n => (h n).good) (grid_refined h) (by norm_num) zero_le_one le_rfl exUniform_on one_pos one_pos one_pos hc hsh hth (by norm_num) (by linarith)
    hM0 hD (hF b) (hF a) (hmode b) (fun n => (h n).guided (Nat.succ_pos n)) (fun n => (h n).hin_rim (Nat.succ_pos n) (p b) (q b) 1 1 _) hK hl (fun n => (h n).nodal_list _) hG (fun n => (h n).nodal (hin (p b) (q b)))
    (fun n => hin_supported (p b) (q b) (Nat.succ_pos n) _) (fun n => (h n).nodal (hin (p a) (q a))) (fun n => hin_supported (p a) (q a) (Nat.succ_pos n) _)
  have hcont : ∀ a, Continuous (hinX (p a) (q a) 2) ∧ Continuous (hinY (p a) (q a) 2) := fun a => by
    have := hwave_cont (p a) (q a)
    unfold hinX hinY
    constructor <;> fun_prop
  have hcO : IsCompact unitSquare := isCompact_Icc.prod isCompact_Icc
  have hind : ∀ r : Fin 2 → ℝ, (∃ a, r a ≠ 0) → 0 < ∑ a, ∑ b, r a * r b * (plateEnergy unitSquare (fun _ => exIso) (hinX (p a) (q a)) (hinY (p a) (q a)) (hinX (p b) (q b)) (hinY (p b) (q b)) +
      plateShear unitSquare (fun _ => exIso) (hin (p a) (q a)) (hinX (p a) (q a)) (hinY (p a) (q a)) (hin (p b) (q b)) (hinX (p b) (q b)) (hinY (p b) (q b))) := fun r hr => by
    have e1 : ∑ a, ∑ b, r a * r b * (plateEnergy unitSquare (fun _ => exIso) (hinX (p a) (q a)) (hinY (p a) (q a)) (hinX (p b) (q b)) (hinY (p b) (q b)) +
        plateShear unitSquare (fun _ => exIso) (hin (p a) (q a)) (hinX (p a) (q a)) (hinY (p a) (q a)) (hin (p b) (q b)) (hinX (p b) (q b)) (hinY (p b) (q b))) =
        hinFactor 1 2 1 1 * ∫ x in unitSquare, ((∑ a, r a * hinX (p a) (q a) 2 x) ^ 2 + (∑ a, r a * hinY (p a) (q a) 2 x) ^ 2) := by
      have e2 : ∀ x, (∑ a, r a * hinX (p a) (q a) 2 x) ^ 2 + (∑ a, r a * hinY (p a) (q a) 2 x) ^ 2 =
          ∑ a, ∑ b, r a * r b * (1 * (hinX (p a) (q a) 2 x * hinX (p b) (q b) 2 x) + 1 * (hinY (p a) (q a) 2 x * hinY (p b) (q b) 2 x)) := fun x => by
        simp only [Fin.sum_univ_two]; ring
      simp only [e2]
      have hi : ∀ a b, IntegrableOn (fun x => r a * r b * (1 * (hinX (p a) (q a) 2 x * hinX (p b) (q b) 2 x) + 1 * (hinY (p a) (q a) 2 x * hinY (p b) (q b) 2 x))) unitSquare := fun a b => by
        obtain ⟨c1, c2⟩ := hcont a
        obtain ⟨c3, c4⟩ := hcont b
        exact ContinuousOn.integrableOn_compact hcO (Continuous.continuousOn (by fun_prop))
      rw [integral_finsetSum _ fun a _ => integrable_finsetSum _ fun b _ => hi a b, mul_sum]
      refine Finset.sum_congr rfl fun a _ => ?_
      rw [integral_finsetSum _ fun b _ => hi a b, mul_sum]
      refine Finset.sum_congr rfl fun b _ => ?_
      rw [integral_const_mul]
      refine (congrArg _ (hw a b)).trans ?_
      refine (congrArg (fun t => r a * r b * (-hinFactor 1 2 1 1 * t)) (squeeze_geometric 1 1 (p a) (q a) (p b) (q b))).trans ?_
      ring
    rw [e1]
    have hsum : Continuous fun x => (∑ a, r a * hinX (p a) (q a) 2 x) ^ 2 + (∑ a, r a * hinY (p a) (q a) 2 x) ^ 2 := by
      have c1 := fun a => (hcont a).1
      have c2 := fun a => (hcont a).2
      fun_prop
    have hin8 : ∀ s t : ℝ, 0 < s → s < 1 → 0 < t → t < 1 → (s, t) ∈ interior unitSquare := fun s t h1 h2 h3 h4 => by
      unfold unitSquare
      rw [interior_prod_eq, interior_Icc]
      exact ⟨⟨h1, h2⟩, h3, h4⟩
    have hval : ∀ x, ∑ a, r a * hinX (p a) (q a) 2 x = r 0 * hinX 1 2 2 x + r 1 * hinX 2 1 2 x := fun x => by
      rw [Fin.sum_univ_two, hpp, hqq]; rfl
    have hne : ∀ x, ∑ a, r a * hinX (p a) (q a) 2 x ≠ 0 → (∑ a, r a * hinX (p a) (q a) 2 x) ^ 2 + (∑ a, r a * hinY (p a) (q a) 2 x) ^ 2 ≠ 0 := fun x hx => by positivity
    refine mul_pos hlam ?_
    by_cases h1 : r 1 = 0
    · have h0 : r 0 ≠ 0 := by
        obtain ⟨a, ha⟩ := hr
        fin_cases a
        · exact ha
        · exact absurd h1 ha
      refine square_pos hsum (fun x => by positivity) (hin8 (1 / 4) (1 / 4) (by norm_num) (by norm_num) (by norm_num) (by norm_num)) (hne _ ?_)
      rw [hval, h1, zero_mul, add_zero]
      refine mul_ne_zero h0 (mul_ne_zero (by simp only [hinAmp, if_true]; exact (hinTop_pos 1 2).ne') (mul_ne_zero (by positivity) ?_))
      unfold hwave wave
      rw [show π * (((1 : ℕ) : ℝ) * (1 / 4)) + (((if 2 = 3 then 1 else 0) + 1 : ℕ) : ℝ) * (π / 2) = π - π / 4 by norm_num; ring,
        show π * (((2 : ℕ) : ℝ) * (1 / 4)) + ((if 2 = 4 then 1 else 0 : ℕ) : ℝ) * (π / 2) = π / 2 by norm_num; ring, Real.sin_pi_sub, Real.sin_pi_div_four, Real.sin_pi_div_two]
      positivity
    · refine square_pos hsum (fun x => by positivity) (hin8 (1 / 8) (1 / 2) (by norm_num) (by norm_num) (by norm_num) (by norm_num)) (hne _ ?_)
      have z0 : hinX 1 2 2 (1 / 8, 1 / 2) = 0 := by
        unfold hinX hwave wave
        rw [show π * (((2 : ℕ) : ℝ) * (1 / 2)) + ((if 2 = 4 then 1 else 0 : ℕ) : ℝ) * (π / 2) = π by norm_num, Real.sin_pi]
        ring
      rw [hval, z0, mul_zero, zero_add]
      refine mul_ne_zero h1 (mul_ne_zero (by simp only [hinAmp, if_true]; exact (hinTop_pos 2 1).ne') (mul_ne_zero (by positivity) ?_))
      unfold hwave wave
      rw [show π * (((2 : ℕ) : ℝ) * (1 / 8)) + (((if 2 = 3 then 1 else 0) + 1 : ℕ) : ℝ) * (π / 2) = π - π / 4 by norm_num; ring,
        show π * (((1 : ℕ) : ℝ) * (1 / 2)) + ((if 2 = 4 then 1 else 0 : ℕ) : ℝ) * (π / 2) = π / 2 by norm_num; ring, Real.sin_pi_sub, Real.sin_pi_div_four, Real.sin_pi_div_two]
      positivity
  obtain ⟨b, hb, hx⟩ := C148_multiple (fun n => (h n).reach) (fun n => (h n).good) (grid_refined h) (by norm_num) zero_le_one le_rfl exUniform_on one_pos one_pos one_pos hc hsh hth (by norm_num) (by linarith)
    hM0 hD hF hmode (fun n => (h n).guided (Nat.succ_pos n)) (fun a n => (h n).hin_rim (Nat.succ_pos n) (p a) (q a) 1 1 _) hK hl (fun n => (h n).nodal_list _) hG (fun a n => (h n).nodal (hin (p a) (q a)))
    (fun a n => hin_supported (p a) (q a) (Nat.succ_pos n) _) hind
  exact ⟨m, K, G, b, h, hK, hG, hb, hx⟩

end Meshless
