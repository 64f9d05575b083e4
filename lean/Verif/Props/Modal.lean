import Verif.Lemmas.ModalPert
import Verif.Spec.Modal
import Verif.Props.Buckling
import Mathlib.LinearAlgebra.Dimension.Finite
import Mathlib.LinearAlgebra.FiniteDimensional.Lemmas

/-!
C111-C112: complete sets of buckling modes and counting of factors.
-/

set_option autoImplicit false

namespace Meshless
open Spec Finset

theorem form_zero_left {n : ℕ} {A : ℕ → ℕ → ℝ} {v u : ℕ → ℝ} (hv : ∀ i < n, v i = 0) : form n A v u = 0 := by
  rw [form_congr (v' := fun _ => 0) (u' := u) hv (fun _ _ => rfl)]; simp [form]

theorem form_add_right' {n : ℕ} (A : ℕ → ℕ → ℝ) (v u u' : ℕ → ℝ) : form n A v (fun i => u i + u' i) = form n A v u + form n A v u' := by
  unfold form
  rw [← Finset.sum_add_distrib]
  refine Finset.sum_congr rfl fun i _ => ?_
  rw [← Finset.sum_add_distrib]
  exact Finset.sum_congr rfl fun j _ => by ring

theorem form_add_left' {n : ℕ} (A : ℕ → ℕ → ℝ) (v u u' : ℕ → ℝ) : form n A (fun i => u i + u' i) v = form n A u v + form n A u' v := by
  unfold form
  rw [← Finset.sum_add_distrib]
  refine Finset.sum_congr rfl fun i _ => ?_
  rw [← Finset.sum_add_distrib]
  exact Finset.sum_congr rfl fun j _ => by ring

/-- free rows of `G r = 0`: `r` does no work with supported displacements -/
theorem form_rows_zero {n : ℕ} {A : ℕ → ℕ → ℝ} {S : Set ℕ} {v r : ℕ → ℝ} (hv : Supported n S v) (hr : ∀ i < n, i ∉ S → ∑ j ∈ range n, A i j * r j = 0) : form n A v r = 0 := by
  rw [form_work (f := fun _ => 0) hv hr]; simp

/-- the members of a modal basis with `μ ≠ 0` are a complete list of modes -/
theorem modeList_of {K G : Mat} {S : Set ℕ} {T : Type} [Fintype T] {p : T → ℕ → ℝ} {μ : T → ℝ} (h : Modal K.dim K.get G.get S T p μ) :
    ∃ (N : ℕ) (c : Fin N → ℝ) (x : Fin N → ℕ → ℝ), ModeList K G S N c x := by
  classical
  let Q := {a : T // μ a ≠ 0}
  let e : Fin (Fintype.card Q) ≃ Q := (Fintype.equivFin Q).symm
  refine ⟨Fintype.card Q, fun a => -1 / μ (e a).1, fun a => p (e a).1, fun a => ⟨h.nonzero _, h.sup _, fun i hi hS => ?_⟩, fun a => h.self _,
    fun a b hab => h.orth _ _ fun hh => hab (e.injective (Subtype.ext hh)), fun v hv => ?_⟩
  · have h1 := h.row (e a).1 hi hS
    have h2 := (e a).2
    have : ∑ j ∈ range K.dim, (K.get i j + -1 / μ (e a).1 * G.get i j) * p (e a).1 j =
        ∑ j ∈ range K.dim, K.get i j * p (e a).1 j + -1 / μ (e a).1 * ∑ j ∈ range K.dim, G.get i j * p (e a).1 j := by
      rw [Finset.mul_sum, ← Finset.sum_add_distrib]; exact Finset.sum_congr rfl fun j _ => by ring
    rw [this, h1]
    field_simp
    ring
  · refine ⟨fun i => ∑ a with μ a = 0, form K.dim K.get (p a) v * p a i, fun i hi hS => ?_, fun i hi hS => ?_, fun i hi => ?_⟩
    · exact Finset.sum_eq_zero fun a _ => by rw [h.sup a i hi hS, mul_zero]
    · simp only [Finset.mul_sum]
      rw [Finset.sum_comm]
      refine Finset.sum_eq_zero fun a ha => ?_
      have h1 := h.row a hi hS
      rw [(mem_filter.1 ha).2, zero_mul] at h1
      rw [Finset.sum_congr rfl fun j _ => show G.get i j * (form K.dim K.get (p a) v * p a j) = form K.dim K.get (p a) v * (G.get i j * p a j) by ring, ← Finset.mul_sum, h1, mul_zero]
    · rw [h.expand v hv i hi, ← Finset.sum_filter_add_sum_filter_not univ (fun a => μ a = 0)]
      congr 1
      rw [Finset.sum_subtype (p := fun a => μ a ≠ 0) _ (by simp) fun a => form K.dim K.get (p a) v * p a i]
      exact (Equiv.sum_comp e fun a : Q => form K.dim K.get (p a.1) v * p a.1 i).symm

section
variable {m : Mesh} (hr : Reachable m) {pn : Bool} (hg : GoodPlate m pn) {method : String} {al : ℝ} {fa : Bool} {K G : Mat} (hK : Stiffness m pn method al fa K)
  {S : Set ℕ} (hS : Stable K S) {d : List ℝ} (hG : calcKG (calcK0 m pn).1 d pn = .ok G)
include hr hg hK hS hG

/-! ### C111: the modes are complete -/

/-- C111: there is a complete list of buckling modes -/
theorem C111_complete : ∃ (N : ℕ) (c : Fin N → ℝ) (x : Fin N → ℕ → ℝ), ModeList K G S N c x := by
  obtain ⟨_, p, μ, h⟩ := modal_exists (C78_symmetric hr hg hK) (fun i _ j _ => (C30_symmetric hG).1 i j) S hS
  exact modeList_of h

variable {N : ℕ} {c : Fin N → ℝ} {x : Fin N → ℕ → ℝ} (hl : ModeList K G S N c x)
include hl

/-- the factors of a list are not zero -/
theorem modeList_ne (a : Fin N) : c a ≠ 0 := by
  intro h0
  have h1 := mode_form (hl.mode a) (hl.mode a).2.1
  rw [h0, zero_mul, add_zero] at h1
  exact absurd h1 (hS _ (hl.mode a).2.1 (hl.mode a).1).ne'

theorem modeList_work (a : Fin N) {v : ℕ → ℝ} (hv : Supported K.dim S v) : form K.dim G.get (x a) v = - form K.dim K.get (x a) v / c a := by
  have h1 := mode_form (hl.mode a) hv
  rw [form_symm (C78_symmetric hr hg hK) v, form_symm (fun i _ j _ => (C30_symmetric hG).1 i j) v] at h1
  rw [eq_div_iff (modeList_ne hr hg hK hS hG hl a)]
  linarith

/-- C111: every factor is in the list, and every mode is a combination of the modes of the list with the same factor -/
theorem C111_every {c' : ℝ} {y : ℕ → ℝ} (hy : BucklingMode K G S c' y) : (∃ a, c a = c') ∧
    ∀ i < K.dim, y i = ∑ a with c a = c', form K.dim K.get (x a) y * x a i := by
  classical
  have hzero : ∀ a, c a ≠ c' → form K.dim K.get (x a) y = 0 := fun a ha => (C83_orthogonal hr hg hK hG (hl.mode a) hy ha).1
  obtain ⟨r, hr1, hr2, hr3⟩ := hl.all y hy.2.1
  -- the remainder has no energy
  have hrx : ∀ a, form K.dim K.get (x a) r = 0 := by
    intro a
    have h1 := modeList_work hr hg hK hS hG hl a hr1
    rw [form_rows_zero (hl.mode a).2.1 hr2] at h1
    have := modeList_ne hr hg hK hS hG hl a
    field_simp at h1
    linarith
  have hKr : form K.dim K.get r y = 0 := by
    have h1 := mode_form hy hr1
    rw [form_symm (fun i _ j _ => (C30_symmetric hG).1 i j) r, form_rows_zero hy.2.1 hr2, mul_zero, add_zero] at h1
    exact h1
  have hrr : form K.dim K.get r r = 0 := by
    rw [form_congr (v' := r) (fun _ _ => rfl) hr3, form_add_right', form_expand_right] at hKr
    rw [Finset.sum_eq_zero fun a _ => by rw [form_symm (C78_symmetric hr hg hK) r, hrx a, mul_zero], add_zero] at hKr
    exact hKr
  have hr0 : ∀ i < K.dim, r i = 0 := by
    by_contra hcon
    push Not at hcon
    exact absurd hrr (hS r hr1 hcon).ne'
  have hex : ∀ i < K.dim, y i = ∑ a with c a = c', form K.dim K.get (x a) y * x a i := by
    intro i hi
    rw [hr3 i hi, hr0 i hi, zero_add]
    symm
    refine Finset.sum_subset (Finset.filter_subset _ _) fun a _ ha => ?_
    rw [hzero a (by simpa using ha), zero_mul]
  refine ⟨?_, hex⟩
  by_contra hcon
  push Not at hcon
  obtain ⟨i, hi, hne⟩ := hy.1
  refine hne ?_
  rw [hex i hi]
  refine Finset.sum_eq_zero fun a ha => absurd (mem_filter.1 ha).2 (hcon a)

/-- C111: there are at most as many modes as free transverse displacements -/
theorem C111_count : N ≤ {i | i < K.dim ∧ i % 5 = 2 ∧ i ∉ S}.ncard := by
  classical
  rw [show {i | i < K.dim ∧ i % 5 = 2 ∧ i ∉ S} = (((range K.dim).filter fun i => i % 5 = 2 ∧ i ∉ S : Finset ℕ) : Set ℕ) by ext i; simp, Set.ncard_coe_finset]
  set W := (range K.dim).filter fun i => i % 5 = 2 ∧ i ∉ S with hW
  let φ : (Fin N → ℝ) →ₗ[ℝ] (W → ℝ) :=
    { toFun := fun α i => ∑ a, α a * x a i.1
      map_add' := fun α β => by funext i; simp [add_mul, Finset.sum_add_distrib]
      map_smul' := fun s α => by funext i; simp [Finset.mul_sum, mul_assoc] }
  have hinj : Function.Injective φ := by
    rw [injective_iff_map_eq_zero]
    intro α hα
    funext b
    let v : ℕ → ℝ := fun i => ∑ a, α a * x a i
    have hv : Supported K.dim S v := fun i hi hiS => Finset.sum_eq_zero fun a _ => by rw [(hl.mode a).2.1 i hi hiS, mul_zero]
    have h0 : ∀ i < K.dim, i % 5 = 2 → v i = 0 := by
      intro i hi hw
      by_cases hiS : i ∈ S
      · exact hv i hi hiS
      · exact congrFun hα ⟨i, mem_filter.2 ⟨mem_range.2 hi, hw, hiS⟩⟩
    have hz : form K.dim G.get (x b) v = 0 := by
      unfold form
      refine Finset.sum_eq_zero fun i _ => Finset.sum_eq_zero fun j hj => ?_
      by_cases hw : j % 5 = 2
      · rw [h0 j (mem_range.1 hj) hw, mul_zero]
      · rw [(C30_symmetric hG).2 i j (Or.inr hw)]; ring
    rw [modeList_work hr hg hK hS hG hl b hv] at hz
    have hne := modeList_ne hr hg hK hS hG hl b
    have hk : form K.dim K.get (x b) v = α b := by
      rw [form_expand_right, Finset.sum_eq_single b]
      · rw [hl.unit, mul_one]
      · intro a _ hab; rw [hl.orth b a (Ne.symm hab), mul_zero]
      · intro hn; exact absurd (mem_univ _) hn
    rw [hk] at hz
    field_simp at hz
    simpa using hz
  have := LinearMap.finrank_le_finrank_of_injective hinj
  simpa using this

/-! ### C112: counting factors below a load level -/

/-- energy of a displacement at load level `t`, by modes -/
theorem loaded_energy (t : ℝ) {v : ℕ → ℝ} (hv : Supported K.dim S v) : ∃ r, Supported K.dim S r ∧ 
    form K.dim (fun i j => K.get i j + t * G.get i j) v v = form K.dim K.get r r + ∑ a, form K.dim K.get (x a) v ^ 2 * (1 - t / c a) := by
  classical
  obtain ⟨r, hr1, hr2, hr3⟩ := hl.all v hv
  have hsK := C78_symmetric hr hg hK
  have hsG : ∀ i < K.dim, ∀ j < K.dim, G.get i j = G.get j i := fun i _ j _ => (C30_symmetric hG).1 i j
  have hrx : ∀ a, form K.dim K.get (x a) r = 0 := by
    intro a
    have h1 := modeList_work hr hg hK hS hG hl a hr1
    rw [form_rows_zero (hl.mode a).2.1 hr2] at h1
    have := modeList_ne hr hg hK hS hG hl a
    field_simp at h1
    linarith
  refine ⟨r, hr1, ?_⟩
  rw [form_one_add]
  have h1 : form K.dim K.get v v = form K.dim K.get r r + ∑ a, form K.dim K.get (x a) v ^ 2 := by
    rw [form_congr (v' := v) (fun _ _ => rfl) hr3, form_add_right', form_expand_right]
    congr 1
    · rw [form_congr (u' := r) hr3 (fun _ _ => rfl), form_add_left', form_expand_left, Finset.sum_eq_zero fun a _ => by rw [hrx a, mul_zero], add_zero]
    · exact Finset.sum_congr rfl fun a _ => by rw [form_symm hsK v, pow_two]
  have h2 : form K.dim G.get v v = ∑ a, form K.dim K.get (x a) v ^ 2 * (-1 / c a) := by
    rw [form_congr (v' := v) (fun _ _ => rfl) hr3, form_add_right', form_expand_right, form_rows_zero hv hr2, zero_add]
    refine Finset.sum_congr rfl fun a _ => ?_
    rw [form_symm hsG v, modeList_work hr hg hK hS hG hl a hv]
    ring
  rw [h1, h2, Finset.mul_sum, add_assoc, ← Finset.sum_add_distrib]
  congr 1
  exact Finset.sum_congr rfl fun a _ => by ring

/-- C112: at load level `t` the loaded plate `K + t G` has negative energy on the span of the modes with factors between 0 and `t` -/
theorem C112_below {t : ℝ} (α : Fin N → ℝ) (hα : ∀ a, α a ≠ 0 → 0 < c a ∧ c a < t) (hne : ∃ a, α a ≠ 0) :
    form K.dim (fun i j => K.get i j + t * G.get i j) (fun i => ∑ a, α a * x a i) (fun i => ∑ a, α a * x a i) < 0 := by
  classical
  have hsK := C78_symmetric hr hg hK
  have hsG : ∀ i < K.dim, ∀ j < K.dim, G.get i j = G.get j i := fun i _ j _ => (C30_symmetric hG).1 i j
  have hsup : Supported K.dim S fun i => ∑ a, α a * x a i := fun i hi hiS => Finset.sum_eq_zero fun a _ => by rw [(hl.mode a).2.1 i hi hiS, mul_zero]
  have hk : ∀ b, form K.dim K.get (x b) (fun i => ∑ a, α a * x a i) = α b := by
    intro b
    rw [form_expand_right, Finset.sum_eq_single b]
    · rw [hl.unit, mul_one]
    · intro a _ hab; rw [hl.orth b a (Ne.symm hab), mul_zero]
    · intro hn; exact absurd (mem_univ _) hn
  rw [form_one_add, form_expand_left, form_expand_left]
  simp only [modeList_work hr hg hK hS hG hl _ hsup, hk]
  rw [Finset.mul_sum, ← Finset.sum_add_distrib]
  obtain ⟨b, hb⟩ := hne
  have hle : ∀ a, α a * α a + t * (α a * (-α a / c a)) ≤ 0 := by
    intro a
    by_cases h0 : α a = 0
    · rw [h0]; simp
    · obtain ⟨h1, h2⟩ := hα a h0
      have : α a * α a + t * (α a * (-α a / c a)) = α a * α a * (c a - t) / c a := by field_simp; ring
      rw [this]
      exact div_nonpos_of_nonpos_of_nonneg (mul_nonpos_of_nonneg_of_nonpos (mul_self_nonneg _) (by linarith)) h1.le
  have hlt : α b * α b + t * (α b * (-α b / c b)) < 0 := by
    obtain ⟨h1, h2⟩ := hα b hb
    have : α b * α b + t * (α b * (-α b / c b)) = α b * α b * (c b - t) / c b := by field_simp; ring
    rw [this]
    exact div_neg_of_neg_of_pos (mul_neg_of_pos_of_neg (mul_self_pos.2 hb) (by linarith)) h1
  exact Finset.sum_neg' (fun a _ => hle a) ⟨b, mem_univ _, hlt⟩

/-- C112: and on no space of more dimensions: if every combination of the displacements `v 1, .., v k`, not all coefficients zero, has negative energy at
load level `t`, there are at least `k` factors between 0 and `t`, counted as often as they are listed -/
theorem C112_count {t : ℝ} (ht : 0 < t) {k : ℕ} {v : Fin k → ℕ → ℝ} (hv : ∀ a, Supported K.dim S (v a))
    (hneg : ∀ α : Fin k → ℝ, (∃ a, α a ≠ 0) → form K.dim (fun i j => K.get i j + t * G.get i j) (fun i => ∑ a, α a * v a i) (fun i => ∑ a, α a * v a i) < 0) :
    k ≤ (univ.filter fun a => 0 < c a ∧ c a < t).card := by
  classical
  set W := univ.filter fun a => 0 < c a ∧ c a < t with hW
  let φ : (Fin k → ℝ) →ₗ[ℝ] (W → ℝ) :=
    { toFun := fun α b => ∑ a, α a * form K.dim K.get (x b.1) (v a)
      map_add' := fun α β => by funext i; simp [add_mul, Finset.sum_add_distrib]
      map_smul' := fun s α => by funext i; simp [Finset.mul_sum, mul_assoc] }
  have hinj : Function.Injective φ := by
    rw [injective_iff_map_eq_zero]
    intro α hα
    by_contra hcon
    have hne : ∃ a, α a ≠ 0 := by
      by_contra hh
      push Not at hh
      exact hcon (funext hh)
    have h1 := hneg α hne
    have hsup : Supported K.dim S fun i => ∑ a, α a * v a i := fun i hi hiS => Finset.sum_eq_zero fun a _ => by rw [hv a i hi hiS, mul_zero]
    obtain ⟨r, hr1, hr2⟩ := loaded_energy hr hg hK hS hG hl t hsup
    rw [hr2] at h1
    have h2 : 0 ≤ form K.dim K.get r r := by
      by_cases h0 : ∃ i < K.dim, r i ≠ 0
      · exact (hS r hr1 h0).le
      · push Not at h0; rw [form_zero_left h0]
    have h3 : 0 ≤ ∑ a, form K.dim K.get (x a) (fun i => ∑ a, α a * v a i) ^ 2 * (1 - t / c a) := by
      refine Finset.sum_nonneg fun a _ => ?_
      by_cases ha : a ∈ W
      · have : form K.dim K.get (x a) (fun i => ∑ a, α a * v a i) = 0 := by
          rw [form_expand_right]; exact congrFun hα ⟨a, ha⟩
        rw [this]; simp
      · refine mul_nonneg (sq_nonneg _) ?_
        have hca := modeList_ne hr hg hK hS hG hl a
        rw [sub_nonneg]
        rcases lt_or_gt_of_ne hca with h | h
        · exact (div_nonpos_of_nonneg_of_nonpos ht.le h.le).trans zero_le_one
        · rw [div_le_one h]
          by_contra h'
          exact ha (mem_filter.2 ⟨mem_univ _, h, not_le.1 h'⟩)
    linarith
  have := LinearMap.finrank_le_finrank_of_injective hinj
  simpa using this

end

/-- C111, C112: the square with its left side clamped, shortened in `x`: a complete list of modes exists, it has one or two of them (two free transverse
displacements), and above the first factor at least one lies below the load level -/
example : ∃ K G N c x, Stiffness exSq false "cell-based" (1 / 5) true K ∧ calcKG (calcK0 exSq false).1 exPress false = .ok G ∧
    ModeList K G {x | x < 5 ∨ 15 ≤ x} N c x ∧ 1 ≤ N ∧ N ≤ 2 ∧
    ∃ t, 0 < t ∧ 1 ≤ (univ.filter fun a => 0 < c a ∧ c a < t).card := by
  obtain ⟨K, hK⟩ := exSq_stiffness (Or.inl rfl) false (1 / 5) true
  obtain ⟨G, hG, hw⟩ := exSq_work false (-1)
  have hS := held_stable (exMesh_reachable ..) (exSq_good false) (by norm_num) hK exSq_held
  obtain ⟨hdim, _⟩ := stiffness_energy (exMesh_reachable ..) (exSq_good false) hK
  rw [exMesh_nids] at hdim
  have hd20 : K.dim = 20 := hdim
  have hz : Supported K.dim {x | x < 5 ∨ 15 ≤ x} exSlope := by
    intro i _ hi
    simp only [Set.mem_ofPred_eq] at hi
    unfold exSlope
    rw [if_neg]; omega
  obtain ⟨N, c, x, hl⟩ := C111_complete (exMesh_reachable ..) (exSq_good false) hK hS hG
  have hN := C111_count (exMesh_reachable ..) (exSq_good false) hK hS hG hl
  have h2 : {i | i < K.dim ∧ i % 5 = 2 ∧ i ∉ {x : ℕ | x < 5 ∨ 15 ≤ x}} = (({7, 12} : Finset ℕ) : Set ℕ) := by
    ext i
    rw [hd20]
    simp only [Set.mem_ofPred_eq, Finset.coe_insert, Finset.coe_singleton, Set.mem_insert_iff, Set.mem_singleton_iff]
    omega
  rw [h2, Set.ncard_coe_finset] at hN
  -- at a high load level the slope has negative energy
  set t := form K.dim K.get exSlope exSlope + 1 with ht
  have hpos : 0 < t := by
    have := (hS exSlope hz ?_)
    · linarith
    · by_contra hcon
      push Not at hcon
      have h0 := form_zero_left (A := G.get) (u := exSlope) hcon
      rw [hd20, hw] at h0
      norm_num at h0
  have hc := C112_count (exMesh_reachable ..) (exSq_good false) hK hS hG hl hpos (k := 1) (v := fun _ => exSlope) (fun _ => hz) (fun α ⟨a, ha⟩ => by
    obtain rfl : a = 0 := Subsingleton.elim _ _
    simp only [Fin.sum_univ_one]
    rw [form_smul, form_one_add]
    have h1 : form K.dim G.get exSlope exSlope = -1 := by rw [hd20, hw]
    rw [h1]
    have := mul_self_pos.2 ha
    nlinarith)
  have : 1 ≤ N := by
    have h3 : (univ.filter fun a => 0 < c a ∧ c a < t).card ≤ (univ : Finset (Fin N)).card := Finset.card_le_card (Finset.filter_subset _ _)
    rw [Finset.card_univ, Fintype.card_fin] at h3
    omega
  exact ⟨K, G, N, c, x, hK, hG, hl, this, hN, t, hpos, hc⟩

end Meshless
