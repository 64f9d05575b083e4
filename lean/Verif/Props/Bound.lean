import Verif.Spec.Bound
import Verif.Lemmas.MagSum
import Verif.Props.Ieee
import Verif.Props.Patch
import Verif.Lemmas.Turn

/-! C153: an explicit bound on the rounding errors of `calc_k0` in double precision. -/

set_option autoImplicit false

namespace Meshless
open Spec

private theorem bound_of {f : Fmt} (hf : Double f) {p : Prof} (hp0 : p.ok = true) (hc : p.chk = true) (hM : 0 ≤ p.M ∧ p.M ≤ 2 ^ 60) (hE : 0 ≤ p.E ∧ p.E ≤ 2 ^ 60)
    {m : Mesh} (hr : Reachable m) (hp : Proper m) (hg : Planar m) {pn : Bool} (hh : HasProps m pn) (hne : m.nids ≠ []) {a b d : ℝ} (ha : Medium a) (hb : Medium b) (hd : Medium d)
    (hl : LamsUpTo m pn a b d) (hfit : Fits m p.σ p.G) (hlen : m.ekeys.length ≤ 2 ^ 38) : K0Within f m pn a b d p.E p.M := by
  have hM' : 0 ≤ (p.M : ℝ) ∧ (p.M : ℝ) ≤ 2 ^ 60 := ⟨by exact_mod_cast hM.1, by exact_mod_cast hM.2⟩
  have hE' : 0 ≤ (p.E : ℝ) ∧ (p.E : ℝ) ≤ 2 ^ 60 := ⟨by exact_mod_cast hE.1, by exact_mod_cast hE.2⟩
  obtain ⟨K, F, h1, h2, h3, h4⟩ := calcK0_tot hf hp0 hc hM' hE' hr.wf hp hg hh hne ha hb hd hl hfit hlen
  refine ⟨K, F, h1, h2, h3, fun i hi j hj r hr s hs => ?_⟩
  obtain ⟨v, e1, _, e3⟩ := h4 i hi j hj r hr s hs
  refine ⟨v, e1, e3.trans_eq ?_⟩
  rw [u64_eq]; push_cast; ring

/-- close to the origin -/
def pr8 : Prof := ⟨1 / 4, 8, 1400, 37000, 100, 1200, 6144, 470000000⟩
def pr64 : Prof := ⟨1 / 4, 64, 78000, 2100000, 630, 8000, 6144, 26000000000⟩
def pr1000 : Prof := ⟨1 / 4, 1000, 19000000, 490000000, 9400, 130000, 6144, 6100000000000⟩
def prThin : Prof := ⟨1 / 20, 64, 78000, 11000000, 720, 44000, 153600, 3200000000000⟩
theorem pr8_ok : pr8.ok = true := by decide +kernel
theorem pr64_ok : pr64.ok = true := by decide +kernel
theorem pr1000_ok : pr1000.ok = true := by decide +kernel
theorem prThin_ok : prThin.ok = true := by decide +kernel
theorem pr8_chk : pr8.chk = true := by decide +kernel
theorem pr64_chk : pr64.chk = true := by decide +kernel
theorem pr1000_chk : pr1000.chk = true := by decide +kernel
theorem prThin_chk : prThin.chk = true := by decide +kernel

section
variable {f : Fmt} (hf : Double f) {m : Mesh} (hr : Reachable m) (hp : Proper m) (hg : Planar m) {pn : Bool} (hh : HasProps m pn) (hne : m.nids ≠ []) {a b d : ℝ}
  (ha : Medium a) (hb : Medium b) (hd : Medium d) (hl : LamsUpTo m pn a b d) (hlen : m.ekeys.length ≤ 2 ^ 38)
include hf hr hp hg hh hne ha hb hd hl hlen

/-- C153: triangles of area at least a quarter of `l²`, coordinates up to `8 l` -/
theorem C153_k0_error_8 (hfit : Fits m (1 / 4) 8) : K0Within f m pn a b d 470000000 6144 := by
  have := bound_of hf pr8_ok pr8_chk (by norm_num [pr8]) (by norm_num [pr8]) hr hp hg hh hne ha hb hd hl (by norm_num [pr8]; exact hfit) hlen
  norm_num [pr8] at this ⊢
  exact this

/-- C153: coordinates up to `64 l` -/
theorem C153_k0_error_64 (hfit : Fits m (1 / 4) 64) : K0Within f m pn a b d 26000000000 6144 := by
  have := bound_of hf pr64_ok pr64_chk (by norm_num [pr64]) (by norm_num [pr64]) hr hp hg hh hne ha hb hd hl (by norm_num [pr64]; exact hfit) hlen
  norm_num [pr64] at this ⊢
  exact this

/-- C153: coordinates up to `1000 l` -/
theorem C153_k0_error_1000 (hfit : Fits m (1 / 4) 1000) : K0Within f m pn a b d 6100000000000 6144 := by
  have := bound_of hf pr1000_ok pr1000_chk (by norm_num [pr1000]) (by norm_num [pr1000]) hr hp hg hh hne ha hb hd hl (by norm_num [pr1000]; exact hfit) hlen
  norm_num [pr1000] at this ⊢
  exact this

/-- C153: thinner triangles, of area at least a twentieth of `l²` -/
theorem C153_k0_error_thin (hfit : Fits m (1 / 20) 64) : K0Within f m pn a b d 3200000000000 153600 := by
  have := bound_of hf prThin_ok prThin_chk (by norm_num [prThin]) (by norm_num [prThin]) hr hp hg hh hne ha hb hd hl (by norm_num [prThin]; exact hfit) hlen
  norm_num [prThin] at this ⊢
  exact this

end

/-- C153: float64 is such a format -/
theorem C153_binary64 : Double Fmt.binary64 where
  u := le_of_eq (by show (2:ℝ)⁻¹ ^ 53 = _; norm_num)
  eta := by
    show (2:ℝ)⁻¹ ^ 1075 ≤ _
    rw [← zpow_natCast, inv_zpow', ]
    exact zpow_le_zpow_right₀ one_le_two (by norm_num)
  big := by
    show (2:ℝ) ^ (1023 : ℤ) ≤ (2 ^ 53 - 1) * 2 ^ 971
    have : (2:ℝ) ^ (1023 : ℤ) = 2 ^ 52 * 2 ^ 971 := by
      rw [← pow_add]
      exact zpow_natCast (2:ℝ) 1023
    rw [this]
    exact mul_le_mul_of_nonneg_right (by norm_num) (by positivity)

theorem medium_one : Medium 1 := ⟨by norm_num [zpow_neg], by norm_num⟩

/-- C153: the two-triangle square fits, with `l = 1` -/
theorem exSq_fits {σ G : ℝ} (hσ : σ ≤ 1 / 2) (hG : 1 ≤ G) : Fits exSq σ G := by
  intro k hk
  refine ⟨1, medium_one, fun t ht => ?_⟩
  have he := trias_mem (exMesh_reachable exIso exIso exIso exIso exIso exIso).wf (exMesh_proper ..) hk ht
  rw [exMesh_eids] at he
  simp only [List.mem_cons, List.not_mem_nil, or_false] at he
  refine ⟨fun i j hi hj => ?_, ?_, fun i hi => ?_⟩
  · unfold IsCorner at hi hj
    rcases he with rfl | rfl <;> simp only [exMesh_tria1, exMesh_tria2] at hi hj <;> rcases hi with rfl | rfl | rfl <;> rcases hj with rfl | rfl | rfl <;>
      simp only [nx, ny, exMesh_node1, exMesh_node2, exMesh_node3, exMesh_node4] <;> norm_num
  · have : triArea exSq t = 1 / 2 := by
      rcases he with rfl | rfl <;> simp only [triArea, sarea3, exMesh_tria1, exMesh_tria2, mean_single, nx, ny, exMesh_node1, exMesh_node2, exMesh_node3, exMesh_node4] <;> norm_num
    rw [this]; linarith
  · unfold IsCorner at hi
    rcases he with rfl | rfl <;> simp only [exMesh_tria1, exMesh_tria2] at hi <;> rcases hi with rfl | rfl | rfl <;>
      simp only [nx, ny, exMesh_node1, exMesh_node2, exMesh_node3, exMesh_node4] <;> norm_num <;>
      first | linarith | (refine ⟨?_, ?_⟩ <;> linarith) | (refine ⟨?_, ?_, ?_⟩ <;> linarith)

theorem exIso_upTo : Spec.Lam.UpTo exIso 1 1 1 := by
  intro i j
  fin_cases i <;> fin_cases j <;> simp [exIso, exLam]

theorem exSq_upTo (pn : Bool) : LamsUpTo exSq pn 1 1 1 := by
  have hw := (exMesh_reachable exIso exIso exIso exIso exIso exIso).wf
  have hp := exMesh_proper exIso exIso exIso exIso exIso exIso
  cases pn with
  | true =>
    unfold LamsUpTo
    rw [if_pos rfl]
    intro e he i hi p h
    have hu : InUse exSq true p := by unfold InUse; rw [if_pos rfl]; exact ⟨i, corner_mem hw hp.distinct he hi, h⟩
    rw [exSq_inUse hu]
    exact exIso_upTo
  | false =>
    unfold LamsUpTo
    rw [if_neg (by simp)]
    intro e he p h
    have hu : InUse exSq false p := by unfold InUse; rw [if_neg (by simp)]; exact ⟨e, he, h⟩
    rw [exSq_inUse hu]
    exact exIso_upTo

/-- in double precision every entry of k0 of the square is a number within `3e-6` of the exact one -/
example (pn : Bool) : ∃ K F, (calcK0 exSq pn).2 = .ok K ∧ (Fmt.binary64.calcK0 exSq pn).2.2 = .ok F ∧
    ∀ i ∈ exSq.nids, ∀ j ∈ exSq.nids, ∀ r < 5, ∀ s < 5, ∃ x, F.get (5 * exSq.nids.idxOf i + r) (5 * exSq.nids.idxOf j + s) = .fin x ∧
      |x - K.get (5 * exSq.nids.idxOf i + r) (5 * exSq.nids.idxOf j + s)| ≤ 3 / 1000000 := by
  obtain ⟨K, F, h1, h2, _, h3⟩ := C153_k0_error_8 C153_binary64 (exMesh_reachable exIso exIso exIso exIso exIso exIso) (exMesh_proper ..) (exMesh_planar ..)
    (exMesh_props _ _ _ _ _ _ pn) (by rw [exMesh_nids]; simp) medium_one medium_one medium_one (exSq_upTo pn) (by rw [exMesh_ekeys]; norm_num)
    (exSq_fits (by norm_num) (by norm_num))
  refine ⟨K, F, h1, h2, fun i hi j hj r hr s hs => ?_⟩
  obtain ⟨x, e1, e2⟩ := h3 i hi j hj r hr s hs
  refine ⟨x, e1, e2.trans ?_⟩
  have hn : ((contributions exSq i j : ℕ) : ℝ) ≤ 5 := by
    have : contributions exSq i j ≤ exSq.ekeys.length := List.countP_le_length
    rw [exMesh_ekeys] at this
    exact_mod_cast this
  have h0 : (0:ℝ) ≤ (contributions exSq i j : ℕ) := Nat.cast_nonneg _
  have hb : behind 1 1 1 r s = 1 := by unfold behind; split_ifs <;> rfl
  rw [hb, one_mul, div_le_iff₀ (by positivity)]
  generalize ((contributions exSq i j : ℕ) : ℝ) = n at hn h0
  nlinarith [mul_le_mul hn hn h0 (by norm_num)]

example (pn : Bool) := C153_k0_error_64 C153_binary64 (exMesh_reachable exIso exIso exIso exIso exIso exIso) (exMesh_proper ..) (exMesh_planar ..)
  (exMesh_props _ _ _ _ _ _ pn) (by rw [exMesh_nids]; simp) medium_one medium_one medium_one (exSq_upTo pn) (by rw [exMesh_ekeys]; norm_num)
  (exSq_fits (by norm_num) (by norm_num))

example (pn : Bool) := C153_k0_error_1000 C153_binary64 (exMesh_reachable exIso exIso exIso exIso exIso exIso) (exMesh_proper ..) (exMesh_planar ..)
  (exMesh_props _ _ _ _ _ _ pn) (by rw [exMesh_nids]; simp) medium_one medium_one medium_one (exSq_upTo pn) (by rw [exMesh_ekeys]; norm_num)
  (exSq_fits (by norm_num) (by norm_num))

/-- C153: three triangles around a node, of area `l²/6` with `l = 3`: too thin for the first bounds -/
theorem exStar_fits : Fits exStar (1 / 20) 64 := by
  intro k hk
  refine ⟨3, ⟨by norm_num [zpow_neg], by norm_num⟩, fun t ht => ?_⟩
  have he := trias_mem exStar_reachable.wf exStar_proper hk ht
  rw [exStar_eids] at he
  simp only [List.mem_cons, List.not_mem_nil, or_false] at he
  refine ⟨fun i j hi hj => ?_, ?_, fun i hi => ?_⟩
  · unfold IsCorner at hi hj
    rcases he with rfl | rfl | rfl <;> simp only [exStar_tria1, exStar_tria2, exStar_tria3] at hi hj <;> rcases hi with rfl | rfl | rfl <;> rcases hj with rfl | rfl | rfl <;>
      simp only [nx, ny, exStar_node1, exStar_node2, exStar_node3, exStar_node4] <;> norm_num
  · rcases he with rfl | rfl | rfl <;>
      simp only [triArea, sarea3, exStar_tria1, exStar_tria2, exStar_tria3, mean_single, nx, ny, exStar_node1, exStar_node2, exStar_node3, exStar_node4] <;> norm_num
  · unfold IsCorner at hi
    rcases he with rfl | rfl | rfl <;> simp only [exStar_tria1, exStar_tria2, exStar_tria3] at hi <;> rcases hi with rfl | rfl | rfl <;>
      simp only [nx, ny, exStar_node1, exStar_node2, exStar_node3, exStar_node4] <;> norm_num

example : K0Within Fmt.binary64 exStar false 1 1 1 3200000000000 153600 := by
  refine C153_k0_error_thin C153_binary64 exStar_reachable exStar_proper exStar_planar exStar_props (by rw [exStar_nids]; simp) medium_one medium_one medium_one ?_
    (by rw [exStar_ekeys]; norm_num) exStar_fits
  unfold LamsUpTo
  rw [if_neg (by simp)]
  intro e he p h
  rw [exStar_eids] at he
  simp only [List.mem_cons, List.not_mem_nil, or_false] at he
  have : p = exIso := by
    rcases he with rfl | rfl | rfl
    · rw [exStar_tria1] at h; exact (Option.some.inj h).symm
    · rw [exStar_tria2] at h; exact (Option.some.inj h).symm
    · rw [exStar_tria3] at h; exact (Option.some.inj h).symm
  rw [this]
  exact exIso_upTo

end Meshless
