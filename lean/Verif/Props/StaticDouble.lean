import Verif.Props.StiffDouble

/-! C159: the static solution with the stiffness matrix computed in double precision. -/

set_option autoImplicit false

namespace Meshless
open Spec Finset

variable {f : Fmt} {m : Mesh} {pn : Bool} {method : String} {al : ℝ} {fa : Bool} {P : ℕ → ℕ → ℝ} {p E0 M0 E M : ℝ}

section
variable (hr : Reachable m) (hp : Proper m) (h : StiffWithin f m pn method al fa P E0 M0 E M) (hsym : ∀ r s, P r s = P s r) (hP : ∀ r < 5, ∀ s < 5, P r s ≤ p) (h0 : 0 ≤ p)
  (hE0 : 0 ≤ E0) (hM0 : 0 ≤ M0) (hE : 0 ≤ E) (hM : 0 ≤ M) {v : ℕ} (hv : Valence m v) {K : Mat} (hK : Assembled m pn method al fa K) {F : FMat}
  (hF : FmtAssembled f m pn method al fa F)
include hr hp h hP h0 hE0 hM0 hE hM hv hK hF

theorem static_parts : K.dim = F.dim ∧ AllFinite F ∧ (∀ x < F.dim, ∀ y < F.dim, |(numbers F).get x y - K.get x y| ≤ stiffErr m P E0 M0 E M x y) ∧
    ∀ x < F.dim, ∑ y ∈ range F.dim, stiffErr m P E0 M0 E M x y ≤ rowErr p E0 M0 E M v (rimCount m) := by
  obtain ⟨K', hK', d1, d2, hA, he⟩ := C158_entries hr h hF
  obtain ⟨A, a1, a2⟩ := hK
  obtain ⟨B, b1, b2⟩ := hK'
  obtain rfl := Except.ok.inj (a1.symm.trans b1)
  obtain rfl : K = K' := congrArg Prod.fst (a2.symm.trans b2)
  refine ⟨d2, hA, he, fun x hx => ?_⟩
  rw [d1] at hx ⊢
  exact stiffErr_row hr.wf hp hv hP h0 hE0 hM0 hE hM hx

include hsym

/-- C159: if the energy of the supported displacements is at least `c` times their squared length exactly, it is at least `c - rowErr` times with the computed
matrix -/
theorem C159_definite {S : Set ℕ} {c : ℝ} (hc : StiffAtLeast K S c) :
    AllFinite F ∧ StiffAtLeast (numbers F) S (c - rowErr p E0 M0 E M v (rimCount m)) := by
  obtain ⟨d, hA, he, hrow⟩ := static_parts hr hp h hP h0 hE0 hM0 hE hM hv hK hF
  refine ⟨hA, fun z hz => ?_⟩
  have h1 := hc z (d ▸ hz)
  rw [d] at h1
  exact err_stiff he (stiffErr_comm m hsym E0 M0 E M) hrow h1

/-- C159: if `rowErr` is less than `c`, the static problem of the computed matrix has one solution for any load -/
theorem C159_solvable {S : Set ℕ} {c : ℝ} (hc : StiffAtLeast K S c) (hlt : rowErr p E0 M0 E M v (rimCount m) < c) (b : ℕ → ℝ) :
    ∃ d', StaticSol (numbers F) S b d' ∧ ∀ d'', StaticSol (numbers F) S b d'' → ∀ i < F.dim, d'' i = d' i := by
  have hs := (C159_definite hr hp h hsym hP h0 hE0 hM0 hE hM hv hK hF hc).2
  exact solve_unique (n := F.dim) (numbers F).get S (fun d hd hz => by
    have h1 : _ * sqLen F.dim d ≤ form F.dim (numbers F).get d d := hs d hd
    rw [hz] at h1
    have h2 : sqLen F.dim d ≤ 0 := by
      by_contra hn
      have := mul_pos (sub_pos.2 hlt) (not_le.1 hn)
      linarith
    intro i hi
    have h3 : d i ^ 2 ≤ sqLen F.dim d := single_le_sum (f := fun i => d i ^ 2) (fun i _ => sq_nonneg _) (mem_range.2 hi)
    exact pow_eq_zero_iff (two_ne_zero) |>.1 (le_antisymm (h3.trans h2) (sq_nonneg _))) b

/-- C159: a solution `d'` of the computed equations up to a residual `r` is close to the exact one: its distance times `c - rowErr` is at most `rowErr` times the length of the
exact solution plus the length of the residual -/
theorem C159_static {S : Set ℕ} {c : ℝ} (hc : StiffAtLeast K S c) {b r d d' : ℕ → ℝ} (hd : StaticSol K S b d) (hd' : StaticSol (numbers F) S (fun i => b i + r i) d') :
    (c - rowErr p E0 M0 E M v (rimCount m)) * len F.dim (fun i => d' i - d i) ≤ rowErr p E0 M0 E M v (rimCount m) * len F.dim d + √(freeSq F.dim S r) := by
  obtain ⟨dm, -, he, hrow⟩ := static_parts hr hp h hP h0 hE0 hM0 hE hM hv hK hF
  obtain ⟨s1, s2⟩ := hd
  unfold StiffAtLeast at hc
  rw [dm] at s1 s2 hc
  exact err_static he (stiffErr_comm m hsym E0 M0 E M) hrow hc s1 hd'.1 s2 hd'.2
end

open Classical in
/-- triangles of even size: at most `4 q` meet at a node -/
theorem valence_even {Om : Set (ℝ × ℝ)} (ht : Tiles m Om) {h q : ℝ} (hq : 0 ≤ q) (hh : 0 < h) (he : EvenSized m h q) : Valence m ⌊4 * q⌋₊ := by
  intro i _
  refine Nat.le_floor ?_
  have h1 := around_area ht he.size hh.le i
  have h2 : h ^ 2 * (m.eids.map fun e => if IsCorner m e i then (1:ℝ) else 0).sum ≤ q * (m.eids.map fun e => if IsCorner m e i then triArea m e else 0).sum := by
    rw [← List.sum_map_mul_left, ← List.sum_map_mul_left]
    refine List.sum_le_sum fun e hE => ?_
    split_ifs
    · rw [mul_one]; exact he.area e hE
    · simp
  have h3 := h2.trans (mul_le_mul_of_nonneg_left h1 hq)
  have h4 : (m.eids.map fun e => if IsCorner m e i then (1:ℝ) else 0).sum = ((m.eids.countP fun e => IsCorner m e i : ℕ) : ℝ) := by
    generalize m.eids = L
    induction L with
    | nil => simp
    | cons x L ih =>
      rw [List.map_cons, List.sum_cons, ih, List.countP_cons]
      by_cases hx : IsCorner m x i <;> simp [hx, add_comm]
  rw [h4] at h3
  refine le_of_mul_le_mul_left ?_ (pow_pos hh 2)
  linarith

/-- C159: refined meshes. With a factor `C` that depends on the data of the plate and the quality of the meshes only, the computed static solution is close to the exact one as
long as `C rowErr` is small against `h ^ 2` -/
theorem C159_refined {q L0 L1 c g tau H R : ℝ} (hq : 0 ≤ q) (hc : 0 < c) (hg0 : 0 < g) (htau : 0 < tau) (hal : 0 ≤ al) :
    ∃ C : ℝ, 0 ≤ C ∧ ∀ (m : Mesh) (pn : Bool) (l : ℝ × ℝ → Lam), Reachable m → SmoothPlate m pn l q L0 L1 c g tau → ∀ h, 0 < h → h ≤ H → EvenSized m h q →
      ∀ Om, Tiles m Om → ∀ (f : Fmt) (method : String) (fa : Bool) (P : ℕ → ℕ → ℝ) (p E0 M0 E M : ℝ), method = "cell-based" ∨ method = "cell-based-no-smoothing" →
      StiffWithin f m pn method al fa P E0 M0 E M → (∀ r s, P r s = P s r) → (∀ r < 5, ∀ s < 5, P r s ≤ p) → 0 ≤ p → 0 ≤ E0 → 0 ≤ M0 → 0 ≤ E → 0 ≤ M →
      ∀ (S : Set ℕ) (K : Mat) (F : FMat), Guided m S R → Assembled m pn method al fa K → FmtAssembled f m pn method al fa F → ∀ b r d d' : ℕ → ℝ, StaticSol K S b d →
      StaticSol (numbers F) S (fun i => b i + r i) d' →
      (h ^ 2 - C * rowErr p E0 M0 E M ⌊4 * q⌋₊ (rimCount m)) * len F.dim (fun i => d' i - d i) ≤
        C * (rowErr p E0 M0 E M ⌊4 * q⌋₊ (rimCount m) * len F.dim d + √(freeSq F.dim S r)) := by
  obtain ⟨C, hC0, hC⟩ := C144_lower (q := q) (L0 := L0) (L1 := L1) (H := H) (R := R) hq hc hg0 htau hal
  refine ⟨C + 1, by linarith, fun m pn l hr hsp h h0 hH he Om ht f method fa P p E0 M0 E M hme hw hsym hP hp0 hE0 hM0 hE hM S K F hgd hK hF b r d d' hd hd' => ?_⟩
  have hC1 : 0 < C + 1 := by linarith
  have hs : StiffAtLeast K S (h ^ 2 / (C + 1)) := by
    intro z hz
    have h1 := hC m pn l hr hsp h h0 hH he method fa S K z hgd ⟨hme, hK⟩ hz
    have h2 := (modes_total hr hsp.good hal ⟨hme, hK⟩ (d := z)).1
    rw [div_mul_eq_mul_div, div_le_iff₀ hC1]
    linarith
  have h3 := C159_static hr hsp.good.proper hw hsym hP hp0 hE0 hM0 hE hM (valence_even ht hq h0 he) hK hF hs hd hd'
  have h4 := mul_le_mul_of_nonneg_left h3 hC1.le
  rw [← mul_assoc, mul_sub, mul_div_cancel₀ _ hC1.ne'] at h4
  exact h4

/-! The square of two triangles, held at three corners, with a free membrane and free rotations at the fourth. -/

theorem exSq_eps (pn : Bool) (z : ℕ → ℝ) : |sarea exSq (dom exSq (2, 3))| * ∑ r, eps exSq (2, 3) z r ^ 2 ≤ energy exSq pn z z := by
  have w := (exMesh_reachable exIso exIso exIso exIso exIso exIso).wf
  have hu : ∀ l, InUse exSq pn l → AtLeast 1 l := fun l hl => by
    rw [exSq_inUse hl]; exact exLam_least le_rfl le_rfl
  set T : Key → ℝ := fun k => |sarea exSq (dom exSq k)| * ∑ r, ∑ s, eps exSq k z r * avg exSq pn k (fun l => abd l r s) * eps exSq k z s with hT
  have hl : ∀ k ∈ exSq.ekeys, |sarea exSq (dom exSq k)| * ∑ r, eps exSq k z r ^ 2 ≤ T k := by
    intro k hk
    refine mul_le_mul_of_nonneg_left ?_ (abs_nonneg _)
    have := avg_least w (exMesh_proper ..) (exMesh_planar ..) (exMesh_props _ _ _ _ _ _ pn) hu hk (eps exSq k z)
    rwa [one_mul] at this
  have h0 : ∀ k ∈ exSq.ekeys, 0 ≤ T k := fun k hk => (mul_nonneg (abs_nonneg _) (sum_nonneg fun _ _ => sq_nonneg _)).trans (hl k hk)
  have hm : (2, 3) ∈ exSq.ekeys := by rw [exMesh_ekeys]; simp
  refine (hl _ hm).trans ?_
  exact List.single_le_sum (l := exSq.ekeys.map T) (fun x hx => by obtain ⟨k, hk, rfl⟩ := List.mem_map.1 hx; exact h0 k hk) _ (List.mem_map_of_mem hm)

theorem exSq_dom : dom exSq (2, 3) = [[2], [1, 2, 3], [3]] := by
  simp [dom, exMesh_e23, corners, exMesh_tria1]

theorem exSq_area : |sarea exSq (dom exSq (2, 3))| = 1 / 6 := by
  rw [exSq_dom]
  simp [sarea, sides, mean, nx, ny, exMesh_node1, exMesh_node2, exMesh_node3]
  norm_num [abs_of_nonneg, abs_of_neg]

theorem exSq_grad {g : ℕ → ℝ} (h1 : g 1 = 0) (h2 : g 2 = 0) : gradX exSq (dom exSq (2, 3)) g = 0 ∧ gradY exSq (dom exSq (2, 3)) g = g 3 := by
  rw [exSq_dom]
  constructor <;> simp [gradX, gradY, circDy, circDx, sarea, sides, mean, nx, ny, exMesh_node1, exMesh_node2, exMesh_node3, h1, h2] <;> ring_nf <;> norm_num

/-- all freedoms but u, v, phix and phiy of node 3 -/
def exHeld3 : Set ℕ := {i | i ≠ 10 ∧ i ≠ 11 ∧ i ≠ 13 ∧ i ≠ 14}

/-- the energy of the supported displacements of the square is at least 1/6 of their squared length -/
theorem exSq_stiffAtLeast {pn fa : Bool} {K : Mat} (hK : Assembled exSq pn "cell-based-no-smoothing" (1 / 10) fa K) : StiffAtLeast K exHeld3 (1 / 6) := by
  have hr := exMesh_reachable exIso exIso exIso exIso exIso exIso
  obtain ⟨hd, hh, hs⟩ := stiffness_split hr (exSq_good pn) ⟨Or.inr rfl, hK⟩
  intro z hz
  rw [hs]
  have hd' : K.dim = 20 := by rw [hd, exMesh_nids]; rfl
  rw [hd'] at hz ⊢
  have zz : ∀ i < 20, i ≠ 10 → i ≠ 11 → i ≠ 13 → i ≠ 14 → z i = 0 := fun i hi a b c d => hz i hi ⟨a, b, c, d⟩
  have h1 := exSq_eps pn z
  have h2 : 0 ≤ shearEnergy exSq pn (1 / 10) fa (methodGamma exSq "cell-based-no-smoothing") z z :=
    (shearEnergy_zero hr.wf (exSq_good pn).planar.flatMesh hh (exSq_good pn).shear (by norm_num) fa).1
  have g0 := exSq_grad (g := disp exSq z 0) (zz 0 (by norm_num) (by norm_num) (by norm_num) (by norm_num) (by norm_num)) (zz 5 (by norm_num) (by norm_num) (by norm_num) (by norm_num) (by norm_num))
  have g1 := exSq_grad (g := disp exSq z 1) (zz 1 (by norm_num) (by norm_num) (by norm_num) (by norm_num) (by norm_num)) (zz 6 (by norm_num) (by norm_num) (by norm_num) (by norm_num) (by norm_num))
  have g3 := exSq_grad (g := disp exSq z 3) (zz 3 (by norm_num) (by norm_num) (by norm_num) (by norm_num) (by norm_num)) (zz 8 (by norm_num) (by norm_num) (by norm_num) (by norm_num) (by norm_num))
  have g4 := exSq_grad (g := disp exSq z 4) (zz 4 (by norm_num) (by norm_num) (by norm_num) (by norm_num) (by norm_num)) (zz 9 (by norm_num) (by norm_num) (by norm_num) (by norm_num) (by norm_num))
  have e0 : disp exSq z 0 3 = z 10 := rfl
  have e1 : disp exSq z 1 3 = z 11 := rfl
  have e3 : disp exSq z 3 3 = z 13 := rfl
  have e4 : disp exSq z 4 3 = z 14 := rfl
  have h3 : ∑ r, eps exSq (2, 3) z r ^ 2 = z 10 ^ 2 + z 11 ^ 2 + z 13 ^ 2 + z 14 ^ 2 := by
    rw [sumsq6]
    simp only [eps, g0.1, g0.2, g1.1, g1.2, g3.1, g3.2, g4.1, g4.2, e0, e1, e3, e4]
    simp
    ring
  have h4 : sqLen 20 z = z 10 ^ 2 + z 11 ^ 2 + z 13 ^ 2 + z 14 ^ 2 := by
    simp [sqLen, sum_range_succ, zz]
  rw [exSq_area, h3] at h1
  rw [h4]
  linarith

theorem exSq_valence : Valence exSq 2 := fun i _ => (List.countP_le_length).trans (by rw [exMesh_eids]; rfl)

theorem exSq_rim : rimCount exSq ≤ 5 := (List.countP_le_length).trans (by rw [exMesh_ekeys]; rfl)

theorem rowErr_mono {p E0 M0 E M : ℝ} (h0 : 0 ≤ p) (hE0 : 0 ≤ E0) (hM0 : 0 ≤ M0) {v b b' : ℕ} (h : b ≤ b') : rowErr p E0 M0 E M v b ≤ rowErr p E0 M0 E M v b' := by
  unfold rowErr
  have : (b:ℝ) ≤ b' := by exact_mod_cast h
  gcongr

theorem exSq_rowErr : rowErr 1 470000000 6144 40000 8 2 (rimCount exSq) ≤ 1 / 1000 := by
  refine (rowErr_mono zero_le_one (by norm_num) (by norm_num) exSq_rim).trans ?_
  norm_num [rowErr]

/-- C159: the square in double precision: the equations of the computed matrix have one solution, which differs from the exact one by less than 1/150 of its length -/
example (pn fa : Bool) (b : ℕ → ℝ) : ∃ K F, Assembled exSq pn "cell-based-no-smoothing" (1 / 10) fa K ∧ FmtAssembled Fmt.binary64 exSq pn "cell-based-no-smoothing" (1 / 10) fa F ∧
    (∃ d', StaticSol (numbers F) exHeld3 b d') ∧ ∀ d d', StaticSol K exHeld3 b d → StaticSol (numbers F) exHeld3 b d' →
      len F.dim (fun i => d' i - d i) ≤ len F.dim d / 150 := by
  have h := exSq_stiffWithin pn fa
  obtain ⟨K, F, hK, hF, _⟩ := id h
  have hs := exSq_stiffAtLeast hK
  have he := exSq_rowErr
  have hr := exMesh_reachable exIso exIso exIso exIso exIso exIso
  have hp : Proper exSq := exMesh_proper ..
  refine ⟨K, F, hK, hF, ?_, fun d d' hd hd' => ?_⟩
  · obtain ⟨d', h1, _⟩ := C159_solvable hr hp h (fun _ _ => rfl) (fun _ _ _ _ => le_rfl) zero_le_one (by norm_num) (by norm_num) (by norm_num) (by norm_num) exSq_valence hK hF hs
      (he.trans_lt (by norm_num)) b
    exact ⟨d', h1⟩
  · have := C159_static hr hp h (fun _ _ => rfl) (fun _ _ _ _ => le_rfl) zero_le_one (by norm_num) (by norm_num) (by norm_num) (by norm_num) exSq_valence hK hF hs hd (r := fun _ => 0) (d' := d')
      (by simpa using hd')
    have l0 : 0 ≤ len F.dim d := Real.sqrt_nonneg _
    have l1 : 0 ≤ len F.dim fun i => d' i - d i := Real.sqrt_nonneg _
    have hz : √(freeSq F.dim exHeld3 fun _ => 0) = 0 := by simp [freeSq]
    rw [hz] at this
    generalize rowErr 1 470000000 6144 40000 8 2 (rimCount exSq) = δ at *
    have a1 := mul_le_mul_of_nonneg_right he l0
    have a2 := mul_le_mul_of_nonneg_right he l1
    linarith

/-! Grids of the unit square. -/

theorem ekeys_le {m : Mesh} (w : WF m) (hp : Proper m) : m.ekeys.length ≤ 3 * m.eids.length := by
  classical
  rw [← List.toFinset_card_of_nodup w.ekeys_nodup]
  have h1 : m.ekeys.toFinset ⊆ m.eids.toFinset.biUnion fun e => (m.tria e).edgeIds.toFinset := by
    intro k hk
    rw [List.mem_toFinset] at hk
    obtain ⟨t, ht⟩ : ∃ t, t ∈ (m.edge k).trias := by
      rcases edge_shape w hp hk with ⟨t, o, htr, _⟩ | ⟨t, _, _, _, htr, _⟩ <;> exact ⟨t, by rw [htr]; simp⟩
    rw [w.etrias k hk, mem_sideTrias] at ht
    exact mem_biUnion.2 ⟨t, List.mem_toFinset.2 ht.1, List.mem_toFinset.2 ht.2⟩
  refine (card_le_card h1).trans (card_biUnion_le.trans ?_)
  calc ∑ e ∈ m.eids.toFinset, ((m.tria e).edgeIds.toFinset).card ≤ ∑ _e ∈ m.eids.toFinset, 3 := sum_le_sum fun e _ => (List.toFinset_card_le _).trans (by simp [Tria.edgeIds])
    _ = 3 * m.eids.toFinset.card := by rw [sum_const, smul_eq_mul, mul_comm]
    _ ≤ _ := Nat.mul_le_mul_left _ (List.toFinset_card_le _)

theorem GridMesh.fits {k : ℕ} {l : ℝ × ℝ → Lam} {m : Mesh} (h : GridMesh k l pn m) (hz : ∀ i ∈ m.nids, (m.node i).xyz.z = 0) (h0 : 0 < k) (h8 : k ≤ 8) {t : ℕ} (ht : t ∈ m.eids) :
    FitsAt m (1 / 4) 8 (1 / k) t := by
  have hk : (0:ℝ) < k := by exact_mod_cast h0
  have hk8 : (k:ℝ) ≤ 8 := by exact_mod_cast h8
  have h1 : (1:ℝ) ≤ 8 * (1 / k) := by rw [mul_one_div, le_div_iff₀ hk]; linarith
  obtain ⟨i, hi, j, hj, s, e1, e2, e3⟩ := h.corners ht
  refine ⟨fun a b ha hb => ?_, ?_, fun a ha => ?_⟩
  · have key : ∀ a, IsCorner m t a → (i:ℝ) / k ≤ nx m a ∧ nx m a ≤ (i:ℝ) / k + 1 / k ∧ (j:ℝ) / k ≤ ny m a ∧ ny m a ≤ (j:ℝ) / k + 1 / k := by
      intro a ha
      have h1k : (0:ℝ) ≤ 1 / k := by positivity
      rcases ha with rfl | rfl | rfl
      · obtain ⟨x1, x2⟩ := Prod.mk.inj e1
        rw [x1, x2]
        refine ⟨?_, ?_, ?_, ?_⟩ <;> linarith
      · obtain ⟨x1, x2⟩ := Prod.mk.inj e2
        rw [x1, x2]
        cases s <;> push_cast <;> simp only [add_div, if_true] <;> refine ⟨?_, ?_, ?_, ?_⟩ <;> linarith
      · obtain ⟨x1, x2⟩ := Prod.mk.inj e3
        rw [x1, x2]
        cases s <;> push_cast <;> simp only [add_div, if_true] <;> refine ⟨?_, ?_, ?_, ?_⟩ <;> linarith
    obtain ⟨p1, p2, p3, p4⟩ := key a ha
    obtain ⟨q1, q2, q3, q4⟩ := key b hb
    constructor <;> rw [abs_le] <;> constructor <;> linarith
  · rw [h.area ht, div_pow, one_pow, div_mul_div_comm, one_mul]
    exact one_div_le_one_div_of_le (by positivity) (by nlinarith [sq_nonneg (k:ℝ)])
  · obtain ⟨p1, p2⟩ := h.within h0 ht ha
    rw [sub_zero] at p1 p2
    rw [hz a (corner_mem h.reach.wf h.good.proper.distinct ht ha), abs_zero]
    exact ⟨p1.trans h1, p2.trans h1, by linarith⟩

theorem assigned_upTo {l : Lam} {a b d g : ℝ} (ha : Assigned m pn fun _ _ => l) (h1 : Lam.UpTo l a b d) (h2 : Lam.ShearUpTo l g) : LamsUpTo m pn a b d ∧ ShearsUpTo m pn g := by
  unfold Assigned at ha
  unfold LamsUpTo ShearsUpTo
  cases pn with
  | true =>
    simp only [if_true] at ha ⊢
    constructor <;> intro e he i hi p hp <;> rw [ha e he i hi] at hp <;> cases hp <;> assumption
  | false =>
    simp only [Bool.false_eq_true, if_false] at ha ⊢
    constructor <;> intro e he p hp <;> obtain ⟨_, _, hx⟩ := ha e he <;> rw [hx] at hp <;> cases hp <;> assumption

/-- a grid of up to 8 by 8 squares in double precision -/
theorem GridMesh.stiffWithin {k : ℕ} {m : Mesh} (h : GridMesh k (fun _ => exIso) pn m) (hz : ∀ i ∈ m.nids, (m.node i).xyz.z = 0) (h0 : 0 < k) (h8 : k ≤ 8) (fa : Bool) :
    StiffWithin Fmt.binary64 m pn "cell-based-no-smoothing" (1 / 10) fa (fun _ _ => 1) 470000000 6144 40000 8 := by
  have hk : (0:ℝ) < k := by exact_mod_cast h0
  have hk8 : (k:ℝ) ≤ 8 := by exact_mod_cast h8
  have hk1 : (1:ℝ) ≤ k := by exact_mod_cast h0
  have hmed : Medium (1 / (k:ℝ)) := by
    have : (1:ℝ) / 8 ≤ 1 / k := one_div_le_one_div_of_le hk hk8
    have h2 : 1 / (k:ℝ) ≤ 1 := by rw [div_le_one hk]; exact hk1
    refine ⟨le_trans ?_ this, h2.trans medium_one.2⟩
    norm_num [zpow_neg]
  obtain ⟨l1, l2⟩ := assigned_upTo h.lam exIso_upTo exIso_shearUpTo
  have hn : 2 * (k * k) ≤ 128 := by nlinarith
  have he : m.eids.length ≤ 128 := by rw [h.eids, List.length_range']; exact hn
  have hE : m.ekeys.length ≤ 384 := (ekeys_le h.reach.wf h.good.proper).trans (by omega)
  exact C156_stiffness_error_8 C153_binary64 h.reach h.good.proper h.good.planar (assigned_props h.lam) (by rw [← List.length_pos_iff, h.count]; positivity)
    medium_one medium_one medium_one medium_one l1 l2 (Or.inr medium_tenth) fa (hE.trans (by norm_num)) (he.trans (by norm_num)) (fun r _ q _ => exSq_units (r := r) (q := q))
    (fun key hkey => ⟨1 / k, hmed, fun t ht => h.fits hz h0 h8 (by
      rw [h.reach.wf.etrias key hkey, mem_sideTrias] at ht; exact ht.1)⟩)
    (fun t ht => ⟨1 / k, hmed, by rw [div_le_one hk]; exact hk1, ⟨(h.fits hz h0 h8 ht).near, (h.fits hz h0 h8 ht).area⟩⟩)

/-- C159: the hinged unit square on grids of up to 8 by 8 squares in double precision -/
example (pn : Bool) : ∃ C : ℝ, 0 ≤ C ∧ ∀ n < 8, ∃ m K F, GridMesh (n + 1) (fun _ => exIso) pn m ∧ Assembled m pn "cell-based-no-smoothing" (1 / 10) false K ∧
    FmtAssembled Fmt.binary64 m pn "cell-based-no-smoothing" (1 / 10) false F ∧ ∀ b d d', StaticSol K (gridHinge (n + 1)) b d → StaticSol (numbers F) (gridHinge (n + 1)) b d' →
      (2 / ((n:ℝ) + 1) ^ 2 - C * rowErr 1 470000000 6144 40000 8 16 (rimCount m)) * len F.dim (fun i => d' i - d i) ≤
        C * (rowErr 1 470000000 6144 40000 8 16 (rimCount m) * len F.dim d) := by
  choose m h hz using fun n => gridMesh_flat (Nat.succ_pos n) (fun _ => exLam_stiff one_pos one_pos one_pos one_pos) pn
  have hc : ∀ x ∈ unitSquare, AtLeast 1 ((fun _ => exIso : ℝ × ℝ → Lam) x) := fun _ _ => exLam_least le_rfl le_rfl
  have hsh : ∀ x ∈ unitSquare, ShearAtLeast 1 ((fun _ => exIso : ℝ × ℝ → Lam) x) := fun _ _ => exIso_shearLeast
  have hth : ∀ x ∈ unitSquare, 1 ≤ ((fun _ => exIso : ℝ × ℝ → Lam) x).h := fun _ _ => le_rfl
  have hpos : ∀ n : ℕ, 0 < Real.sqrt 2 / ((n + 1 : ℕ) : ℝ) := fun n => by positivity
  have hsq : ∀ n : ℕ, (Real.sqrt 2 / ((n + 1 : ℕ) : ℝ)) ^ 2 = 2 / ((n : ℝ) + 1) ^ 2 := fun n => by rw [div_pow, Real.sq_sqrt (by norm_num)]; push_cast; rfl
  obtain ⟨C, hC0, hC⟩ := C159_refined (q := 4) (L0 := 1) (L1 := 0) (c := 1) (g := 1) (tau := 1) (H := Real.sqrt 2) (al := 1 / 10) (R := 1) (by norm_num) one_pos one_pos one_pos (by norm_num)
  refine ⟨C, hC0, fun n hn => ?_⟩
  have hs := (h n).stiffWithin (hz n) (Nat.succ_pos n) (by omega) false
  obtain ⟨K, F, hK, hF, _⟩ := id hs
  refine ⟨m n, K, F, h n, hK, hF, fun b d d' hd hd' => ?_⟩
  have := hC (m n) pn _ (h n).reach (refined_smooth (fun n => (h n).good) (grid_refined h) exUniform_on hc hsh hth n) _ (hpos n)
    (div_le_self (Real.sqrt_nonneg 2) (by push_cast; linarith [(Nat.cast_nonneg n : (0:ℝ) ≤ n)])) (h n).even unitSquare ((h n).tiles (Nat.succ_pos n)) _ _ _ _ 1 _ _ _ _ (Or.inr rfl) hs
    (fun _ _ => rfl) (fun _ _ _ _ => le_rfl) zero_le_one (by norm_num) (by norm_num) (by norm_num) (by norm_num) (gridHinge (n + 1)) K F ((h n).guided (Nat.succ_pos n)) hK hF b (fun _ => 0) d d' hd
    (by simpa using hd')
  have hzr : √(freeSq F.dim (gridHinge (n + 1)) fun _ => 0) = 0 := by simp [freeSq]
  have hfl : ⌊(4 * 4 : ℝ)⌋₊ = 16 := by norm_num
  rw [hsq, hfl, hzr, add_zero] at this
  exact this

end Meshless
