import Verif.Lemmas.Condition
import Verif.Props.Navier

/-! Conditioning of the equations of supported plates (C144). -/

set_option autoImplicit false

namespace Meshless
open Spec Finset MeasureTheory Filter Topology

section
variable {m : Mesh}

theorem inUse_at {pn : Bool} {l : ℝ × ℝ → Lam} (hu : ∀ i ∈ m.nids, ∃ e ∈ m.eids, IsCorner m e i) (ha : Assigned m pn fun _ => l) {l' : Lam} (h : InUse m pn l') :
    ∃ e ∈ m.eids, ∃ x ∈ hull m e, l' = l x := by
  unfold InUse at h
  unfold Assigned at ha
  cases pn with
  | false =>
    simp only [Bool.false_eq_true, if_false] at h ha
    obtain ⟨e, he, h1⟩ := h
    obtain ⟨x, hx, h2⟩ := ha e he
    exact ⟨e, he, x, hx, Option.some.inj (h1.symm.trans h2)⟩
  | true =>
    simp only [if_true] at h ha
    obtain ⟨i, hi, h1⟩ := h
    obtain ⟨e, he, hc⟩ := hu i hi
    exact ⟨e, he, _, pt_mem_hull hc, Option.some.inj (h1.symm.trans (ha e he i hc))⟩

theorem form_most (w : WF m) {pn : Bool} {l : ℝ × ℝ → Lam} {s L0 L1 c g tau al h : ℝ} (hsp : SmoothPlate m pn l s L0 L1 c g tau) (hL0 : 0 ≤ L0) (hg0 : 0 < g) (htau : 0 < tau) (hal : 0 ≤ al) (hh : Size m h)
    (hhp : HasProps m pn) (method : String) (fa : Bool) (v : ℕ → ℝ) : energy m pn v v + shearEnergy m pn al fa (methodGamma m method) v v ≤
      (6 * L0 * (8 * s) + L0 ^ 2 * (16 * s + 4 * h ^ 2 + 24 * (3 * s * h + 1) ^ 2 * (4 * s + 3 * h ^ 2))) * (m.eids.map (triSq m v)).sum := by
  have hp := hsp.good.proper
  have hg := hsp.good.planar
  have at' := fun l' (h : InUse m pn l') => inUse_at hsp.good.piece.used hsp.assigned h
  have bd : ∀ l', InUse m pn l' → ∀ sel ∈ lamData, |sel l'| ≤ L0 := fun l' h sel hs => by
    obtain ⟨e, he, x, hx, rfl⟩ := at' l' h
    exact hsp.lam.bound e he x hx sel hs
  have h1 := strain_most w hp hg hhp (by positivity : 0 ≤ 6 * L0) (fun l' h => atMost_of fun p q => bd l' h _ (abd_lamData p q)) v
  obtain ⟨d1, d2, d3, d4⟩ := shear_lamData
  have h2 := shear_most (m := m) (pn := pn) (al := al) (fa := fa) (b := L0 ^ 2) (fun e he r => by
    have hk := cavg_thick hsp.assigned he hsp.thick
    unfold shearMod
    dsimp only
    have f0 : cavg m pn e (fun l => l.h) ^ 2 / (cavg m pn e (fun l => l.h) ^ 2 + al * charLen m fa e ^ 2) ≤ 1 := by
      have : 0 < cavg m pn e (fun l => l.h) := htau.trans_le hk
      exact div_le_one_of_le₀ (by nlinarith [mul_nonneg hal (sq_nonneg (charLen m fa e))]) (by positivity)
    have up : ∀ sel ∈ lamData, cavg m pn e sel ≤ L0 := fun sel hs => cavg_most w hhp he fun l' h => (le_abs_self _).trans (bd l' h sel hs)
    have lo : ∀ sel : Lam → ℝ, (∀ l', InUse m pn l' → g ≤ sel l') → 0 ≤ cavg m pn e sel := fun sel hs => hg0.le.trans (cavg_least w hhp he hs)
    have f1 : (if r = 0 then cavg m pn e (fun l => l.k23) * cavg m pn e (fun l => l.E 0 0) else cavg m pn e (fun l => l.k13) * cavg m pn e (fun l => l.E 1 1)) ≤ L0 ^ 2 := by
      rw [pow_two]
      split_ifs
      · exact mul_le_mul (up _ d1) (up _ d3) (lo _ fun l' h => (hsp.shear l' h).2.2.1) hL0
      · exact mul_le_mul (up _ d2) (up _ d4) (lo _ fun l' h => (hsp.shear l' h).2.2.2) hL0
    have f2 : 0 ≤ (if r = 0 then cavg m pn e (fun l => l.k23) * cavg m pn e (fun l => l.E 0 0) else cavg m pn e (fun l => l.k13) * cavg m pn e (fun l => l.E 1 1)) := by
      split_ifs
      · exact mul_nonneg (lo _ fun l' h => (hsp.shear l' h).2.1) (lo _ fun l' h => (hsp.shear l' h).2.2.1)
      · exact mul_nonneg (lo _ fun l' h => (hsp.shear l' h).1) (lo _ fun l' h => (hsp.shear l' h).2.2.2)
    calc _ ≤ 1 * _ := mul_le_mul_of_nonneg_right f0 f2
      _ ≤ _ := by rw [one_mul]; exact f1) method v
  have h3 : strainSize m v ≤ 8 * s * (m.eids.map (triSq m v)).sum := by
    unfold strainSize
    rw [← List.sum_map_mul_left]
    exact List.sum_le_sum fun e he => strain_corners w hp hg he hsp.shape v
  have h4 : gammaSize m method v ≤ (16 * s + 4 * h ^ 2 + 24 * (3 * s * h + 1) ^ 2 * (4 * s + 3 * h ^ 2)) * (m.eids.map (triSq m v)).sum := by
    unfold gammaSize
    rw [← List.sum_map_mul_left]
    exact List.sum_le_sum fun e he => gamma_corners w hp hg he hsp.shape hh method v
  have h5 := mul_le_mul_of_nonneg_left h3 (by positivity : 0 ≤ 6 * L0)
  have h6 := mul_le_mul_of_nonneg_left h4 (by positivity : 0 ≤ L0 ^ 2)
  linarith
end

theorem sqLen_nonneg (n : ℕ) (v : ℕ → ℝ) : 0 ≤ sqLen n v := sum_nonneg fun _ _ => sq_nonneg _

/-- C144: no displacement of unit length has more than a bounded energy, however fine the mesh -/
theorem C144_upper {q L0 L1 c g tau H al : ℝ} (hq : 0 ≤ q) (hL0 : 0 ≤ L0) (hg0 : 0 < g) (htau : 0 < tau) (hal : 0 ≤ al) :
    ∃ C : ℝ, 0 ≤ C ∧ ∀ (m : Mesh) (pn : Bool) (l : ℝ × ℝ → Lam) (Om : Set (ℝ × ℝ)), Reachable m → SmoothPlate m pn l q L0 L1 c g tau → Tiles m Om →
      ∀ h, 0 < h → h ≤ H → EvenSized m h q → ∀ (method : String) (fa : Bool) (K : Mat) (v : ℕ → ℝ), Stiffness m pn method al fa K → form K.dim K.get v v ≤ C * sqLen K.dim v := by
  refine ⟨(6 * L0 * (8 * q) + L0 ^ 2 * (16 * q + 4 * H ^ 2 + 24 * (3 * q * |H| + 1) ^ 2 * (4 * q + 3 * H ^ 2))) * (4 * q), by positivity, fun m pn l Om hr hsp ht h h0 hH he method fa K v hK => ?_⟩
  obtain ⟨hdim, hhp, hform⟩ := stiffness_split hr hsp.good hK
  have h1 := form_most hr.wf hsp hL0 hg0 htau hal he.size hhp method fa v
  have h2 := corners_sqLen hr.wf hsp.good.proper ht hq h0 he v
  rw [hform]
  refine h1.trans ?_
  have hH2 : h ^ 2 ≤ H ^ 2 := pow_le_pow_left₀ h0.le hH 2
  have b0 : h ≤ |H| := hH.trans (le_abs_self H)
  have b1 : (3 * q * h + 1) ^ 2 ≤ (3 * q * |H| + 1) ^ 2 := pow_le_pow_left₀ (by positivity) (by linarith [mul_le_mul_of_nonneg_left b0 (by positivity : 0 ≤ 3 * q)]) 2
  have b2 : (3 * q * h + 1) ^ 2 * (4 * q + 3 * h ^ 2) ≤ (3 * q * |H| + 1) ^ 2 * (4 * q + 3 * H ^ 2) := mul_le_mul b1 (by linarith) (by positivity) (by positivity)
  have b3 : 6 * L0 * (8 * q) + L0 ^ 2 * (16 * q + 4 * h ^ 2 + 24 * (3 * q * h + 1) ^ 2 * (4 * q + 3 * h ^ 2)) ≤ 6 * L0 * (8 * q) + L0 ^ 2 * (16 * q + 4 * H ^ 2 + 24 * (3 * q * |H| + 1) ^ 2 * (4 * q + 3 * H ^ 2)) := by
    have := mul_le_mul_of_nonneg_left (by linarith : 16 * q + 4 * h ^ 2 + 24 * (3 * q * h + 1) ^ 2 * (4 * q + 3 * h ^ 2) ≤ 16 * q + 4 * H ^ 2 + 24 * (3 * q * |H| + 1) ^ 2 * (4 * q + 3 * H ^ 2)) (sq_nonneg L0)
    linarith
  rw [mul_assoc _ (4 * q), hdim]
  refine mul_le_mul b3 h2 (List.sum_nonneg fun y hy => ?_) (by positivity)
  obtain ⟨e, _, rfl⟩ := List.mem_map.1 hy
  exact add_nonneg (add_nonneg (nodeSq_nonneg _ _) (nodeSq_nonneg _ _)) (nodeSq_nonneg _ _)

/-- C144: a displacement of unit length has at least an energy of the order of the square of the size of the triangles -/
theorem C144_lower {q L0 L1 c g tau H al R : ℝ} (hq : 0 ≤ q) (hc : 0 < c) (hg0 : 0 < g) (htau : 0 < tau) (hal : 0 ≤ al) :
    ∃ C : ℝ, 0 ≤ C ∧ ∀ (m : Mesh) (pn : Bool) (l : ℝ × ℝ → Lam), Reachable m → SmoothPlate m pn l q L0 L1 c g tau → ∀ h, 0 < h → h ≤ H → EvenSized m h q →
      ∀ (method : String) (fa : Bool) (S : Set ℕ) (K : Mat) (v : ℕ → ℝ), Guided m S R → Stiffness m pn method al fa K → Supported K.dim S v → h ^ 2 * sqLen K.dim v ≤ C * form K.dim K.get v v := by
  obtain ⟨C, hC0, hC⟩ := C143_coercive (s := q) (L0 := L0) (L1 := L1) (H := H) (R := R) hq hc hg0 htau hal
  refine ⟨q * C, by positivity, fun m pn l hr hsp h h0 hH he method fa S K v hcl hK hv => ?_⟩
  have h1 := hC m pn l hr hsp (h0.le.trans hH) (fun e hE => (he.size e hE).trans hH) method fa S K v hcl hK hv
  have h2 := sqLen_dispSize hr.wf hsp.good.proper hq he hsp.good.piece.used v
  rw [(stiffness_split hr hsp.good hK).1] at h1 ⊢
  have := mul_le_mul_of_nonneg_left h1 hq
  linarith

/-- C144: the condition number of the equations of a supported plate is at most of the order of `1 / h ^ 2`, `h` being the size of the triangles. The factor depends on
bounds for the evenness of the mesh, the width of the plate and the stiffness of its laminates only. -/
theorem C144_condition {q L0 L1 c g tau H al R : ℝ} (hq : 0 ≤ q) (hL0 : 0 ≤ L0) (hc : 0 < c) (hg0 : 0 < g) (htau : 0 < tau) (hal : 0 ≤ al) :
    ∃ C : ℝ, 0 ≤ C ∧ ∀ (m : Mesh) (pn : Bool) (l : ℝ × ℝ → Lam) (Om : Set (ℝ × ℝ)), Reachable m → SmoothPlate m pn l q L0 L1 c g tau → Tiles m Om → ∀ h, 0 < h → h ≤ H → EvenSized m h q →
      ∀ (method : String) (fa : Bool) (S : Set ℕ) (K : Mat), Guided m S R → Stiffness m pn method al fa K → CondAtMost K S (C / h ^ 2) := by
  obtain ⟨C, hC0, hC⟩ := C144_upper (L1 := L1) (c := c) (H := H) hq hL0 hg0 htau hal
  obtain ⟨B, hB0, hB⟩ := C144_lower (L0 := L0) (L1 := L1) (H := H) (R := R) hq hc hg0 htau hal
  refine ⟨C * B, by positivity, fun m pn l Om hr hsp ht h h0 hH he method fa S K hcl hK v u hv hu => ?_⟩
  have h1 := hC m pn l Om hr hsp ht h h0 hH he method fa K v hK
  have h2 := hB m pn l hr hsp h h0 hH he method fa S K u hcl hK hu
  have n1 := sqLen_nonneg K.dim v
  have n2 := sqLen_nonneg K.dim u
  have h3 := mul_le_mul h1 h2 (by positivity) (by positivity)
  rw [div_mul_eq_mul_div, div_mul_eq_mul_div, le_div_iff₀ (by positivity)]
  linarith

theorem freeSq_nonneg (n : ℕ) (S : Set ℕ) (f : ℕ → ℝ) : 0 ≤ freeSq n S f := sum_nonneg fun _ _ => sq_nonneg _

theorem cs_len (n : ℕ) (f v : ℕ → ℝ) : (∑ i ∈ range n, f i * v i) ^ 2 ≤ sqLen n f * sqLen n v := sum_mul_sq_le_sq_mul_sq _ _ _

/-- C144: what the condition number means: if loads are off by `r` (or a solver leaves the residual `r`), the relative error of the displacements is at most the
condition number times the relative error of the loads -/
theorem C144_error {m : Mesh} (hr : Reachable m) {pn : Bool} (hg : GoodPlate m pn) {method : String} {al : ℝ} (hal : 0 ≤ al) {fa : Bool} {K : Mat} (hK : Stiffness m pn method al fa K)
    {S : Set ℕ} {k : ℝ} (hk : CondAtMost K S k) {f r d d' : ℕ → ℝ} (hd : StaticSol K S f d) (hd' : StaticSol K S (fun i => f i + r i) d') :
    freeSq K.dim S f * sqLen K.dim (fun i => d' i - d i) ≤ k ^ 2 * freeSq K.dim S r * sqLen K.dim d := by
  have sy := C78_symmetric hr hg hK
  have pos : ∀ v, 0 ≤ form K.dim K.get v v := fun v => (modes_total hr hg hal hK (d := v)).1
  set u := Sᶜ.indicator f with hu
  set t := Sᶜ.indicator r with ht
  set z : ℕ → ℝ := fun i => d' i - d i with hz
  have su : Supported K.dim S u := fun i _ hi => Set.indicator_of_notMem (by simpa using hi) _
  have sz : Supported K.dim S z := fun i hi hS => by rw [hz]; simp only; rw [hd.1 i hi hS, hd'.1 i hi hS, sub_zero]
  have solz : StaticSol K S r z := ⟨sz, fun i hi hS => by
    rw [hz]
    simp only [mul_sub, sum_sub_distrib]
    rw [hd.2 i hi hS, hd'.2 i hi hS]; ring⟩
  have fu : form K.dim K.get u d = freeSq K.dim S f := by
    rw [form_load hd su]
    refine sum_congr rfl fun i _ => ?_
    by_cases h : i ∈ Sᶜ
    · rw [hu, Set.indicator_of_mem h]; ring
    · rw [hu, Set.indicator_of_notMem h]; ring
  have fz : form K.dim K.get z z = ∑ i ∈ range K.dim, t i * z i := by
    rw [form_load solz sz]
    refine sum_congr rfl fun i hi => ?_
    by_cases h : i ∈ S
    · rw [sz i (mem_range.1 hi) h]; ring
    · rw [ht, Set.indicator_of_mem (by simpa using h)]
  have a1 := form_cs sy pos u d
  rw [fu] at a1
  have a2 := cs_len K.dim t z
  rw [← fz] at a2
  have a3 := hk u z su sz
  have a4 := hk d z hd.1 sz
  have eu : sqLen K.dim u = freeSq K.dim S f := rfl
  have et : sqLen K.dim t = freeSq K.dim S r := rfl
  rw [eu] at a3
  rw [et] at a2
  have p1 := pos u
  have p2 := pos d
  have n1 := freeSq_nonneg K.dim S f
  have n2 := freeSq_nonneg K.dim S r
  have n3 := sqLen_nonneg K.dim z
  have n4 := sqLen_nonneg K.dim d
  generalize freeSq K.dim S f = F at *
  generalize freeSq K.dim S r = E at *
  generalize sqLen K.dim z = Z at *
  generalize sqLen K.dim d = D at *
  generalize form K.dim K.get u u = U at *
  generalize form K.dim K.get d d = W at *
  generalize form K.dim K.get z z = X at *
  have b1 := mul_le_mul a3 a4 (by positivity) ((mul_nonneg p1 n3).trans a3)
  have b2 : (F * Z) * (F * Z) ≤ (k ^ 2 * E * D) * (F * Z) := by
    have c1 := mul_le_mul_of_nonneg_right a1 (mul_nonneg n3 n3)
    have c2 := mul_le_mul_of_nonneg_left a2 (by positivity : 0 ≤ k ^ 2 * F * D)
    linarith
  rcases (mul_nonneg n1 n3).eq_or_lt with h | h
  · rw [← h]; positivity
  · exact le_of_mul_le_mul_right b2 h

section
variable {m : Mesh} (w : WF m) (hp : Proper m) (hg : Planar m)
include w hp hg

/-- the hat function of a node has a gradient of the order of `1 / h` -/
theorem hat_grad {h q : ℝ} (hh : 0 < h) (he : EvenSized m h q) {e : ℕ} (hE : e ∈ m.eids) {i : ℕ} (hi : IsCorner m e i) {f : ℕ → ℝ} (h1 : f i = 1) (h0 : ∀ j, IsCorner m e j → j ≠ i → f j = 0) :
    1 ≤ 2 * q * (triArea m e * (gradX m (tpoly m e) f ^ 2 + gradY m (tpoly m e) f ^ 2)) := by
  obtain ⟨c, p, q', haff⟩ := aff_exists w hp hg hE f
  obtain ⟨e1, e2⟩ := tri_grad hg hE haff
  obtain ⟨d1, d2, d3⟩ := hp.distinct e hE
  obtain ⟨j, hj, hji⟩ : ∃ j, IsCorner m e j ∧ j ≠ i := by
    rcases hi with rfl | rfl | rfl
    · exact ⟨_, Or.inr (Or.inl rfl), Ne.symm (by assumption)⟩
    · exact ⟨_, Or.inl rfl, by assumption⟩
    · exact ⟨_, Or.inr (Or.inl rfl), by assumption⟩
  have h2 : p * (nx m i - nx m j) + q' * (ny m i - ny m j) = 1 := by
    have a := haff i hi
    have b := haff j hj
    rw [h1] at a
    rw [h0 j hj hji] at b
    linarith
  have d := coord_le ((corner_dist hi hj).trans (he.size e hE))
  simp only [pt] at d
  rw [e1, e2]
  have h3 : 1 ≤ (|p| + |q'|) * h := by
    have a1 : |p * (nx m i - nx m j)| ≤ |p| * h := by rw [abs_mul]; exact mul_le_mul_of_nonneg_left d.1 (abs_nonneg _)
    have a2 : |q' * (ny m i - ny m j)| ≤ |q'| * h := by rw [abs_mul]; exact mul_le_mul_of_nonneg_left d.2 (abs_nonneg _)
    linarith [le_abs_self (p * (nx m i - nx m j)), le_abs_self (q' * (ny m i - ny m j))]
  have h4 : 1 ≤ (|p| + |q'|) ^ 2 * h ^ 2 := by rw [← mul_pow]; exact one_le_pow₀ h3
  have h5 : (|p| + |q'|) ^ 2 ≤ 2 * (p ^ 2 + q' ^ 2) := by
    rw [← sq_abs p, ← sq_abs q']
    nlinarith [sq_nonneg (|p| - |q'|)]
  have h6 := mul_le_mul h5 (he.area e hE) (by positivity) (by positivity)
  linarith

/-- the energies of the unit displacement of one degree of freedom -/
theorem unit_sizes {h q : ℝ} (hh : 0 < h) (he : EvenSized m h q) (hq : 0 ≤ q) (hs : Shape m q) (hu : ∀ i ∈ m.nids, ∃ e ∈ m.eids, IsCorner m e i) (method : String) {j : ℕ} (hj : j < 5 * m.nids.length) :
    1 ≤ 2 * q * (strainSize m (single j) + gammaSize m method (single j)) := by
  have hi : j / 5 < m.nids.length := by omega
  set i := m.nids[j / 5] with hidef
  obtain ⟨e, hE, hc⟩ := hu i (List.getElem_mem hi)
  have hid : m.nids.idxOf i = j / 5 := w.nids_nodup.idxOf_getElem _ _
  have h5 : j % 5 < 5 := Nat.mod_lt _ (by norm_num)
  have hd0 : ∀ r < 5, r ≠ j % 5 → ∀ a, disp m (single j) r a = 0 := fun r hr hne a => by
    unfold disp single
    rw [if_neg]; omega
  have hd1 : disp m (single j) (j % 5) i = 1 := by
    unfold disp single
    rw [hid, if_pos]; omega
  have hd2 : ∀ a, IsCorner m e a → a ≠ i → disp m (single j) (j % 5) a = 0 := fun a ha hai => by
    unfold disp single
    rw [if_neg]
    intro hcon
    have h1 : m.nids.idxOf a = j / 5 := by omega
    rw [← hid] at h1
    exact hai (List.idxOf_inj (corner_mem w hp.distinct hE ha) |>.1 h1)
  have g := hat_grad w hp hg hh he hE hc hd1 hd2
  have gz : ∀ r < 5, r ≠ j % 5 → gradX m (tpoly m e) (disp m (single j) r) = 0 ∧ gradY m (tpoly m e) (disp m (single j) r) = 0 := fun r hr hne => by
    have := tri_grad hg hE (f := disp m (single j) r) (c := 0) (p := 0) (q := 0) fun a _ => by rw [hd0 r hr hne a]; ring
    exact this
  have hA : 0 ≤ triArea m e := abs_nonneg _
  have s1 : triArea m e * ∑ p, triEps m e (single j) p ^ 2 ≤ strainSize m (single j) := List.single_le_sum (l := m.eids.map fun e => triArea m e * ∑ p, triEps m e (single j) p ^ 2) (fun y hy => by
    obtain ⟨e, _, rfl⟩ := List.mem_map.1 hy
    exact mul_nonneg (abs_nonneg _) (sum_nonneg fun _ _ => sq_nonneg _)) _ (List.mem_map.2 ⟨e, hE, rfl⟩)
  have s2 : triArea m e * ∑ r, methodGamma m method e (single j) r ^ 2 ≤ gammaSize m method (single j) := List.single_le_sum (l := m.eids.map fun e => triArea m e * ∑ r, methodGamma m method e (single j) r ^ 2) (fun y hy => by
    obtain ⟨e, _, rfl⟩ := List.mem_map.1 hy
    exact mul_nonneg (abs_nonneg _) (sum_nonneg fun _ _ => sq_nonneg _)) _ (List.mem_map.2 ⟨e, hE, rfl⟩)
  obtain ⟨p1, p2, _⟩ := size_of_pos (m := m) (v := single j)
  have p2 := p2 method
  have key : gradX m (tpoly m e) (disp m (single j) (j % 5)) ^ 2 + gradY m (tpoly m e) (disp m (single j) (j % 5)) ^ 2 ≤ ∑ p, triEps m e (single j) p ^ 2 + ∑ r, methodGamma m method e (single j) r ^ 2 := by
    by_cases h2 : j % 5 = 2
    · have t := fun r => method_test w hp hg hE hs he.size method (single j) (pt_mem_hull hc) r
      have z1 : rotAbs m e (single j) = 0 := by
        rw [rotAbs_eq, (gz 3 (by norm_num) (by omega)).1, (gz 3 (by norm_num) (by omega)).2, (gz 4 (by norm_num) (by omega)).1, (gz 4 (by norm_num) (by omega)).2]; simp
      have z2 : rotSumAbs m e (single j) = 0 := by
        unfold rotSumAbs rotSum corners
        rw [Fin.sum_univ_two]
        simp [hd0 3 (by norm_num) (by omega), hd0 4 (by norm_num) (by omega)]
      rw [z1, z2, add_zero] at t
      have t' : ∀ r, methodGamma m method e (single j) r = linShear m e (single j) (pt m i) r := fun r => by
        have := t r
        rw [mul_zero] at this
        exact sub_eq_zero.1 (abs_eq_zero.1 (le_antisymm this (abs_nonneg _)))
      have e0 : linShear m e (single j) (pt m i) 0 = gradX m (tpoly m e) (disp m (single j) 2) := by
        simp [linShear, lin_corner w hp hg hE _ hc, hd0 3 (by norm_num) (by omega)]
      have e1 : linShear m e (single j) (pt m i) 1 = gradY m (tpoly m e) (disp m (single j) 2) := by
        simp [linShear, lin_corner w hp hg hE _ hc, hd0 4 (by norm_num) (by omega)]
      rw [Fin.sum_univ_two, t', t', e0, e1, h2]
      have : 0 ≤ ∑ p, triEps m e (single j) p ^ 2 := sum_nonneg fun _ _ => sq_nonneg _
      linarith
    · have n : 0 ≤ ∑ r, methodGamma m method e (single j) r ^ 2 := sum_nonneg fun _ _ => sq_nonneg _
      rw [sumsq6]
      simp only [triEps, Matrix.cons_val]
      have c : j % 5 = 0 ∨ j % 5 = 1 ∨ j % 5 = 3 ∨ j % 5 = 4 := by omega
      have z := fun r hr hne => gz r hr hne
      have sq := fun x : ℝ => sq_nonneg x
      rcases c with c | c | c | c <;> rw [c] at gz ⊢
      · rw [(gz 1 (by norm_num) (by norm_num)).1, (gz 1 (by norm_num) (by norm_num)).2, (gz 3 (by norm_num) (by norm_num)).1, (gz 3 (by norm_num) (by norm_num)).2,
          (gz 4 (by norm_num) (by norm_num)).1, (gz 4 (by norm_num) (by norm_num)).2]
        linarith
      · rw [(gz 0 (by norm_num) (by norm_num)).1, (gz 0 (by norm_num) (by norm_num)).2, (gz 3 (by norm_num) (by norm_num)).1, (gz 3 (by norm_num) (by norm_num)).2,
          (gz 4 (by norm_num) (by norm_num)).1, (gz 4 (by norm_num) (by norm_num)).2]
        linarith
      · rw [(gz 0 (by norm_num) (by norm_num)).1, (gz 0 (by norm_num) (by norm_num)).2, (gz 1 (by norm_num) (by norm_num)).1, (gz 1 (by norm_num) (by norm_num)).2,
          (gz 4 (by norm_num) (by norm_num)).1, (gz 4 (by norm_num) (by norm_num)).2]
        linarith
      · rw [(gz 0 (by norm_num) (by norm_num)).1, (gz 0 (by norm_num) (by norm_num)).2, (gz 1 (by norm_num) (by norm_num)).1, (gz 1 (by norm_num) (by norm_num)).2,
          (gz 3 (by norm_num) (by norm_num)).1, (gz 3 (by norm_num) (by norm_num)).2]
        linarith
  have k2 := mul_le_mul_of_nonneg_left key hA
  refine g.trans (mul_le_mul_of_nonneg_left ?_ (by positivity))
  linarith
end

/-- C144: every diagonal entry of the stiffness matrix is at least a positive number that does not depend on the mesh -/
theorem C144_diagonal {q L0 L1 c g tau H al : ℝ} (hq : 0 < q) (hc : 0 < c) (hg0 : 0 < g) (htau : 0 < tau) (hal : 0 ≤ al) :
    ∃ b : ℝ, 0 < b ∧ ∀ (m : Mesh) (pn : Bool) (l : ℝ × ℝ → Lam), Reachable m → SmoothPlate m pn l q L0 L1 c g tau → ∀ h, 0 < h → h ≤ H → EvenSized m h q →
      ∀ (method : String) (fa : Bool) (K : Mat), Stiffness m pn method al fa K → ∀ j < K.dim, b ≤ K.get j j := by
  obtain ⟨b1, hb1⟩ : ∃ b, b = c / (81 * q ^ 4) := ⟨_, rfl⟩
  obtain ⟨b2, hb2⟩ : ∃ b, b = tau ^ 2 / (tau ^ 2 + al * H ^ 2) * g ^ 2 := ⟨_, rfl⟩
  have p1 : 0 < b1 := by rw [hb1]; positivity
  have p2 : 0 < b2 := by rw [hb2]; positivity
  refine ⟨min b1 b2 / (2 * q), by positivity, fun m pn l hr hsp h h0 hH he method fa K hK j hj => ?_⟩
  obtain ⟨hdim, hhp, hform⟩ := stiffness_split hr hsp.good hK
  have w := hr.wf
  have s1 := strainSize_energy w hsp.good.proper hsp.good.planar hhp hc.le hsp.stiff hsp.shape (single j)
  have s2 := gammaSize_le (fun t ht r => shearMod_least w hhp hg0.le htau hal hsp.shear hsp.assigned hsp.thick (fun e hE => (he.size e hE).trans hH) fa ht r) method (single j)
  have s3 := unit_sizes w hsp.good.proper hsp.good.planar h0 he hq.le hsp.shape hsp.good.piece.used method (hdim ▸ hj)
  have s4 := hform (single j) (single j)
  rw [form_single K.get hj hj] at s4
  rw [s4, div_le_iff₀ (by positivity)]
  obtain ⟨q1, q2, _⟩ := size_of_pos (m := m) (v := single j)
  have q2 := q2 method
  have s5 : b1 * strainSize m (single j) ≤ energy m pn (single j) (single j) := by
    rw [hb1, div_mul_eq_mul_div, div_le_iff₀ (by positivity)]; linarith
  rw [← hb2] at s2
  have m1 := mul_le_mul_of_nonneg_right (min_le_left b1 b2) q1
  have m2 := mul_le_mul_of_nonneg_right (min_le_right b1 b2) q2
  have m3 := mul_le_mul_of_nonneg_left s3 (by positivity : 0 ≤ min b1 b2)
  have m4 := mul_le_mul_of_nonneg_left (show min b1 b2 * (strainSize m (single j) + gammaSize m method (single j)) ≤ energy m pn (single j) (single j) + shearEnergy m pn al fa (methodGamma m method) (single j) (single j) by linarith) (by positivity : 0 ≤ 2 * q)
  linarith

/-- mean square of the nodal values of a field against the integral of its square -/
theorem dispSize_near {m : Mesh} (w : WF m) (hp : Proper m) {Om : Set (ℝ × ℝ)} (ht : Tiles m Om) {F Fx Fy : ℕ → ℝ × ℝ → ℝ} {S M : ℝ} (hF : FieldOn Om F Fx Fy S M) {h : ℝ} (hh : Size m h)
    {z : ℕ → ℝ} (hz : Nodal m F z) : |dispSize m z - ∫ x in Om, 3 * ∑ r ∈ range 5, F r x ^ 2| ≤ volume.real Om * (60 * S ^ 2 * h) := by
  have hs := fun e (he : e ∈ m.eids) => ht.sub he
  have hF' := hF.smooth hs
  have hc : ∀ e ∈ m.eids, ContinuousOn (fun x => 3 * ∑ r ∈ range 5, F r x ^ 2) (hull m e) := fun e he =>
    continuousOn_const.mul (continuousOn_finsetSum _ fun r hr => ((cont_of_lip fun x hx y hy => field_lip he hF' (mem_range.1 hr) hy hx)).pow 2)
  have := triangles_near (m := m) (q := fun _ x => 3 * ∑ r ∈ range 5, F r x ^ 2) (Y := fun e => ∑ r ∈ range 5, (disp m z r (m.tria e).n1 ^ 2 + disp m z r (m.tria e).n2 ^ 2 + disp m z r (m.tria e).n3 ^ 2))
    (β := 60 * S ^ 2 * h) hc fun e he x hx => by
      have one : ∀ r < 5, ∀ i, IsCorner m e i → |disp m z r i ^ 2 - F r x ^ 2| ≤ 4 * S ^ 2 * h := fun r hr i hi => by
        rw [hz i (corner_mem w hp.distinct he hi) r hr]
        have hS := S_nonneg he hF' hx
        have b0 := (hF'.bound e he r hr _ (pt_mem_hull hi)).1
        have b1 := (hF'.bound e he r hr x hx).1
        have b2 := field_lip he hF' hr hx (pt_mem_hull hi)
        have b3 : dist (pt m i) x ≤ h := (hull_dist (pt_mem_hull hi) hx).trans (hh e he)
        have b4 : |F r (pt m i) - F r x| ≤ 2 * S * h := b2.trans (mul_le_mul_of_nonneg_left b3 (by positivity))
        have e1 : F r (pt m i) ^ 2 - F r x ^ 2 = (F r (pt m i) + F r x) * (F r (pt m i) - F r x) := by ring
        rw [e1, abs_mul]
        have b5 : |F r (pt m i) + F r x| ≤ 2 * S := (abs_add_le _ _).trans (by linarith)
        have := mul_le_mul b5 b4 (abs_nonneg _) (by positivity)
        linarith
      have e1 : (∑ r ∈ range 5, (disp m z r (m.tria e).n1 ^ 2 + disp m z r (m.tria e).n2 ^ 2 + disp m z r (m.tria e).n3 ^ 2)) - 3 * ∑ r ∈ range 5, F r x ^ 2 =
          ∑ r ∈ range 5, ((disp m z r (m.tria e).n1 ^ 2 - F r x ^ 2) + (disp m z r (m.tria e).n2 ^ 2 - F r x ^ 2) + (disp m z r (m.tria e).n3 ^ 2 - F r x ^ 2)) := by
        rw [mul_sum, ← sum_sub_distrib]
        exact sum_congr rfl fun r _ => by ring
      rw [e1]
      refine (abs_sum_le_sum_abs _ _).trans ?_
      have : ∀ r ∈ range 5, |(disp m z r (m.tria e).n1 ^ 2 - F r x ^ 2) + (disp m z r (m.tria e).n2 ^ 2 - F r x ^ 2) + (disp m z r (m.tria e).n3 ^ 2 - F r x ^ 2)| ≤ 12 * S ^ 2 * h := fun r hr => by
        have hr := mem_range.1 hr
        have a1 := one r hr _ (Or.inl rfl)
        have a2 := one r hr _ (Or.inr (Or.inl rfl))
        have a3 := one r hr _ (Or.inr (Or.inr rfl))
        refine (abs_add_three _ _ _).trans ?_
        linarith
      refine (sum_le_sum this).trans (le_of_eq ?_)
      rw [sum_const, card_range, nsmul_eq_mul]; push_cast; ring
  rw [ht.integral hc, ht.area] at this
  exact this

/-- a field that is not zero has a positive mean square -/
theorem field_pos {m : Mesh} {Om : Set (ℝ × ℝ)} (ht : Tiles m Om) {F Fx Fy : ℕ → ℝ × ℝ → ℝ} {S M : ℝ} (hF : FieldOn Om F Fx Fy S M) {x0 : ℝ × ℝ} (hx : x0 ∈ interior Om) {r : ℕ} (hr : r < 5)
    (h0 : F r x0 ≠ 0) : 0 < ∫ x in Om, 3 * ∑ r ∈ range 5, F r x ^ 2 := by
  have hcO : IsCompact Om := by rw [ht.eq]; exact filled_compact m _
  have hc : ContinuousOn (fun x => 3 * ∑ r ∈ range 5, F r x ^ 2) Om := continuousOn_const.mul (continuousOn_finsetSum _ fun r hr => (fun x hx => (hF.deriv r (mem_range.1 hr) x hx).continuousWithinAt.pow 2))
  have hn : ∀ x, 0 ≤ 3 * ∑ r ∈ range 5, F r x ^ 2 := fun x => mul_nonneg (by norm_num) (sum_nonneg fun _ _ => sq_nonneg _)
  rw [setIntegral_pos_iff_support_of_nonneg_ae (Eventually.of_forall hn) (hc.integrableOn_compact hcO)]
  have ca : ContinuousAt (F r) x0 := ((hF.deriv r hr x0 (interior_subset hx)).continuousWithinAt).continuousAt (mem_interior_iff_mem_nhds.1 hx)
  have ev : ∀ᶠ x in nhds x0, F r x ≠ 0 ∧ x ∈ Om := (ca.eventually_ne h0).and (mem_interior_iff_mem_nhds.1 hx)
  refine Measure.measure_pos_of_mem_nhds _ (x := x0) (ev.mono fun x hx => ⟨?_, hx.2⟩)
  rw [Function.mem_support]
  have : F r x ^ 2 ≤ ∑ r ∈ range 5, F r x ^ 2 := single_le_sum (f := fun r => F r x ^ 2) (fun _ _ => sq_nonneg _) (mem_range.2 hr)
  have := pow_pos (abs_pos.2 hx.1) 2
  rw [sq_abs] at this
  exact (by linarith : 0 < 3 * ∑ r ∈ range 5, F r x ^ 2).ne'

/-- C144: the condition number does grow like `1 / h ^ 2`: when the mesh of a plate is refined, whatever the supports (as long as some smooth displacement is left free),
no bound of smaller order holds -/
theorem C144_sharp {Om : Set (ℝ × ℝ)} {l : ℝ × ℝ → Lam} {pn : Bool} {q : ℝ} {m : ℕ → Mesh} {L0 L1 c g tau : ℝ} {F Fx Fy : ℕ → ℝ × ℝ → ℝ} {S M : ℝ} (hr : ∀ n, Reachable (m n)) (hg : ∀ n, GoodPlate (m n) pn)
    (hR : Refined Om l pn q m) (hq : 0 < q) (hL1 : 0 ≤ L1) (hl : LamOn Om l L0 L1) (hc0 : 0 < c) (hg0 : 0 < g)
    (htau : 0 < tau) (hc : ∀ x ∈ Om, AtLeast c (l x)) (hsh : ∀ x ∈ Om, ShearAtLeast g (l x)) (ht : ∀ x ∈ Om, tau ≤ (l x).h) {al : ℝ} (hal : 0 ≤ al) {fa : Bool}
    (hM : 0 ≤ M) (hF : FieldOn Om F Fx Fy S M) {x0 : ℝ × ℝ} (hx : x0 ∈ interior Om) {r : ℕ} (hr5 : r < 5) (h0 : F r x0 ≠ 0) {h : ℕ → ℝ} (hpos : ∀ n, 0 < h n) (hlim : Tendsto h atTop (nhds 0))
    (hev : ∀ n, EvenSized (m n) (h n) q) {Sp : ℕ → Set ℕ} {K : ℕ → Mat} {z : ℕ → ℕ → ℝ} (hK : ∀ n, Stiffness (m n) pn "cell-based-no-smoothing" al fa (K n)) (hz : ∀ n, Nodal (m n) F (z n))
    (hsp : ∀ n, Supported (K n).dim (Sp n) (z n)) : ∃ b : ℝ, 0 < b ∧ ∀ᶠ n in atTop, ∀ k, CondAtMost (K n) (Sp n) k → b / h n ^ 2 ≤ k := by
  obtain ⟨b, hb0, hb⟩ := C144_diagonal (L0 := L0) (L1 := L1) (c := c) (H := 1) hq hc0 hg0 htau hal
  set I := ∫ x in Om, 3 * ∑ r ∈ range 5, F r x ^ 2 with hI
  have hI0 : 0 < I := field_pos (hR.tiles 0) hF hx hr5 h0
  have t1 := C122_stiffness hr hR hL1 hl htau ht hal hM hF hF hK hz hz
  set E := plateEnergy Om l Fx Fy Fx Fy + plateShear Om l F Fx Fy F Fx Fy with hE
  have hfp : ∀ n v, 0 ≤ form (K n).dim (K n).get v v := fun n v => (modes_total (hr n) (hg n) hal (hK n) (d := v)).1
  have hE0 : 0 ≤ E := ge_of_tendsto' t1 fun n => hfp n _
  have t2 : Tendsto (fun n => volume.real Om * (60 * S ^ 2 * h n)) atTop (nhds 0) := by
    have : Continuous fun x : ℝ => volume.real Om * (60 * S ^ 2 * x) := by fun_prop
    exact (this.tendsto' 0 0 (by simp)).comp hlim
  refine ⟨b * (I / 2) / (4 * q * (E + 1)), by positivity, ?_⟩
  filter_upwards [t1.eventually_le_const (lt_add_one E), t2.eventually_le_const (half_pos hI0), hlim.eventually_le_const zero_lt_one] with n e1 e2 e3 k hk
  have w := (hr n).wf
  have hdim := (stiffness_split (hr n) (hg n) (hK n)).1
  have d1 := dispSize_near w (hg n).proper (hR.tiles n) hF (hev n).size (hz n)
  have d2 : I / 2 ≤ dispSize (m n) (z n) := by
    have := (abs_le.1 (d1.trans e2)).1
    linarith
  have d3 : dispSize (m n) (z n) ≤ h n ^ 2 * (4 * q * sqLen (K n).dim (z n)) := by
    have c1 := corners_sqLen w (hg n).proper (hR.tiles n) hq.le (hpos n) (hev n) (z n)
    rw [← hdim] at c1
    refine le_trans ?_ (mul_le_mul_of_nonneg_left c1 (sq_nonneg _))
    rw [← List.sum_map_mul_left]
    refine List.sum_le_sum fun e he => ?_
    have a := (area_le (m n) e).trans (pow_le_pow_left₀ (charLen_nonneg _ e) ((hev n).size e he) 2)
    have := triSq_eq (m := m n) (z n) e
    unfold triSq at this
    rw [this]
    exact mul_le_mul_of_nonneg_right a (sum_nonneg fun _ _ => by positivity)
  have hz0 : 0 < sqLen (K n).dim (z n) := by
    rcases (sqLen_nonneg (K n).dim (z n)).eq_or_lt with h | h
    · rw [← h] at d3; simp only [mul_zero] at d3; linarith
    · exact h
  obtain ⟨j, hj, hjz⟩ : ∃ j < (K n).dim, z n j ≠ 0 := by
    by_contra hcon
    push Not at hcon
    exact hz0.ne' (sum_eq_zero fun i hi => by rw [hcon i (mem_range.1 hi)]; norm_num)
  have hjS : j ∉ Sp n := fun h => hjz (hsp n j hj h)
  have su : Supported (K n).dim (Sp n) (single j) := fun i _ hi => by
    unfold single
    rw [if_neg]; rintro rfl; exact hjS hi
  have lu : sqLen (K n).dim (single j) = 1 := by
    unfold sqLen single
    simp [hj]
  have k1 := hk (single j) (z n) su (hsp n)
  rw [lu, form_single (K n).get hj hj, mul_one] at k1
  have k2 := hb (m n) pn l (hr n) (refined_smooth hg hR hl hc hsh ht n) (h n) (hpos n) e3 (hev n) "cell-based-no-smoothing" fa (K n) (hK n) j hj
  have k3 := mul_le_mul_of_nonneg_right k2 hz0.le
  have hk0 : 0 ≤ k := by
    by_contra hneg
    have := mul_nonpos_of_nonpos_of_nonneg (not_le.1 hneg).le (hfp n (z n))
    have := mul_pos hb0 hz0
    linarith
  have k4 : b * sqLen (K n).dim (z n) ≤ k * (E + 1) := (k3.trans k1).trans (mul_le_mul_of_nonneg_left e1 hk0)
  rw [div_div, div_le_iff₀ (by have := hpos n; positivity)]
  have k5 := mul_le_mul_of_nonneg_left (d2.trans d3) hb0.le
  have k6 := mul_le_mul_of_nonneg_left k4 (by have := hpos n; positivity : 0 ≤ h n ^ 2 * (4 * q))
  linarith

/-- grids have triangles of the same size -/
theorem GridMesh.even {k : ℕ} {l : ℝ × ℝ → Lam} {pn : Bool} {m : Mesh} (h : GridMesh k l pn m) : EvenSized m (Real.sqrt 2 / k) 4 :=
  ⟨fun e he => h.len he, fun e he => by
    rw [h.area he, div_pow, Real.sq_sqrt (by norm_num)]
    refine le_of_eq ?_
    rcases Nat.eq_zero_or_pos k with rfl | hk
    · simp
    · have : (0:ℝ) < k := by exact_mod_cast hk
      field_simp; norm_num⟩

/-- The hinged unit square on grids of `n + 1` by `n + 1` squares: up to constant factors the condition number is the square of `n + 1`, and no less. -/
example (pn : Bool) : ∃ (m : ℕ → Mesh) (K : ℕ → Mat) (b C : ℝ), 0 < b ∧ (∀ n, GridMesh (n + 1) (fun _ => exIso) pn (m n)) ∧
    (∀ n, Stiffness (m n) pn "cell-based-no-smoothing" (1 / 10) false (K n)) ∧ (∀ n, CondAtMost (K n) (gridHinge (n + 1)) (C * (n + 1) ^ 2)) ∧
    ∀ᶠ n in atTop, ∀ k, CondAtMost (K n) (gridHinge (n + 1)) k → b * ((n : ℝ) + 1) ^ 2 ≤ k := by
  choose m h using fun n => gridMesh_exists (Nat.succ_pos n) (fun _ => exLam_stiff one_pos one_pos one_pos one_pos) pn
  choose K0 K hK0 hK hG using fun n => (h n).made (Or.inr rfl) (1 / 10) false
  have hc : ∀ x ∈ unitSquare, AtLeast 1 ((fun _ => exIso : ℝ × ℝ → Lam) x) := fun _ _ => exLam_least le_rfl le_rfl
  have hsh : ∀ x ∈ unitSquare, ShearAtLeast 1 ((fun _ => exIso : ℝ × ℝ → Lam) x) := fun _ _ => exIso_shearLeast
  have hth : ∀ x ∈ unitSquare, 1 ≤ ((fun _ => exIso : ℝ × ℝ → Lam) x).h := fun _ _ => le_rfl
  have hpos : ∀ n : ℕ, 0 < Real.sqrt 2 / ((n + 1 : ℕ) : ℝ) := fun n => by positivity
  have hsq : ∀ n : ℕ, (Real.sqrt 2 / ((n + 1 : ℕ) : ℝ)) ^ 2 = 2 / ((n : ℝ) + 1) ^ 2 := fun n => by rw [div_pow, Real.sq_sqrt (by norm_num)]; push_cast; rfl
  obtain ⟨C, hC0, hC⟩ := C144_condition (q := 4) (L0 := 1) (L1 := 0) (c := 1) (g := 1) (tau := 1) (H := Real.sqrt 2) (al := 1 / 10) (R := 1) (by norm_num) zero_le_one one_pos one_pos one_pos (by norm_num)
  have hpi := Real.pi_pos
  have hlim : Tendsto (fun n : ℕ => Real.sqrt 2 / ((n + 1 : ℕ) : ℝ)) atTop (nhds 0) := (tendsto_const_div_atTop_nhds_zero_nat (Real.sqrt 2)).comp (tendsto_add_atTop_nat 1)
  have hin : ((1 / 2, 1 / 2) : ℝ × ℝ) ∈ interior unitSquare := by
    unfold unitSquare
    rw [interior_prod_eq, interior_Icc]
    constructor <;> constructor <;> norm_num
  have hne : navier 2 (1 / 2, 1 / 2) ≠ 0 := by
    unfold navier navierAmp wave
    simp only [if_true, Nat.reduceEqDiff, if_false, Nat.cast_zero, zero_mul, add_zero, mul_one_div, Real.sin_pi_div_two]
    positivity
  obtain ⟨b, hb0, hb⟩ := C144_sharp (fun n => (h n).reach) (fun n => (h n).good) (grid_refined h) (by norm_num) le_rfl exUniform_on one_pos one_pos one_pos hc hsh hth (by norm_num) (by positivity) navier_on
    (x0 := (1 / 2, 1 / 2)) (r := 2) hin (by norm_num) hne hpos hlim (fun n => (h n).even) hK (fun n => (h n).nodal navier) (fun n => navier_supported (Nat.succ_pos n) _)
  refine ⟨m, K, b / 2, C / 2, by positivity, h, hK, fun n => ?_, ?_⟩
  · have := hC (m n) pn _ unitSquare (h n).reach (refined_smooth (fun n => (h n).good) (grid_refined h) exUniform_on hc hsh hth n) ((h n).tiles (Nat.succ_pos n)) _ (hpos n)
      (div_le_self (Real.sqrt_nonneg 2) (by push_cast; linarith [(Nat.cast_nonneg n : (0:ℝ) ≤ n)])) (h n).even "cell-based-no-smoothing" false _ (K n) ((h n).guided (Nat.succ_pos n)) (hK n)
    rw [hsq] at this
    convert this using 1
    field_simp
  · filter_upwards [hb] with n hn k hk
    have := hn k hk
    rw [hsq] at this
    refine le_trans (le_of_eq ?_) this
    field_simp

/-- One constant for the hinged unit square on all grids: a change of the loads by the fraction `t` changes the displacements by at most the fraction
`C (n + 1) ^ 2 t`. -/
example (pn : Bool) : ∃ C : ℝ, ∀ (n : ℕ) (m : Mesh), GridMesh (n + 1) (fun _ => exIso) pn m → ∀ (K : Mat) (f r d d' : ℕ → ℝ) (t : ℝ), Stiffness m pn "cell-based" (1 / 10) false K →
    StaticSol K (gridHinge (n + 1)) f d → StaticSol K (gridHinge (n + 1)) (fun i => f i + r i) d' → 0 < freeSq K.dim (gridHinge (n + 1)) f →
    freeSq K.dim (gridHinge (n + 1)) r ≤ t ^ 2 * freeSq K.dim (gridHinge (n + 1)) f → sqLen K.dim (fun i => d' i - d i) ≤ (C * (n + 1) ^ 2 * t) ^ 2 * sqLen K.dim d := by
  have hc : ∀ x ∈ unitSquare, AtLeast 1 ((fun _ => exIso : ℝ × ℝ → Lam) x) := fun _ _ => exLam_least le_rfl le_rfl
  have hsh : ∀ x ∈ unitSquare, ShearAtLeast 1 ((fun _ => exIso : ℝ × ℝ → Lam) x) := fun _ _ => exIso_shearLeast
  have hth : ∀ x ∈ unitSquare, 1 ≤ ((fun _ => exIso : ℝ × ℝ → Lam) x).h := fun _ _ => le_rfl
  obtain ⟨C, hC0, hC⟩ := C144_condition (q := 4) (L0 := 1) (L1 := 0) (c := 1) (g := 1) (tau := 1) (H := Real.sqrt 2) (al := 1 / 10) (R := 1) (by norm_num) zero_le_one one_pos one_pos one_pos (by norm_num)
  choose ms hms using fun n => gridMesh_exists (Nat.succ_pos n) (fun _ => exLam_stiff one_pos one_pos one_pos one_pos) pn
  refine ⟨C / 2, fun n m h K f r d d' t hK hd hd' hf0 hf => ?_⟩
  have hfam : ∀ i, GridMesh (i + 1) (fun _ => exIso) pn (if i = n then m else ms i) := fun i => by
    split_ifs with hi
    · rw [hi]; exact h
    · exact hms i
  have sm := refined_smooth (fun i => (hfam i).good) (grid_refined hfam) exUniform_on hc hsh hth n
  rw [if_pos rfl] at sm
  have k := hC m pn _ unitSquare h.reach sm (h.tiles (Nat.succ_pos n)) (Real.sqrt 2 / ((n + 1 : ℕ) : ℝ)) (by positivity)
    (div_le_self (Real.sqrt_nonneg 2) (by push_cast; linarith [(Nat.cast_nonneg n : (0:ℝ) ≤ n)])) h.even "cell-based" false _ K (h.guided (Nat.succ_pos n)) hK
  have e := C144_error h.reach h.good (by norm_num) hK k hd hd'
  have hsq : C / (Real.sqrt 2 / ((n + 1 : ℕ) : ℝ)) ^ 2 = C / 2 * (n + 1) ^ 2 := by rw [div_pow, Real.sq_sqrt (by norm_num)]; push_cast; field_simp
  rw [hsq] at e
  refine le_of_mul_le_mul_left (e.trans ?_) hf0
  have := mul_le_mul_of_nonneg_left hf (sq_nonneg (C / 2 * ((n:ℝ) + 1) ^ 2))
  have := mul_le_mul_of_nonneg_right this (sqLen_nonneg K.dim d)
  linarith

end Meshless
