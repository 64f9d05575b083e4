import Verif.Lemmas.Guided
import Verif.Props.Equilibrium

/-! Hinged plates and plates with lines of symmetry (C143): stability that does not deteriorate with refinement, and convergence. -/

set_option autoImplicit false

namespace Meshless
open Spec Finset MeasureTheory Filter Topology

theorem Spec.Guided.rotGuided {m : Mesh} {S : Set ℕ} {R : ℝ} (h : Guided m S R) : RotGuided m S R := ⟨h.rot, fun r hr => h.held r (by omega)⟩

/-- C143: supports that guide the rotations control rotations and all their derivatives by the curvatures, with a constant that depends on the width of the plate
only. So the convergence statements C132, C134 and C135 apply. -/
theorem C143_rotations {m : Mesh} (hr : Reachable m) (hp : Proper m) (hg : Planar m) {R : ℝ} {S : Set ℕ} (hc : RotGuided m S R) : RotHeld m S (2 + 96 * R ^ 2) := guided_rotHeld hr.wf hp hg hc

/-- C143: under supports that guide all displacements the stiffness matrix is bounded below by the mean square of the displacements; the constant depends on bounds
for shape and size of triangles, width of the plate and stiffness of its laminates, not on the mesh -/
theorem C143_coercive {s L0 L1 c g tau H al R : ℝ} (hs0 : 0 ≤ s) (hc : 0 < c) (hg0 : 0 < g) (htau : 0 < tau) (hal : 0 ≤ al) :
    ∃ C : ℝ, 0 ≤ C ∧ ∀ (m : Mesh) (pn : Bool) (l : ℝ × ℝ → Lam), Reachable m → SmoothPlate m pn l s L0 L1 c g tau → 0 ≤ H → Size m H →
      ∀ (method : String) (fa : Bool) (S : Set ℕ) (K : Mat) (v : ℕ → ℝ), Guided m S R → Stiffness m pn method al fa K → Supported K.dim S v → dispSize m v ≤ C * form K.dim K.get v v := by
  obtain ⟨Q, hQ⟩ : ∃ Q, Q = (1 + (2 + 96 * R ^ 2)) * (81 * s ^ 4 / c) + (tau ^ 2 + al * H ^ 2) / (tau ^ 2 * g ^ 2) := ⟨_, rfl⟩
  obtain ⟨E, hE⟩ : ∃ E, E = 48 * R ^ 2 * (6 + 48 * (3 * s * |H| + 1) ^ 2 + 144 * R ^ 2) := ⟨_, rfl⟩
  have hE0 : 0 ≤ E := by rw [hE]; positivity
  have hQ0 : 0 ≤ Q := by rw [hQ]; positivity
  refine ⟨E * Q, by positivity, fun m pn l hr hsp hH0 hH method fa S K v hcl hK hv => ?_⟩
  have w := hr.wf
  have hg := hsp.good
  obtain ⟨hdim, hhp, hform⟩ := stiffness_split hr hg hK
  have hv' : ∀ i < 5 * m.nids.length, i ∈ S → v i = 0 := fun i hi hS => hv i (hdim ▸ hi) hS
  have s1 := strainSize_energy w hg.proper hg.planar hhp hc.le hsp.stiff hsp.shape v
  have s2 := gammaSize_le (fun t ht r => shearMod_least w hhp hg0.le htau hal hsp.shear hsp.assigned hsp.thick hH fa ht r) method v
  have s3 := guided_rotHeld w hg.proper hg.planar hcl.rotGuided v hv'
  obtain ⟨p1, p2, p3⟩ := size_of_pos (m := m) (v := v)
  have p2 := p2 method
  have s4 : strainSize m v ≤ 81 * s ^ 4 / c * energy m pn v v := by
    rw [div_mul_eq_mul_div, le_div_iff₀ hc]; linarith
  have hb : 0 < tau ^ 2 / (tau ^ 2 + al * H ^ 2) * g ^ 2 := by positivity
  have s5 : gammaSize m method v ≤ (tau ^ 2 + al * H ^ 2) / (tau ^ 2 * g ^ 2) * shearEnergy m pn al fa (methodGamma m method) v v := by
    have : gammaSize m method v ≤ shearEnergy m pn al fa (methodGamma m method) v v / (tau ^ 2 / (tau ^ 2 + al * H ^ 2) * g ^ 2) := by
      rw [le_div_iff₀ hb]; linarith
    refine this.trans (le_of_eq ?_)
    field_simp
  have en : 0 ≤ energy m pn v v := (energy_zero_eps w hg.proper hg.planar hhp hg.abd).1
  have sn : 0 ≤ shearEnergy m pn al fa (methodGamma m method) v v := (mul_nonneg hb.le p2).trans s2
  have tot : strainSize m v + gammaSize m method v + rotSize m v ≤ Q * form K.dim K.get v v := by
    rw [hform, hQ]
    have t1 := mul_le_mul_of_nonneg_left s4 (by positivity : 0 ≤ 1 + (2 + 96 * R ^ 2))
    have t2 : 0 ≤ (1 + (2 + 96 * R ^ 2)) * (81 * s ^ 4 / c) * shearEnergy m pn al fa (methodGamma m method) v v := by positivity
    have t3 : 0 ≤ (tau ^ 2 + al * H ^ 2) / (tau ^ 2 * g ^ 2) * energy m pn v v := by positivity
    linarith
  refine (guided_dispSize w hg.proper hg.planar hsp.shape hH hcl method hv').trans ?_
  obtain ⟨l0, l1⟩ := litErr_nonneg method
  have b1 : 48 * R ^ 2 * (6 + 48 * (3 * s * H + litErr method) ^ 2 + 144 * R ^ 2) ≤ E := by
    rw [hE]
    have : 3 * s * H ≤ 3 * s * |H| := mul_le_mul_of_nonneg_left (le_abs_self H) (by positivity)
    have := pow_le_pow_left₀ (by positivity : 0 ≤ 3 * s * H + litErr method) (add_le_add this l1) 2
    exact mul_le_mul_of_nonneg_left (by linarith) (by positivity)
  rw [mul_assoc E]
  exact mul_le_mul b1 tot (by positivity) hE0

section
variable {m : Mesh} (w : WF m) (hp : Proper m) (hg : Planar m) {S : Set ℕ} {R : ℝ} {v : ℕ → ℝ} (hv : ∀ i < 5 * m.nids.length, i ∈ S → v i = 0)
include w hp hg hv

theorem flat_zero {r : ℕ} (hr : r < 5) (h : HeldAlongX m S R r ∨ HeldAlongY m S R r) (h0 : ∀ e ∈ m.eids, gradX m (tpoly m e) (disp m v r) = 0 ∧ gradY m (tpoly m e) (disp m v r) = 0) {e i : ℕ} (he : e ∈ m.eids)
    (hi : IsCorner m e i) : disp m v r i = 0 := by
  have h1 := held_values w hp hg hv hr h
  have z : (m.eids.map fun e => triArea m e * (gradX m (tpoly m e) (disp m v r) ^ 2 + gradY m (tpoly m e) (disp m v r) ^ 2)).sum = 0 := List.sum_eq_zero fun y hy => by
    obtain ⟨e, he, rfl⟩ := List.mem_map.1 hy
    rw [(h0 e he).1, (h0 e he).2]; ring
  rw [z, mul_zero] at h1
  have h2 := List.single_le_sum (l := m.eids.map fun e => triArea m e * (disp m v r (m.tria e).n1 ^ 2 + disp m v r (m.tria e).n2 ^ 2 + disp m v r (m.tria e).n3 ^ 2 +
        (disp m v r (m.tria e).n1 + disp m v r (m.tria e).n2 + disp m v r (m.tria e).n3) ^ 2)) (fun y hy => by
    obtain ⟨e, _, rfl⟩ := List.mem_map.1 hy
    exact mul_nonneg (abs_nonneg _) (by positivity)) _ (List.mem_map.2 ⟨e, he, rfl⟩)
  have hA : 0 < triArea m e := abs_pos.2 (hg.nondeg e he)
  have h3 := nonpos_of_mul_nonpos_right (h2.trans h1) hA
  have n := fun i => sq_nonneg (disp m v r i)
  have n0 := sq_nonneg (disp m v r (m.tria e).n1 + disp m v r (m.tria e).n2 + disp m v r (m.tria e).n3)
  refine pow_eq_zero_iff (n := 2) (by norm_num) |>.1 (le_antisymm ?_ (sq_nonneg _))
  rcases hi with rfl | rfl | rfl <;> linarith [n (m.tria e).n1, n (m.tria e).n2, n (m.tria e).n3]

theorem rigid_still {p q : ℕ} (hp5 : p < 5) (hq5 : q < 5) (h : OneFree m S p q) (h1 : HeldAlongX m S R p ∨ HeldAlongY m S R p) (h2 : HeldAlongX m S R q ∨ HeldAlongY m S R q) {a b c : ℝ}
    (hf : RigidField m (disp m v p) (disp m v q) a b c) {e : ℕ} (he : e ∈ m.eids) : a = 0 ∧ b = 0 ∧ c = 0 := by
  have gr : ∀ e ∈ m.eids, (gradX m (tpoly m e) (disp m v p) = 0 ∧ gradY m (tpoly m e) (disp m v p) = -c) ∧ gradX m (tpoly m e) (disp m v q) = c ∧ gradY m (tpoly m e) (disp m v q) = 0 := fun e he =>
    ⟨tri_grad hg he (c := a) fun i hi => by rw [(hf i (corner_mem w hp.distinct he hi)).1]; ring, tri_grad hg he (c := b) fun i hi => by rw [(hf i (corner_mem w hp.distinct he hi)).2]; ring⟩
  have k := korn_parallel w hp hg (h.parallel w hp hv hp5 hq5)
  have hc : c = 0 := by
    have z : (m.eids.map fun e => triArea m e * (gradX m (tpoly m e) (disp m v p) ^ 2 + gradY m (tpoly m e) (disp m v q) ^ 2 + (gradY m (tpoly m e) (disp m v p) + gradX m (tpoly m e) (disp m v q)) ^ 2)).sum = 0 :=
      List.sum_eq_zero fun y hy => by
        obtain ⟨e, he, rfl⟩ := List.mem_map.1 hy
        rw [(gr e he).1.1, (gr e he).1.2, (gr e he).2.1, (gr e he).2.2]; ring
    rw [z, List.map_congr_left (g := fun e => triArea m e * (2 * c ^ 2)) (fun e he => by rw [(gr e he).1.1, (gr e he).1.2, (gr e he).2.1, (gr e he).2.2]; ring), mul_zero] at k
    have h2 := List.single_le_sum (l := m.eids.map fun e => triArea m e * (2 * c ^ 2)) (fun y hy => by
      obtain ⟨e, _, rfl⟩ := List.mem_map.1 hy
      exact mul_nonneg (abs_nonneg _) (by positivity)) _ (List.mem_map.2 ⟨e, he, rfl⟩)
    have hA : 0 < triArea m e := abs_pos.2 (hg.nondeg e he)
    have h3 := nonpos_of_mul_nonpos_right (h2.trans k) hA
    exact pow_eq_zero_iff (n := 2) (by norm_num) |>.1 (le_antisymm (by linarith) (sq_nonneg c))
  have c1 : IsCorner m e (m.tria e).n1 := Or.inl rfl
  have z1 := flat_zero w hp hg hv hp5 h1 (fun e he => ⟨(gr e he).1.1, by rw [(gr e he).1.2, hc, neg_zero]⟩) he c1
  have z2 := flat_zero w hp hg hv hq5 h2 (fun e he => ⟨by rw [(gr e he).2.1, hc], (gr e he).2.2⟩) he c1
  obtain ⟨f1, f2⟩ := hf _ (corner_mem w hp.distinct he c1)
  rw [z1, hc] at f1
  rw [z2, hc] at f2
  exact ⟨by linarith, by linarith, hc⟩
end

/-- C143: such supports hold the plate: the static problem has exactly one solution -/
theorem C143_stable {m : Mesh} (hr : Reachable m) {pn : Bool} (hg : GoodPlate m pn) {R : ℝ} {S : Set ℕ} (hc : Guided m S R) {method : String} {al : ℝ} (hal : 0 ≤ al) {fa : Bool} {K : Mat}
    (hK : Stiffness m pn method al fa K) : Stable K S := by
  intro v hv ⟨j, hj, hvj⟩
  have w := hr.wf
  have hp := hg.proper
  have hdim := (stiffness_split hr hg hK).1
  have hv' : ∀ i < 5 * m.nids.length, i ∈ S → v i = 0 := fun i hi hS => hv i (hdim ▸ hi) hS
  obtain ⟨n0, n1⟩ := modes_total hr hg hal hK (d := v)
  refine lt_of_le_of_ne n0 fun h0 => hvj ?_
  obtain ⟨⟨a, b, t, h1⟩, p, q, r, h2, h3⟩ := n1 h0.symm
  have hi : j / 5 < m.nids.length := by omega
  obtain ⟨e, he, hc'⟩ := hg.piece.used _ (List.getElem_mem hi)
  obtain ⟨rfl, rfl, rfl⟩ := rigid_still w hp hg.planar hv' (by norm_num) (by norm_num) hc.plane (hc.held 0 (by norm_num)) (hc.held 1 (by norm_num)) h1 he
  obtain ⟨rfl, rfl, rfl⟩ := rigid_still w hp hg.planar hv' (by norm_num) (by norm_num) hc.rot (hc.held 3 (by norm_num)) (hc.held 4 (by norm_num)) h2 he
  have h4 := flat_zero w hp hg.planar hv' (r := 2) (by norm_num) (hc.held 2 (by norm_num)) (fun e he => by
    obtain ⟨c, hc⟩ := h3 e he
    have := tri_grad hg.planar he hc
    simpa using this) he hc'
  have hid : m.nids.idxOf m.nids[j / 5] = j / 5 := w.nids_nodup.idxOf_getElem _ _
  have hd : ∀ r, disp m v r m.nids[j / 5] = v (5 * (j / 5) + r) := fun r => by unfold disp; rw [hid]
  obtain ⟨u0, u1⟩ := h1 _ (List.getElem_mem hi)
  obtain ⟨u3, u4⟩ := h2 _ (List.getElem_mem hi)
  rw [hd] at u0 u1 u3 u4 h4
  simp only [zero_mul, sub_zero, add_zero] at u0 u1 u3 u4
  have : j % 5 < 5 := Nat.mod_lt _ (by norm_num)
  have hj5 : 5 * (j / 5) + j % 5 = j := by omega
  rw [← hj5]
  interval_cases j % 5
  · simpa using u0
  · exact u1
  · exact h4
  · exact u3
  · exact u4

/-- C143: under supports that guide all displacements, the displacements computed tend to those of the solution at the nodes, in the mean square, at the rate of
the size of the triangles; so do strains and energy -/
theorem C143_displacements {s L0 L1 c g tau H al R A S M : ℝ} (hs0 : 0 ≤ s) (hL0 : 0 ≤ L0) (hL1 : 0 ≤ L1) (hc : 0 < c) (hg0 : 0 < g) (htau : 0 < tau) (hal : 0 ≤ al) (hS : 0 ≤ S) (hM : 0 ≤ M) :
    ∃ C : ℝ, 0 ≤ C ∧ ∀ (m : Mesh) (pn : Bool) (l : ℝ × ℝ → Lam), Reachable m → SmoothPlate m pn l s L0 L1 c g tau → totalArea m ≤ A → ∀ h, 0 ≤ h → h ≤ H → Size m h →
      ∀ (method : String) (fa : Bool) (Sp : Set ℕ) (F Fx Fy : ℕ → ℝ × ℝ → ℝ) (K : Mat) (z f d : ℕ → ℝ), Guided m Sp R → SmoothField m F Fx Fy S M →
      StaticProblem m pn l method al fa Sp F Fx Fy K z f d →
      form K.dim K.get (fun i => d i - z i) (fun i => d i - z i) ≤ C * (h + litErr method) ^ 2 ∧ strainErr m Fx Fy d ≤ C * (h + litErr method) ^ 2 ∧
      dispSize m (fun i => d i - z i) ≤ C * (h + litErr method) ^ 2 := by
  obtain ⟨C, hC0, hC⟩ := C132_rate (H := H) (A := A) hs0 hL0 hL1 hc hg0 htau hal (by positivity : 0 ≤ 2 + 96 * R ^ 2) hS hM
  obtain ⟨C', hC0', hC'⟩ := C132_strains (H := H) (A := A) hs0 hL0 hL1 hc hg0 htau hal (by positivity : 0 ≤ 2 + 96 * R ^ 2) hS hM
  obtain ⟨E, hE⟩ : ∃ E, E = 48 * R ^ 2 * (6 + 48 * (3 * s * |H| + 1) ^ 2 + 144 * R ^ 2) := ⟨_, rfl⟩
  have hE0 : 0 ≤ E := by rw [hE]; positivity
  refine ⟨C + C' + E * C, by positivity, fun m pn l hr hsp hA h h0 hhH hh method fa Sp F Fx Fy K z f d hcl hF hpr => ?_⟩
  have hrot := guided_rotHeld hr.wf hsp.good.proper hsp.good.planar hcl.rotGuided
  obtain ⟨a1, a2⟩ := hC m pn l hr hsp hA h h0 hhH hh method fa Sp F Fx Fy K z f d hrot hF hpr
  have a3 := hC' m pn l hr hsp hA h h0 hhH hh method fa Sp F Fx Fy K z f d hrot hF hpr
  obtain ⟨l0, l1⟩ := litErr_nonneg method
  have hdim := (stiffness_split hr hsp.good hpr.stiff).1
  have a4 := guided_dispSize hr.wf hsp.good.proper hsp.good.planar hsp.shape hh hcl method (v := fun i => d i - z i) fun i hi hS => by
    rw [hpr.sol.1 i (hdim ▸ hi) hS, hpr.supp i (hdim ▸ hi) hS, sub_zero]
  obtain ⟨q1, q2, q3⟩ := size_of_pos (m := m) (v := fun i => d i - z i)
  have q2 := q2 method
  have b1 : 48 * R ^ 2 * (6 + 48 * (3 * s * h + litErr method) ^ 2 + 144 * R ^ 2) ≤ E := by
    rw [hE]
    have : 3 * s * h ≤ 3 * s * |H| := mul_le_mul_of_nonneg_left (hhH.trans (le_abs_self H)) (by positivity)
    have := pow_le_pow_left₀ (by positivity : 0 ≤ 3 * s * h + litErr method) (add_le_add this l1) 2
    exact mul_le_mul_of_nonneg_left (by linarith) (by positivity)
  have b2 := mul_le_mul b1 a2 (by positivity) hE0
  have b3 : 0 ≤ C * (h + litErr method) ^ 2 := by positivity
  have b4 : 0 ≤ C' * (h + litErr method) ^ 2 := by positivity
  have b5 : 0 ≤ E * (C * (h + litErr method) ^ 2) := by positivity
  refine ⟨?_, ?_, ?_⟩ <;> linarith

section
variable {Om : Set (ℝ × ℝ)} {l : ℝ × ℝ → Lam} {pn : Bool} {s : ℝ} {m : ℕ → Mesh} {L0 L1 c g tau : ℝ} {F Fx Fy : ℕ → ℝ × ℝ → ℝ} {S M : ℝ}

/-- C143: refining the mesh of a plate with such supports, the displacements computed tend to the solution `F` of the plate theory: in the mean square
at the nodes, in the mean square of strains and curvatures, and in energy; the work of the loads tends to that of the theory -/
theorem C143_limit (hr : ∀ n, Reachable (m n)) (hg : ∀ n, GoodPlate (m n) pn) (hR : Refined Om l pn s m) (hs0 : 0 ≤ s) (hL0 : 0 ≤ L0) (hL1 : 0 ≤ L1) (hl : LamOn Om l L0 L1) (hc0 : 0 < c) (hg0 : 0 < g)
    (htau : 0 < tau) (hc : ∀ x ∈ Om, AtLeast c (l x)) (hsh : ∀ x ∈ Om, ShearAtLeast g (l x)) (ht : ∀ x ∈ Om, tau ≤ (l x).h) {al : ℝ} (hal : 0 ≤ al) {fa : Bool}
    (hS : 0 ≤ S) (hM : 0 ≤ M) (hF : FieldOn Om F Fx Fy S M) {Sp : ℕ → Set ℕ} {R : ℝ} (hcl : ∀ n, Guided (m n) (Sp n) R) {K : ℕ → Mat} {z f d : ℕ → ℕ → ℝ}
    (hpr : ∀ n, StaticProblem (m n) pn l "cell-based-no-smoothing" al fa (Sp n) F Fx Fy (K n) (z n) (f n) (d n)) :
    Tendsto (fun n => dispSize (m n) fun i => d n i - z n i) atTop (nhds 0) ∧ Tendsto (fun n => strainErr (m n) Fx Fy (d n)) atTop (nhds 0) ∧
    Tendsto (fun n => form (K n).dim (K n).get (fun i => d n i - z n i) (fun i => d n i - z n i)) atTop (nhds 0) ∧
    Tendsto (fun n => ∑ i ∈ range (K n).dim, f n i * d n i) atTop (nhds (plateEnergy Om l Fx Fy Fx Fy + plateShear Om l F Fx Fy F Fx Fy)) := by
  obtain ⟨h, hh, h0⟩ := hR.size
  obtain ⟨C, hC0, hC⟩ := C143_displacements (s := s) (L0 := L0) (L1 := L1) (c := c) (g := g) (tau := tau) (H := 1) (al := al) (R := R) (A := volume.real Om) (S := S) (M := M) hs0 hL0 hL1 hc0 hg0 htau hal hS hM
  have h1 : Tendsto (fun n => C * |h n| ^ 2) atTop (nhds 0) := by
    have : Continuous fun x : ℝ => C * |x| ^ 2 := by fun_prop
    exact (this.tendsto' 0 0 (by simp)).comp h0
  have hev : ∀ᶠ n in atTop, form (K n).dim (K n).get (fun i => d n i - z n i) (fun i => d n i - z n i) ≤ C * |h n| ^ 2 ∧ strainErr (m n) Fx Fy (d n) ≤ C * |h n| ^ 2 ∧
      dispSize (m n) (fun i => d n i - z n i) ≤ C * |h n| ^ 2 := by
    have := h0.abs
    rw [abs_zero] at this
    filter_upwards [this.eventually_le_const zero_lt_one] with n hn
    have hsub := fun e (he : e ∈ (m n).eids) => (hR.tiles n).sub he
    have key := hC (m n) pn l (hr n) (refined_smooth hg hR hl hc hsh ht n) (hR.tiles n).area.le |h n| (abs_nonneg _) hn (fun e he => (hh n e he).trans (le_abs_self _))
      "cell-based-no-smoothing" fa (Sp n) F Fx Fy (K n) (z n) (f n) (d n) (hcl n) (hF.smooth hsub) (hpr n)
    have e1 : litErr "cell-based-no-smoothing" = 0 := by unfold litErr; rw [if_neg (by decide)]
    rwa [e1, add_zero] at key
  have hpos : ∀ n v, 0 ≤ form (K n).dim (K n).get v v := fun n v => (modes_total (hr n) (hg n) hal (hpr n).stiff (d := v)).1
  have t1 : Tendsto (fun n => form (K n).dim (K n).get (fun i => d n i - z n i) (fun i => d n i - z n i)) atTop (nhds 0) :=
    tendsto_of_tendsto_of_tendsto_of_le_of_le' tendsto_const_nhds h1 (Eventually.of_forall fun n => hpos n _) (hev.mono fun n h => h.1)
  refine ⟨?_, ?_, t1, ?_⟩
  · refine tendsto_of_tendsto_of_tendsto_of_le_of_le' tendsto_const_nhds h1 (Eventually.of_forall fun n => ?_) (hev.mono fun n h => h.2.2)
    refine List.sum_nonneg fun y hy => ?_
    obtain ⟨e, _, rfl⟩ := List.mem_map.1 hy
    exact mul_nonneg (abs_nonneg _) (Finset.sum_nonneg fun _ _ => by positivity)
  · refine tendsto_of_tendsto_of_tendsto_of_le_of_le' tendsto_const_nhds h1 (Eventually.of_forall fun n => ?_) (hev.mono fun n h => h.2.1)
    refine List.sum_nonneg fun y hy => ?_
    obtain ⟨e, _, rfl⟩ := List.mem_map.1 hy
    exact integral_nonneg fun x => Finset.sum_nonneg fun _ _ => sq_nonneg _
  · have t2 := C122_stiffness hr hR hL1 hl htau ht hal hM hF hF (fun n => (hpr n).stiff) (fun n => (hpr n).nodal) (fun n => (hpr n).nodal)
    have t3 : Tendsto (fun n => form (K n).dim (K n).get (z n) (fun i => d n i - z n i)) atTop (nhds 0) := by
      have hp := (t2.mul t1).sqrt
      rw [mul_zero, Real.sqrt_zero] at hp
      refine squeeze_zero_norm (fun n => ?_) hp
      rw [Real.norm_eq_abs]
      exact Real.abs_le_sqrt (form_cs (C78_symmetric (hr n) (hg n) (hpr n).stiff) (hpos n) _ _)
    have := (t2.add (t3.const_mul 2)).add t1
    rw [mul_zero, add_zero, add_zero] at this
    refine this.congr fun n => ?_
    have sy := C78_symmetric (hr n) (hg n) (hpr n).stiff
    rw [← form_load (hpr n).sol (hpr n).sol.1, form_sub_right, form_sub_right, form_sub_left, form_sub_left, form_comm sy (d n) (z n)]
    ring

/-- C143: the same with the loads of the code: consistent nodal loads of loads per area `p` and per length `q` of the boundary, under which `F` solves the equations
of equilibrium, with the boundary conditions of the supports -/
theorem C143_equations {Xx Xy Yx Yy p q : ℕ → ℝ × ℝ → ℝ} (hr : ∀ n, Reachable (m n)) (hg : ∀ n, GoodPlate (m n) pn) (hR : Refined Om l pn s m) (hs0 : 0 ≤ s) (hL0 : 0 ≤ L0) (hL1 : 0 ≤ L1) (hl : LamOn Om l L0 L1)
    (hc0 : 0 < c) (hg0 : 0 < g) (htau : 0 < tau) (hc : ∀ x ∈ Om, AtLeast c (l x)) (hsh : ∀ x ∈ Om, ShearAtLeast g (l x)) (ht : ∀ x ∈ Om, tau ≤ (l x).h) {al : ℝ} (hal : 0 ≤ al) {fa : Bool}
    (hS : 0 ≤ S) (hM : 0 ≤ M) (hF : FieldOn Om F Fx Fy S M) (hE : Equilibrium Om l F Fx Fy Xx Xy Yx Yy p) {Sp : ℕ → Set ℕ} {R : ℝ} (hcl : ∀ n, Guided (m n) (Sp n) R)
    (hT : ∀ n, Traction (m n) l F Fx Fy q (Sp n)) {K : ℕ → Mat} {z f d : ℕ → ℕ → ℝ}
    (hK : ∀ n, Stiffness (m n) pn "cell-based-no-smoothing" al fa (K n)) (hz : ∀ n, Nodal (m n) F (z n)) (hzS : ∀ n, Supported (K n).dim (Sp n) (z n))
    (hf : ∀ n, Consistent (m n) p q (Sp n) (f n)) (hd : ∀ n, StaticSol (K n) (Sp n) (f n) (d n)) :
    Tendsto (fun n => dispSize (m n) fun i => d n i - z n i) atTop (nhds 0) ∧ Tendsto (fun n => strainErr (m n) Fx Fy (d n)) atTop (nhds 0) ∧
    Tendsto (fun n => form (K n).dim (K n).get (fun i => d n i - z n i) (fun i => d n i - z n i)) atTop (nhds 0) ∧
    Tendsto (fun n => ∑ i ∈ range (K n).dim, f n i * d n i) atTop (nhds (plateEnergy Om l Fx Fy Fx Fy + plateShear Om l F Fx Fy F Fx Fy)) :=
  C143_limit hr hg hR hs0 hL0 hL1 hl hc0 hg0 htau hc hsh ht hal hS hM hF hcl fun n =>
    ⟨hK n, hz n, hzS n, C135_balanced (hr n) (hg n).proper (hg n).planar (fun _ he => (hR.tiles n).sub he) hE (hT n) (hf n), hd n⟩

end

end Meshless
