import Verif.Spec.Pure
import Verif.Props.Equilibrium
import Verif.Props.Patch

/-! Plates in a state of constant strain and curvature are exact (C136). -/

set_option autoImplicit false

namespace Meshless
open Spec Finset MeasureTheory

/-- the derivatives are those of the displacements -/
theorem Spec.Pure.deriv (s : Pure) (r : ℕ) (x : ℝ × ℝ) : HasFDerivAt (s.val r) (s.dx r x • ContinuousLinearMap.fst ℝ ℝ ℝ + s.dy r x • ContinuousLinearMap.snd ℝ ℝ ℝ) x := by
  have a := hasFDerivAt_fst (𝕜 := ℝ) (p := x)
  have b := hasFDerivAt_snd (𝕜 := ℝ) (p := x)
  have lin : ∀ c p q : ℝ, HasFDerivAt (fun y : ℝ × ℝ => c + p * y.1 + q * y.2) (p • ContinuousLinearMap.fst ℝ ℝ ℝ + q • ContinuousLinearMap.snd ℝ ℝ ℝ) x := fun c p q =>
    (((a.const_mul p).const_add c).add (b.const_mul q)).congr_fderiv (by ext <;> simp)
  rcases r with _ | _ | _ | _ | r
  · exact lin _ _ _
  · exact lin _ _ _
  · have h := (((((a.const_mul s.a).add (b.const_mul s.b)).add (((a.mul a).const_mul (s.kx / 2)))).add ((a.mul b).const_mul s.kxy)).add ((b.mul b).const_mul (s.ky / 2))).const_sub s.w0
    refine (h.congr_of_eventuallyEq (Filter.Eventually.of_forall fun y => ?_)).congr_fderiv ?_
    · simp [Pure.val]; ring
    · ext <;> simp [Pure.dx, Pure.dy] <;> ring
  · exact lin _ _ _
  · exact lin _ _ _

section
variable {m : Mesh} {e : ℕ} {z : ℕ → ℝ} {s : Pure}

theorem Spec.Pure.shear_zero (s : Pure) (x : ℝ × ℝ) (r : Fin 2) : shear s.val s.dx s.dy x r = 0 := by
  fin_cases r <;> simp [shear, Pure.val, Pure.dx, Pure.dy] <;> ring

theorem Spec.Pure.strain_const (s : Pure) (x : ℝ × ℝ) : strain s.dx s.dy x = ![s.ux, s.vy, s.uy + s.vx, s.kx, s.ky, s.kxy + s.kxy] := by
  simp [strain, Pure.dx, Pure.dy]

/-- shear gaps from a point where the rotations are those of the state: zero but for the error of the deflection at that point -/
theorem gap_pure (h : ∀ i ∈ corners m e, ∀ r < 5, disp m z r i = s.val r (pt m i)) {P : List ℕ} (hP : P ≠ []) (hPc : ∀ i ∈ P, i ∈ corners m e) {i : ℕ} (hi : i ∈ corners m e) :
    gap m z P [i] = s.val 2 (mean (nx m) P, mean (ny m) P) - mean (disp m z 2) P := by
  have l3 := mean_lin (m := m) (f := disp m z 3) (c := s.a) (p := s.kx) (q := s.kxy) hP fun j hj => h j (hPc j hj) 3 (by norm_num)
  have l4 := mean_lin (m := m) (f := disp m z 4) (c := s.b) (p := s.kxy) (q := s.ky) hP fun j hj => h j (hPc j hj) 4 (by norm_num)
  unfold gap
  rw [l3, l4]
  simp only [mean_single]
  rw [h i hi 2 (by norm_num), h i hi 3 (by norm_num), h i hi 4 (by norm_num)]
  simp only [Pure.val, pt]
  ring

theorem whole_pure (hf : FlatMesh m) (he : e ∈ m.eids) (h : ∀ i ∈ corners m e, ∀ r < 5, disp m z r i = s.val r (pt m i)) (r : Fin 2) : wholeGamma m e z r = 0 := by
  have hc := cellNSOrient_ccw hf he
  rw [wholeGamma_ccw hf he]
  have hm : ∀ i, i ∈ [(cellNSOrient m e).1] ∨ i ∈ [(cellNSOrient m e).2.1] ∨ i ∈ [(cellNSOrient m e).2.2] → i ∈ corners m e := by
    intro i hi
    apply hc.perm.mem_iff.1
    simpa using hi
  have h1 : (cellNSOrient m e).1 ∈ corners m e := hm _ (by simp)
  have hg : ∀ i ∈ corners m e, gap m z [(cellNSOrient m e).1] [i] = 0 := fun i hi => by
    rw [gap_pure h (by simp) (by simpa using h1) hi]
    simp only [mean_single]
    rw [h _ h1 2 (by norm_num)]
    exact sub_self _
  have g1 := hg _ (hm (cellNSOrient m e).2.1 (by simp))
  have g2 := hg _ (hm (cellNSOrient m e).2.2 (by simp))
  fin_cases r <;> simp [dsg, g1, g2]

theorem cellGamma_pure (w : WF m) (hf : FlatMesh m) (he : e ∈ m.eids) (h : ∀ i ∈ corners m e, ∀ r < 5, disp m z r i = s.val r (pt m i)) (r : Fin 2) : cellGamma m e z r = 0 := by
  have hc := cellOrient_ccw w hf he
  revert hc
  rcases cellOrient m e with ⟨a, b, d⟩
  intro hc
  dsimp only at hc
  have hpos : 0 < triArea m e := by rw [← hc.area]; exact hc.pos
  have ha : a ∈ corners m e := hc.perm.mem_iff.1 (by simp)
  have hb : b ∈ corners m e := hc.perm.mem_iff.1 (by simp)
  have hd : d ∈ corners m e := hc.perm.mem_iff.1 (by simp)
  have hg : ∀ i ∈ corners m e, gap m z (corners m e) [i] = _ := fun i hi => gap_pure h (by unfold corners; simp) (fun _ h => h) hi
  obtain ⟨h1, s1, s2, s3⟩ := cellGamma_ccw hc z r
  rw [h1]
  fin_cases r <;> simp only [dsg, Fin.zero_eta, Fin.mk_one, Matrix.cons_val_zero, Matrix.cons_val_one, hg a ha, hg b hb, hg d hd, s1, s2, s3, mean_single] <;> ring

theorem cell_pure (w : WF m) (hf : FlatMesh m) (he : e ∈ m.eids) (h : ∀ i ∈ corners m e, ∀ r < 5, disp m z r i = s.val r (pt m i)) (r : Fin 2) :
    cellStrain m e z r = sixthErr * rotSum m e z r := by
  unfold cellStrain
  rw [cellGamma_pure w hf he h, zero_add]

theorem sum_eps (w : WF m) (hp : Proper m) (hg : Planar m) (v : ℕ → ℝ) (p : Fin 6) :
    (m.ekeys.map fun k => |sarea m (dom m k)| * eps m k v p).sum = (m.eids.map fun e => triArea m e * triEps m e v p).sum := by
  have hs := sum_sideTrias m.tria (fun t => triArea m t * triEps m t v p) w.ekeys_nodup (es := m.eids) (fun e he k hk => (w.mem_ekeys k).2 ⟨e, he, hk⟩)
  have h1 : (m.ekeys.map fun k => |sarea m (dom m k)| * eps m k v p).sum = (m.ekeys.map fun k => ((sideTrias m.tria m.eids k).map fun t => triArea m t * triEps m t v p).sum).sum / 3 := by
    rw [div_eq_mul_inv, ← List.sum_map_mul_right]
    refine congrArg List.sum (List.map_congr_left fun k hk => ?_)
    rw [← w.etrias k hk, ← eps_avg w hp hg hk, dom_area w hp hg hk]
    ring
  rw [h1, hs]
  ring

theorem energy_pure (w : WF m) (hp : Proper m) (hg : Planar m) {pn : Bool} {l : Lam} (hl : Homog m pn l) (hz : Nodal m s.val z) (v : ℕ → ℝ) :
    energy m pn v z = virtualWork m (fun _ => l) s.val s.dx s.dy v := by
  have hd : ∀ r ∈ [0, 1, 3, 4], ∀ i ∈ m.nids, disp m z r i = s.val r 0 + s.dx r 0 * nx m i + s.dy r 0 * ny m i := by
    intro r hr i hi
    simp only [List.mem_cons, List.not_mem_nil, or_false] at hr
    rw [hz i hi r (by omega)]
    rcases hr with rfl | rfl | rfl | rfl <;> simp [Pure.val, Pure.dx, Pure.dy, pt]
  obtain ⟨E, hE⟩ : ∃ E : Fin 6 → ℝ, E = ![s.dx 0 0, s.dy 1 0, s.dy 0 0 + s.dx 1 0, s.dx 3 0, s.dy 4 0, s.dy 3 0 + s.dx 4 0] := ⟨_, rfl⟩
  have hst : ∀ x, strain s.dx s.dy x = E := fun x => by rw [hE]; rfl
  have h1 : energy m pn v z = ∑ a, (m.ekeys.map fun k => |sarea m (dom m k)| * eps m k v a).sum * ∑ b, abd l a b * E b := by
    have h2 : ∀ (L : List Key) (F : Key → Fin 6 → ℝ) (G : Fin 6 → ℝ), (L.map fun k => ∑ a, F k a * G a).sum = ∑ a, (L.map fun k => F k a).sum * G a := by
      intro L F G
      induction L with
      | nil => simp
      | cons x L ih => simp only [List.map_cons, List.sum_cons, ih, add_mul, Finset.sum_add_distrib]
    rw [← h2 m.ekeys (fun k a => |sarea m (dom m k)| * eps m k v a)]
    unfold energy
    refine congrArg List.sum (List.map_congr_left fun k hk => ?_)
    rw [eps_linear w hp hg hk hd, ← hE, Finset.mul_sum]
    refine Finset.sum_congr rfl fun a _ => ?_
    rw [Finset.mul_sum, Finset.mul_sum]
    refine Finset.sum_congr rfl fun b _ => ?_
    rw [avg_const w hp hg hk (Homog_slot w hp hl)]
    change _ * (_ * abd l a b * _) = _
    ring
  have h3 : ∀ (L : List ℕ) (F : ℕ → Fin 6 → ℝ) (G : Fin 6 → ℝ), (L.map fun k => ∑ a, F k a * G a).sum = ∑ a, (L.map fun k => F k a).sum * G a := by
    intro L F G
    induction L with
    | nil => simp
    | cons x L ih => simp only [List.map_cons, List.sum_cons, ih, add_mul, Finset.sum_add_distrib]
  rw [h1, Finset.sum_congr rfl fun a _ => by rw [sum_eps w hp hg v a], ← h3 m.eids (fun e a => triArea m e * triEps m e v a)]
  unfold virtualWork
  refine congrArg List.sum (List.map_congr_left fun e _ => ?_)
  simp only [hst, Pure.shear_zero, zero_mul, Finset.sum_const_zero, add_zero]
  rw [setIntegral_const, hull_real, smul_eq_mul, Finset.sum_comm, Finset.mul_sum]
  refine Finset.sum_congr rfl fun a _ => ?_
  rw [Finset.mul_sum, Finset.mul_sum]
  refine Finset.sum_congr rfl fun b _ => ?_
  rw [abd_symm l a b]
  ring

theorem form_pure (hr : Reachable m) {pn : Bool} (hg : GoodPlate m pn) {method : String} {al : ℝ} {fa : Bool} {K : Mat} (hK : Stiffness m pn method al fa K) {l : Lam} (hl : Homog m pn l)
    (hz : Nodal m s.val z) (v : ℕ → ℝ) :
    form K.dim K.get v z = virtualWork m (fun _ => l) s.val s.dx s.dy v + shearEnergy m pn al fa (methodGamma m method) v z := by
  obtain ⟨hdim, K0, hK0, hd0, hform⟩ := stiffness_energy hr hg hK
  obtain ⟨hs, _, _, _⟩ := calcK0_ok hr.wf hK0
  rw [hform, C18_energy hr hg.proper hg.planar hK0, energy_pure hr.wf hg.proper hg.planar hl hz, hs.sshear, hs.scell, hs.swhole]
  rfl

theorem gamma_pure (hr : Reachable m) {pn : Bool} (hg : GoodPlate m pn) {method : String} (hz : Nodal m s.val z) (he : e ∈ m.eids) (r : Fin 2) :
    methodGamma m method e z r = litErr method * rotSum m e z r := by
  have hf : FlatMesh m := hg.planar.flatMesh
  have h : ∀ i ∈ corners m e, ∀ r < 5, disp m z r i = s.val r (pt m i) := fun i hi r hr5 => hz i (hr.wf.corner_mem he hi) r hr5
  unfold methodGamma litErr
  split_ifs
  · exact cell_pure hr.wf hf he h r
  · rw [whole_pure hf he h r, zero_mul]

/-- C136: a state of constant strains and curvatures of a uniform plate is in equilibrium without distributed loads -/
theorem pure_equilibrium (s : Pure) (l : Lam) (Om : Set (ℝ × ℝ)) :
    Equilibrium Om (fun _ => l) s.val s.dx s.dy (fun _ _ => 0) (fun _ _ => 0) (fun _ _ => 0) (fun _ _ => 0) (fun _ _ => 0) := by
  have hR : ∀ p, ∃ c, ∀ x, resultant (fun _ => l) s.dx s.dy x p = c := fun p => ⟨resultant (fun _ => l) s.dx s.dy 0 p, fun x => by unfold resultant; rw [s.strain_const, s.strain_const]⟩
  have hQ : ∀ p x, shearForce (fun _ => l) s.val s.dx s.dy x p = 0 := fun p x => by unfold shearForce; rw [s.shear_zero, mul_zero]
  have hX : ∀ r, ∃ c, ∀ x, forceX (fun _ => l) s.val s.dx s.dy r x = c := by
    intro r
    rcases r with _ | _ | _ | _ | r
    · exact hR 0
    · exact hR 2
    · exact ⟨0, hQ 0⟩
    · exact hR 3
    · exact hR 5
  have hY : ∀ r, ∃ c, ∀ x, forceY (fun _ => l) s.val s.dx s.dy r x = c := by
    intro r
    rcases r with _ | _ | _ | _ | r
    · exact hR 2
    · exact hR 1
    · exact ⟨0, hQ 1⟩
    · exact hR 5
    · exact hR 4
  refine ⟨fun r _ x _ => ?_, fun r _ x _ => ?_, fun r _ => ⟨continuousOn_const, continuousOn_const, continuousOn_const, continuousOn_const⟩, fun r _ x _ => ?_⟩
  · obtain ⟨c, hc⟩ := hX r
    rw [funext hc]
    simpa using hasFDerivWithinAt_const c x Om
  · obtain ⟨c, hc⟩ := hY r
    rw [funext hc]
    simpa using hasFDerivWithinAt_const c x Om
  · have : couple (fun _ => l) s.val s.dx s.dy r x = 0 := by
      rcases r with _ | _ | _ | _ | _ | r
      · rfl
      · rfl
      · rfl
      · exact hQ 0 x
      · exact hQ 1 x
      · rfl
    rw [this]; ring

variable {pn : Bool} {method : String} {al : ℝ} {fa : Bool} {K : Mat} {l : Lam} {S : Set ℕ} {q : ℕ → ℝ × ℝ → ℝ} {f d : ℕ → ℝ}

/-- the difference between the computed displacements and the state, as a displacement compatible with the supports: its energy products are those of the
shear strains of the state -/
theorem pure_residual (hr : Reachable m) (hg : GoodPlate m pn) (hK : Stiffness m pn method al fa K) (hl : Homog m pn l) (hz : Nodal m s.val z)
    (hq : Traction m (fun _ => l) s.val s.dx s.dy q S) (hf : Consistent m (fun _ _ => 0) q S f) (hd2 : ∀ i < K.dim, i ∉ S → ∑ j ∈ range K.dim, K.get i j * d j = f i)
    {v : ℕ → ℝ} (hv : Supported K.dim S v) : form K.dim K.get v (fun i => d i - z i) = -shearEnergy m pn al fa (methodGamma m method) v z := by
  have hdim := (stiffness_energy hr hg hK).1
  have hb := C135_balanced hr hg.proper hg.planar (fun _ _ => Set.subset_univ _) (pure_equilibrium s l Set.univ) hq hf v (by rw [← hdim]; exact hv)
  rw [form_sub_right, form_pure hr hg hK hl hz, form_work hv hd2, hdim, ← hb]
  have : ∑ i ∈ range (5 * m.nids.length), v i * f i = ∑ i ∈ range (5 * m.nids.length), f i * v i := Finset.sum_congr rfl fun _ _ => mul_comm _ _
  linarith

/-- C136: bound for the energy of the difference, the error of a literal in the default method -/
theorem C136_near (hr : Reachable m) (hg : GoodPlate m pn) (hal : 0 ≤ al) (hK : Stiffness m pn method al fa K) (hl : Homog m pn l) (hz : Nodal m s.val z)
    (hq : Traction m (fun _ => l) s.val s.dx s.dy q S) (hf : Consistent m (fun _ _ => 0) q S f) (hd1 : ∀ i < K.dim, i ∈ S → d i = z i)
    (hd2 : ∀ i < K.dim, i ∉ S → ∑ j ∈ range K.dim, K.get i j * d j = f i) :
    form K.dim K.get (fun i => d i - z i) (fun i => d i - z i) ≤ (m.eids.map fun e => triArea m e * ∑ r, shearMod m pn al fa e r * (litErr method * rotSum m e z r) ^ 2).sum := by
  obtain ⟨hdim, K0, hK0, hd0, hform⟩ := stiffness_energy hr hg hK
  obtain ⟨hs, _, hh, _⟩ := calcK0_ok hr.wf hK0
  obtain ⟨v, hv⟩ : ∃ v : ℕ → ℝ, v = fun i => d i - z i := ⟨_, rfl⟩
  have hvS : Supported K.dim S v := fun i hi hiS => by rw [hv]; simp only; rw [hd1 i hi hiS, sub_self]
  have h1 := pure_residual hr hg hK hl hz hq hf hd2 hvS
  rw [← hv] at h1 ⊢
  have h2 : shearEnergy m pn al fa (methodGamma m method) v v ≤ form K.dim K.get v v := by
    have n1 := (energy_zero_eps hr.wf hg.proper hg.planar hh hg.abd (d := v)).1
    rw [hform, C18_energy hr hg.proper hg.planar hK0, hs.sshear, hs.scell, hs.swhole]
    change shearEnergy m pn al fa (methodGamma m method) v v ≤ energy m pn v v + shearEnergy m pn al fa (methodGamma m method) v v
    linarith
  have h3 : -2 * shearEnergy m pn al fa (methodGamma m method) v z ≤ shearEnergy m pn al fa (methodGamma m method) v v +
      (m.eids.map fun e => triArea m e * ∑ r, shearMod m pn al fa e r * (litErr method * rotSum m e z r) ^ 2).sum := by
    unfold shearEnergy
    rw [← List.sum_map_add, ← List.sum_map_mul_left]
    refine List.sum_le_sum fun e he => ?_
    rw [gamma_pure hr hg hz he, gamma_pure hr hg hz he, Fin.sum_univ_two]
    have p0 := (shearMod_pos hr.wf hh hg.shear hal fa (e := e) he 0).le
    have p1 := (shearMod_pos hr.wf hh hg.shear hal fa (e := e) he 1).le
    have q0 := mul_nonneg p0 (sq_nonneg (methodGamma m method e v 0 + litErr method * rotSum m e z 0))
    have q1 := mul_nonneg p1 (sq_nonneg (methodGamma m method e v 1 + litErr method * rotSum m e z 1))
    have := mul_nonneg (triArea_pos hg.planar he).le (add_nonneg q0 q1)
    linarith
  linarith

/-- C136: a uniform plate in a state of constant strains and curvatures, some degrees of freedom given the displacements of the state, the others loaded by the
consistent nodal loads of the forces and moments of the state along the boundary, has the displacements of the state, and only these, as solution - without
smoothing of the shear strains for all states, with smoothing for those without rotations. -/
theorem C136_exact (hr : Reachable m) (hg : GoodPlate m pn) (hal : 0 ≤ al) (hK : Stiffness m pn method al fa K) (hl : Homog m pn l) (hS : Held m S) (hz : Nodal m s.val z)
    (hm : method = "cell-based-no-smoothing" ∨ s.Flat) (hq : Traction m (fun _ => l) s.val s.dx s.dy q S) (hf : Consistent m (fun _ _ => 0) q S f) (d : ℕ → ℝ) :
    ((∀ i < K.dim, i ∈ S → d i = z i) ∧ ∀ i < K.dim, i ∉ S → ∑ j ∈ range K.dim, K.get i j * d j = f i) ↔ ∀ i < K.dim, d i = z i := by
  have h0 : ∀ e ∈ m.eids, ∀ r, litErr method * rotSum m e z r = 0 := by
    intro e he r
    rcases hm with rfl | hm
    · unfold litErr; rw [if_neg (by decide), zero_mul]
    · have h3 : ∀ i ∈ corners m e, disp m z (3 + r.val) i = 0 := by
        intro i hi
        rw [hz i (hr.wf.corner_mem he hi) _ (by omega)]
        obtain ⟨a1, a2, a3, a4, a5⟩ := hm
        fin_cases r <;> simp [Pure.val, a1, a2, a3, a4, a5]
      unfold rotSum
      rw [List.sum_eq_zero fun x hx => ?_, mul_zero]
      obtain ⟨i, hi, rfl⟩ := List.mem_map.1 hx
      exact h3 i hi
  have hγ : ∀ v, shearEnergy m pn al fa (methodGamma m method) v z = 0 := fun v => by
    refine List.sum_eq_zero fun x hx => ?_
    obtain ⟨e, he, rfl⟩ := List.mem_map.1 hx
    rw [gamma_pure hr hg hz he, gamma_pure hr hg hz he, h0 e he, h0 e he]
    ring
  have hdim := (stiffness_energy hr hg hK).1
  constructor
  · rintro ⟨hd1, hd2⟩
    have h1 := C136_near hr hg hal hK hl hz hq hf hd1 hd2
    rw [List.sum_eq_zero fun x hx => ?_] at h1
    · by_contra hcon
      push Not at hcon
      obtain ⟨x, hx, hne⟩ := hcon
      have := C75_positive hr hg hal hK hS (d := fun i => d i - z i) (fun i hi hiS => by rw [hd1 i hi hiS, sub_self]) ⟨x, hx, sub_ne_zero.2 hne⟩
      linarith
    · obtain ⟨e, he, rfl⟩ := List.mem_map.1 hx
      rw [Finset.sum_eq_zero fun r _ => by rw [h0 e he]; ring, mul_zero]
  · intro h
    refine ⟨fun i hi _ => h i hi, fun i hi hiS => ?_⟩
    have hsup : ∀ j < 5 * m.nids.length, j ∈ S → single i j = 0 := fun j _ hj => by
      unfold single
      rw [if_neg]
      rintro rfl
      exact hiS hj
    have hb := C135_balanced hr hg.proper hg.planar (fun _ _ => Set.subset_univ _) (pure_equilibrium s l Set.univ) hq hf (single i) hsup
    have h2 := form_pure hr hg hK hl hz (single i)
    rw [form_row K.get hi, hγ, add_zero, ← hb] at h2
    rw [Finset.sum_congr rfl fun j hj => by rw [h j (Finset.mem_range.1 hj)], h2]
    unfold single
    simp [← hdim, hi]
end

/-- The square held along `x = 0`, pulled and bent at the opposite side by uniform forces and moments: for every grid the computed displacements are
`u = p x`, `w = -k x^2/2`, `phix = k x`, without error. -/
example {k : ℕ} (hk : 0 < k) (pn : Bool) (p κ : ℝ) : ∃ m K f d, GridMesh k (fun _ => exIso) pn m ∧ Stiffness m pn "cell-based-no-smoothing" (1 / 10) false K ∧
    Consistent m (fun _ _ => 0) (endLoad fun r => if r = 0 then p else if r = 3 then κ else 0) (gridEdge k) f ∧ StaticSol K (gridEdge k) f d ∧
    ∀ i ∈ m.nids, disp m d 0 i = p * nx m i ∧ disp m d 2 i = -(κ * nx m i ^ 2 / 2) ∧ disp m d 3 i = κ * nx m i := by
  obtain ⟨m, h⟩ := gridMesh_exists hk (fun _ => exLam_stiff one_pos one_pos one_pos one_pos) pn
  obtain ⟨K0, K, hK0, hK, hG⟩ := h.made (Or.inr rfl) (1 / 10) false
  obtain ⟨f, hf⟩ := consistent_exists m (fun _ _ => 0) (endLoad fun r => if r = 0 then p else if r = 3 then κ else 0)
  obtain ⟨s, hs⟩ : ∃ s : Pure, s = ⟨0, p, 0, 0, 0, 0, 0, 0, 0, κ, 0, 0⟩ := ⟨_, rfl⟩
  have hst : ∀ x, strain s.dx s.dy x = ![p, 0, 0, κ, 0, 0] := fun x => by rw [s.strain_const, hs]; simp
  have hX : ∀ r < 5, ∀ x, forceX (fun _ => exIso) s.val s.dx s.dy r x = if r = 0 then p else if r = 3 then κ else 0 := by
    intro r hr x
    rcases (by omega : r = 0 ∨ r = 1 ∨ r = 2 ∨ r = 3 ∨ r = 4) with rfl | rfl | rfl | rfl | rfl <;> simp [forceX, exIso_resultant, exIso_shearForce, hst, s.shear_zero]
  have hY : ∀ r < 5, ∀ x, forceY (fun _ => exIso) s.val s.dx s.dy r x = 0 := by
    intro r hr x
    rcases (by omega : r = 0 ∨ r = 1 ∨ r = 2 ∨ r = 3 ∨ r = 4) with rfl | rfl | rfl | rfl | rfl <;> simp [forceY, exIso_resultant, exIso_shearForce, hst, s.shear_zero]
  have hz := h.nodal s.val
  have hdim := (stiffness_energy h.reach h.good hK).1
  have hhom : Homog m pn exIso := by
    have hA := h.lam
    unfold Assigned at hA
    unfold Homog
    cases pn with
    | true =>
      simp only [if_true] at hA ⊢
      intro i hi
      obtain ⟨e, he, hc⟩ := h.good.piece.used i hi
      exact hA e he i hc
    | false =>
      simp only [Bool.false_eq_true, if_false] at hA ⊢
      intro e he
      obtain ⟨_, _, hx⟩ := hA e he
      exact hx
  have key := C136_exact h.reach h.good (by norm_num) hK hhom (h.held hk) hz (Or.inl rfl) (h.endLoaded hk hX hY) (hf _) (gridVals k s.val)
  have h0 : ∀ i < K.dim, i ∈ gridEdge k → gridVals k s.val i = 0 := by
    intro i _ hi
    have h5 : i / 5 < k + 1 := by have : i < 5 * (k + 1) := hi
                                  omega
    unfold gridVals
    have : (gridAt k (i / 5)).1 = 0 := by unfold gridAt; simp [Nat.div_eq_of_lt h5]
    rcases (by omega : i % 5 = 0 ∨ i % 5 = 1 ∨ i % 5 = 2 ∨ i % 5 = 3 ∨ i % 5 = 4) with h6 | h6 | h6 | h6 | h6 <;> rw [h6, hs] <;> simp [Pure.val, this]
  obtain ⟨k1, k2⟩ := key.2 fun _ _ => rfl
  refine ⟨m, K, f, gridVals k s.val, h, hK, hf _, ⟨h0, k2⟩, fun i hi => ?_⟩
  rw [hz i hi 0 (by norm_num), hz i hi 2 (by norm_num), hz i hi 3 (by norm_num), hs]
  simp [Pure.val, pt]

end Meshless
