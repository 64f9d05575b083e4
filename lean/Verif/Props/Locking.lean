import Verif.Props.Thin
import Verif.Spec.Locking
import Verif.Lemmas.Pencil

/-! Thin plates without stabilisation (`alpha = 0`): shear locking. -/

set_option autoImplicit false

namespace Meshless
open Spec Finset

section
variable {t : ℝ} {m m' : Mesh}

theorem methodStrain_same {n : Mesh} (hs : SameStatic m n) (method : String) (e : ℕ) (z : ℕ → ℝ) : methodStrain n method e z = methodStrain m method e z := by
  have hx : nx n = nx m := hs.snx
  have hy : ny n = ny m := hs.sny
  have hd : ∀ r, disp n z r = disp m z r := fun r => by funext i; simp only [disp, hs.nids]
  have ht : tpoly n e = tpoly m e := by simp only [tpoly, hs.tria]
  have hc : corners n e = corners m e := by rw [hs.scorners]
  have hg : gap n z = gap m z := by funext P Q; simp only [gap, hx, hy, hd]
  have ha : sarea n = sarea m := by funext P; simp only [sarea, hx, hy]
  have hdsg : dsg n z = dsg m z := by funext P Q R; simp only [dsg, hg, hx, hy, ha]
  unfold methodStrain
  split_ifs
  · funext r
    simp only [cellStrain, cellGamma, rotSum, hc, ht, ha, hdsg, hd, triArea, hs.tria]
  · simp only [wholeGamma, hs.tria, ht, ha, hdsg]

/-- C128: without stabilisation the membrane and bending energy of the thin plate goes with the cube of the thickness, its transverse shear energy with the thickness -/
theorem C128_energy (hr : Reachable m) (hr' : Reachable m') {pn : Bool} (hg : GoodPlate m pn) (h : ThinPlate t m m') (ht : 0 < t) {method : String} {fa : Bool} {K0 K K' : Mat}
    (hK0 : (calcK0 m pn).2 = .ok K0) (hK : Stiffness m pn method 0 fa K) (hK' : Stiffness m' pn method 0 fa K') : K'.dim = K.dim ∧
      ∀ v, form K'.dim K'.get (thinned t v) (thinned t v) = t ^ 3 * form K.dim K0.get v v + t * (form K.dim K.get v v - form K.dim K0.get v v) := by
  have hg' := h.good ht hr.wf hr'.wf hg
  obtain ⟨hdim, K1, hK1, hd0, hform⟩ := stiffness_energy hr hg hK
  obtain ⟨hdim', K0', hK0', hd0', hform'⟩ := stiffness_energy hr' hg' hK'
  obtain rfl : K1 = K0 := by rw [hK1] at hK0; exact Except.ok.inj hK0
  obtain ⟨hs, _, hh, hne⟩ := calcK0_ok hr.wf hK1
  obtain ⟨hs', _, hh', _⟩ := calcK0_ok hr'.wf hK0'
  have tt := h.after hs hs'
  have w := hs.wf hr.wf
  have hd : ∀ e ∈ (calcK0 m pn).1.eids, ((calcK0 m pn).1.tria e).Distinct := by rw [hs.eids, hs.tria]; exact hg.proper.distinct
  refine ⟨by rw [hdim, hdim', h.nids], fun v => ?_⟩
  have e0 : form K0'.dim K0'.get (thinned t v) (thinned t v) = t ^ 3 * form K1.dim K1.get v v := by
    rw [C18_energy hr' hg'.proper hg'.planar hK0', C18_energy hr hg.proper hg.planar hK1, h.energy hr.wf hr'.wf hg.proper hg.planar]
  have hgam : ∀ e ∈ (calcK0 m pn).1.eids, ∀ r : Fin 2, (if method = "cell-based" then cellStrain (calcK0 m' pn).1 else wholeGamma (calcK0 m' pn).1) e (thinned t v) r =
      (if method = "cell-based" then cellStrain (calcK0 m pn).1 else wholeGamma (calcK0 m pn).1) e v r := by
    intro e he r
    split_ifs
    · rw [thinned_cell]
      have := tt.unit.cell one_ne_zero (relaid_wf w) hd he v r
      rw [inLength_one] at this
      exact this
    · rw [thinned_whole]
      have := tt.unit.whole one_ne_zero (relaid_wf w) hd he v
      rw [inLength_one] at this
      rw [this]; rfl
  rw [hform', hform, e0, hd0]
  rw [add_sub_cancel_left]
  congr 1
  unfold shearEnergy
  rw [tt.eids, ← List.sum_map_mul_left]
  congr 1
  refine List.map_congr_left fun e he => ?_
  have harea := tt.unit.triArea (relaid_wf w) hd he
  rw [one_pow, one_mul] at harea
  change triArea (calcK0 m' pn).1 e = triArea (calcK0 m pn).1 e at harea
  have hmod : ∀ r, shearMod (calcK0 m' pn).1 pn 0 fa e r = t * shearMod (calcK0 m pn).1 pn 0 fa e r := by
    intro r
    have hp : 0 < cavg (calcK0 m pn).1 pn e (fun l => l.h) := cavg_pos w (hs.hasProps hh) he fun l hl => (hg.shear l (hs.inUse.1 hl)).1
    rw [tt.shearMod w hd pn 0 fa he r]
    unfold shearMod
    dsimp only
    rw [zero_mul, add_zero, add_zero]
    field_simp
  rw [hgam e he, hgam e he, harea, hmod, hmod]
  ring

/-- the transverse shear energy vanishes only for displacements without shear strain -/
theorem shear_zero (hr : Reachable m) {pn : Bool} (hg : GoodPlate m pn) {method : String} {al : ℝ} (ha : 0 ≤ al) {fa : Bool} {K0 K : Mat}
    (hK0 : (calcK0 m pn).2 = .ok K0) (hK : Stiffness m pn method al fa K) (v : ℕ → ℝ) :
    0 ≤ form K.dim K.get v v - form K.dim K0.get v v ∧
      (form K.dim K.get v v - form K.dim K0.get v v = 0 → ∀ e ∈ m.eids, ∀ r, methodStrain m method e v r = 0) := by
  obtain ⟨hdim, K1, hK1, hd0, hform⟩ := stiffness_energy hr hg hK
  obtain rfl : K1 = K0 := by rw [hK1] at hK0; exact Except.ok.inj hK0
  obtain ⟨hs, _, hh, hne⟩ := calcK0_ok hr.wf hK1
  have w := hs.wf hr.wf
  rw [hform, hd0, add_sub_cancel_left]
  change 0 ≤ shearEnergy (calcK0 m pn).1 pn al fa (methodStrain (calcK0 m pn).1 method) v v ∧ (shearEnergy (calcK0 m pn).1 pn al fa (methodStrain (calcK0 m pn).1 method) v v = 0 → _)
  have hmod : ∀ e ∈ (calcK0 m pn).1.eids, ∀ r, 0 < shearMod (calcK0 m pn).1 pn al fa e r := by
    intro e he r
    have p : 0 < cavg (calcK0 m pn).1 pn e (fun l => l.h) := cavg_pos w (hs.hasProps hh) he fun l hl => (hg.shear l (hs.inUse.1 hl)).1
    have p13 : 0 < cavg (calcK0 m pn).1 pn e (fun l => l.k13) := cavg_pos w (hs.hasProps hh) he fun l hl => (hg.shear l (hs.inUse.1 hl)).2.1
    have p23 : 0 < cavg (calcK0 m pn).1 pn e (fun l => l.k23) := cavg_pos w (hs.hasProps hh) he fun l hl => (hg.shear l (hs.inUse.1 hl)).2.2.1
    have p0 : 0 < cavg (calcK0 m pn).1 pn e (fun l => l.E 0 0) := cavg_pos w (hs.hasProps hh) he fun l hl => (hg.shear l (hs.inUse.1 hl)).2.2.2.1
    have p1 : 0 < cavg (calcK0 m pn).1 pn e (fun l => l.E 1 1) := cavg_pos w (hs.hasProps hh) he fun l hl => (hg.shear l (hs.inUse.1 hl)).2.2.2.2
    unfold shearMod
    dsimp only
    split_ifs <;> positivity
  have hA : ∀ e ∈ m.eids, 0 < triArea (calcK0 m pn).1 e := fun e he => by
    have := (hs.flatMesh hg.planar).nondeg e (hs.eids ▸ he)
    unfold triArea; exact abs_pos.2 this
  have hterm : ∀ e ∈ (calcK0 m pn).1.eids, 0 ≤ triArea (calcK0 m pn).1 e * (methodStrain (calcK0 m pn).1 method e v 0 * shearMod (calcK0 m pn).1 pn al fa e 0 * methodStrain (calcK0 m pn).1 method e v 0
      + methodStrain (calcK0 m pn).1 method e v 1 * shearMod (calcK0 m pn).1 pn al fa e 1 * methodStrain (calcK0 m pn).1 method e v 1) := by
    intro e he
    refine mul_nonneg (hA e (hs.eids ▸ he)).le ?_
    have := mul_nonneg (hmod e he 0).le (mul_self_nonneg (methodStrain (calcK0 m pn).1 method e v 0))
    have := mul_nonneg (hmod e he 1).le (mul_self_nonneg (methodStrain (calcK0 m pn).1 method e v 1))
    nlinarith
  unfold shearEnergy
  refine ⟨List.sum_nonneg fun x hx => ?_, fun h0 e he => ?_⟩
  · obtain ⟨e, he, rfl⟩ := List.mem_map.1 hx
    exact hterm e he
  · have he' : e ∈ (calcK0 m pn).1.eids := hs.eids ▸ he
    have hz := le_antisymm ((List.single_le_sum (fun x hx => by obtain ⟨e, he, rfl⟩ := List.mem_map.1 hx; exact hterm e he) _ (List.mem_map_of_mem he')).trans h0.le) (hterm e he')
    have h1 := (mul_eq_zero.1 hz).resolve_left (hA e he).ne'
    have k0 := mul_nonneg (hmod e he' 0).le (mul_self_nonneg (methodStrain (calcK0 m pn).1 method e v 0))
    have k1 := mul_nonneg (hmod e he' 1).le (mul_self_nonneg (methodStrain (calcK0 m pn).1 method e v 1))
    have z0 : shearMod (calcK0 m pn).1 pn al fa e 0 * (methodStrain (calcK0 m pn).1 method e v 0 * methodStrain (calcK0 m pn).1 method e v 0) = 0 := by nlinarith
    have z1 : shearMod (calcK0 m pn).1 pn al fa e 1 * (methodStrain (calcK0 m pn).1 method e v 1 * methodStrain (calcK0 m pn).1 method e v 1) = 0 := by nlinarith
    rw [← methodStrain_same hs]
    intro r
    fin_cases r
    · exact mul_self_eq_zero.1 ((mul_eq_zero.1 z0).resolve_left (hmod e he' 0).ne')
    · exact mul_self_eq_zero.1 ((mul_eq_zero.1 z1).resolve_left (hmod e he' 1).ne')

/-- where all supported displacements have shear strain, the shear energy bounds the whole energy -/
theorem shear_bounds (hr : Reachable m) {pn : Bool} (hg : GoodPlate m pn) {method : String} {al : ℝ} (ha : 0 ≤ al) {fa : Bool} {K0 K : Mat}
    (hK0 : (calcK0 m pn).2 = .ok K0) (hK : Stiffness m pn method al fa K) {S : Set ℕ} (hS : ShearHeld m method S) :
    ∃ κ : ℝ, 0 < κ ∧ ∀ v, Supported K.dim S v → κ * form K.dim K.get v v ≤ form K.dim K.get v v - form K.dim K0.get v v := by
  have hdim := (stiffness_energy hr hg hK).1
  have hd0 : K0.dim = K.dim := by
    obtain ⟨_, K1, hK1, hd0, _⟩ := stiffness_energy hr hg hK
    rw [hK0] at hK1; rw [← hd0, Except.ok.inj hK1]
  have hQ : ∀ v, form K.dim (fun i j => 1 * K.get i j + -1 * K0.get i j) v v = form K.dim K.get v v - form K.dim K0.get v v := by
    intro v
    rw [form_add_mat]; ring
  have hN : ∀ v, form K.dim (fun i j => 0 * K.get i j + -1 * K.get i j) v v = -form K.dim K.get v v := by
    intro v
    rw [form_add_mat]; ring
  have hs := C78_symmetric hr hg hK
  have hs0 := C19_symmetric hr hK0
  have hpd : ∀ x, Supported K.dim S x → (∃ i < K.dim, x i ≠ 0) → 0 < form K.dim (fun i j => 1 * K.get i j + -1 * K0.get i j) x x := by
    intro x hx hne
    obtain ⟨h1, h2⟩ := shear_zero hr hg ha hK0 hK x
    rw [hQ]
    refine lt_of_le_of_ne h1 fun h0 => ?_
    obtain ⟨i, hi, hxi⟩ := hne
    rw [hdim] at hi hx
    exact hxi (hS x hx (h2 h0.symm) i hi)
  by_cases hz : ∃ z, Supported K.dim S z ∧ 0 < form K.dim K.get z z
  · obtain ⟨z, hz, hzp⟩ := hz
    obtain ⟨c, hc, _, hle, _⟩ := first_factor (n := K.dim) (K := fun i j => 1 * K.get i j + -1 * K0.get i j) (G := fun i j => 0 * K.get i j + -1 * K.get i j) (S := S)
      (fun i hi j hj => by rw [hs i hi j hj, hs0 i j]) (fun i hi j hj => by rw [hs i hi j hj]) hpd hz (by rw [hN]; linarith)
    refine ⟨c, hc, fun v hv => ?_⟩
    have := hle v hv
    rw [hQ, hN] at this
    linarith
  · push Not at hz
    refine ⟨1, one_pos, fun v hv => ?_⟩
    have := hz v hv
    have := (shear_zero hr hg ha hK0 hK v).1
    linarith

/-- C128: without stabilisation the plate locks: if the supports leave no displacement without shear strain, the work of the loads (those that keep the deflections of thin plate theory)
goes to zero like the square of the thickness -/
theorem C128_locks (hr : Reachable m) {pn : Bool} (hg : GoodPlate m pn) {method : String} {fa : Bool} {K : Mat} (hK : Stiffness m pn method 0 fa K) {S : Set ℕ}
    (hS : ShearHeld m method S) : ∃ C : ℝ, 0 < C ∧ ∀ (t : ℝ) (m' : Mesh) (K' : Mat) (f d d' : ℕ → ℝ), 0 < t → Reachable m' → ThinPlate t m m' → Stiffness m' pn method 0 fa K' →
      StaticSol K S f d → StaticSol K' S (thinLoad t f) d' →
        ∑ i ∈ range K.dim, d' i * thinLoad t f i ≤ C * t ^ 2 * (t ^ 3 * ∑ i ∈ range K.dim, d i * f i) := by
  obtain ⟨_, K0, hK0, _, _⟩ := stiffness_energy hr hg hK
  obtain ⟨κ, hκ, hb⟩ := shear_bounds hr hg le_rfl hK0 hK hS
  refine ⟨κ⁻¹, inv_pos.2 hκ, fun t m' K' f d d' ht hr' h hK' hd hd' => ?_⟩
  obtain ⟨hdd, hE⟩ := C128_energy hr hr' hg h ht hK0 hK hK'
  have hg' := h.good ht hr.wf hr'.wf hg
  obtain ⟨y, rfl⟩ := thinned_from ht.ne' d'
  have hsup : Supported K.dim S y := by rw [← thinned_supported ht.ne', ← hdd]; exact hd'.1
  have f2 := form_work hd'.1 hd'.2
  rw [hE y, hdd, thinned_work] at f2
  rw [thinned_work]
  have hb' := hb y hsup
  have hp0 : 0 ≤ form K.dim K0.get y y := by
    obtain ⟨_, _, hh, _⟩ := calcK0_ok hr.wf hK0
    obtain ⟨_, K1, hK1, hd0, _⟩ := stiffness_energy hr hg hK
    rw [hK0] at hK1
    rw [← hd0, ← Except.ok.inj hK1, C18_energy hr hg.proper hg.planar hK0]; exact (energy_zero_eps hr.wf hg.proper hg.planar hh hg.abd (d := y)).1
  set s := κ⁻¹ * t ^ 2 with hsdef
  have hs0 : 0 < s := by positivity
  set F := form K.dim K.get y y
  set W := ∑ i ∈ range K.dim, y i * f i
  have h1 : F ≤ s * W := by
    have h2 : t * (κ * F) ≤ t ^ 3 * W := by
      have := mul_le_mul_of_nonneg_left hb' ht.le
      have := mul_nonneg (pow_pos ht 3).le hp0
      linarith
    have h3 : κ * F ≤ t ^ 2 * W := le_of_mul_le_mul_left (by linarith) ht
    rw [hsdef, mul_assoc, ← inv_mul_le_iff₀ (inv_pos.2 hκ), inv_inv]
    exact h3
  have hx : Supported K.dim S fun i => s⁻¹ * y i := fun i hi hiS => by beta_reduce; rw [hsup i hi hiS, mul_zero]
  have m1 := work_max (C78_symmetric hr hg hK) (fun x => (modes_total hr hg le_rfl hK (d := x)).1) hd.1 hd.2 hx
  rw [form_smul] at m1
  have e3 : ∑ i ∈ range K.dim, s⁻¹ * y i * f i = s⁻¹ * W := by
    rw [Finset.mul_sum]; exact Finset.sum_congr rfl fun i _ => by ring
  rw [e3] at m1
  have h4 : s⁻¹ * s⁻¹ * F ≤ s⁻¹ * W := by
    rw [mul_assoc]
    refine mul_le_mul_of_nonneg_left ?_ (inv_pos.2 hs0).le
    rwa [inv_mul_le_iff₀ hs0]
  have h5 : s⁻¹ * W ≤ ∑ i ∈ range K.dim, d i * f i := by linarith
  rw [inv_mul_le_iff₀ hs0] at h5
  have := mul_le_mul_of_nonneg_left h5 (pow_pos ht 3).le
  linarith

/-! ### buckling of thin plates -/

/-- the membrane forces of the thin plate under thinned displacements are `t^2` times those of the original -/
theorem Spec.ThinPlate.membrane (h : ThinPlate t m m') (w : WF m) (hp : Proper m) {k : Key} (hk : k ∈ m.ekeys) (pn : Bool) (d : ℕ → ℝ) (i : Fin 3) :
    Spec.membrane (relaid m m') pn k (thinned t d) i = t ^ 2 * Spec.membrane m pn k d i := by
  unfold Spec.membrane
  rw [Finset.mul_sum]
  refine Finset.sum_congr rfl fun j _ => ?_
  rw [thinned_eps, thinned_eps, relaid_avg h.toLamRel w hp hk pn (fun p p' hh => hh.A i j), relaid_avg h.toLamRel w hp hk pn (fun p p' hh => hh.B i j), if_pos (by simp), if_neg (by simp)]
  ring

theorem Spec.ThinPlate.geometric (h : ThinPlate t m m') (w : WF m) (w' : WF m') (hp : Proper m) (hg : Planar m) (pn : Bool) {d d' : ℕ → ℝ}
    (hdd : ∀ r < 5, ∀ i ∈ m.nids, disp m' d' r i = disp m (thinned t d) r i) (v u : ℕ → ℝ) :
    Spec.geometric m' pn d' (thinned t v) (thinned t u) = t ^ 2 * Spec.geometric m pn d v u := by
  have h1 := h.unit.geometric (relaid_wf w) w' (relaid_proper hp) (relaid_planar hg) one_ne_zero pn (d := thinned t d) (d' := d')
    (fun r hr i hi => by rw [inLength_one]; exact hdd r hr i hi) (thinned t v) (thinned t u)
  rw [inLength_one, inLength_one, one_mul, one_mul] at h1
  rw [h1]
  unfold Spec.geometric
  rw [← List.sum_map_mul_left]
  congr 1
  refine List.map_congr_left fun k hk => ?_
  have hk : k ∈ m.ekeys := hk
  dsimp only
  rw [h.membrane w hp hk, h.membrane w hp hk, h.membrane w hp hk]
  have hz : ∀ z : ℕ → ℝ, disp (relaid m m') (thinned t z) 2 = disp m z 2 := by
    intro z; funext i
    have := thinned_disp (t := t) (m := relaid m m') z i (r := 2) (by norm_num)
    rw [if_neg (by norm_num), one_mul] at this
    exact this
  have hgx : ∀ F, gradX (relaid m m') (dom (relaid m m') k) F = gradX m (dom m k) F := fun _ => rfl
  have hgy : ∀ F, gradY (relaid m m') (dom (relaid m m') k) F = gradY m (dom m k) F := fun _ => rfl
  rw [hz, hz, hgx, hgx, hgy, hgy]
  change |Spec.sarea m (Spec.dom m k)| * _ = _
  ring

theorem thin_geometric (hr : Reachable m) (hr' : Reachable m') {pn : Bool} (hg : GoodPlate m pn) (h : ThinPlate t m m') (ht : 0 < t) {method : String} {al : ℝ} {fa : Bool}
    {K K' G G' : Mat} (hK : Stiffness m pn method al fa K) (hK' : Stiffness m' pn method al fa K') {d d' : List ℝ}
    (hl : d.length = 5 * m.nids.length) (hl' : d'.length = 5 * m.nids.length) (hd : ∀ j < 5 * m.nids.length, vec d' j = thinned t (vec d) j)
    (hG : calcKG (calcK0 m pn).1 d pn = .ok G) (hG' : calcKG (calcK0 m' pn).1 d' pn = .ok G') (v : ℕ → ℝ) :
    form K'.dim G'.get (thinned t v) (thinned t v) = t ^ 2 * form K.dim G.get v v := by
  have hg' := h.good ht hr.wf hr'.wf hg
  have hKd := (stiffness_energy hr hg hK).1
  have hKd' := (stiffness_energy hr' hg' hK').1
  obtain ⟨_, K0, hK0, hadd⟩ := hK
  obtain ⟨_, K0', hK0', _⟩ := hK'
  obtain ⟨hs, _, hh, _⟩ := calcK0_ok hr.wf hK0
  obtain ⟨hs', _, hh', _⟩ := calcK0_ok hr'.wf hK0'
  have haf : AfterK0 (calcK0 m pn).1 := .intro m hr pn K0 hK0 [] (by simp)
  have haf' : AfterK0 (calcK0 m' pn).1 := .intro m' hr' pn K0' hK0' [] (by simp)
  have tt := h.after hs hs'
  have hGd : G.dim = K.dim := by rw [(calcKG_sum hG).1]; omega
  have hGd' : G'.dim = K'.dim := by rw [(calcKG_sum hG').1, hKd', h.nids]; omega
  rw [← hGd, ← hGd', C29_energy haf (hs.proper hg.proper) (hs.planar hg.planar) (hs.hasProps hh) (by rw [hs.nids]; exact hl) hG,
    C29_energy haf' (hs'.proper hg'.proper) (hs'.planar hg'.planar) (hs'.hasProps hh') (by rw [hs'.nids, h.nids]; exact hl') hG']
  refine tt.geometric haf.wf haf'.wf (hs.proper hg.proper) (hs.planar hg.planar) pn (fun r hr5 i hi => ?_) v v
  unfold disp
  rw [tt.nids]
  have := List.idxOf_lt_length_iff.2 hi
  rw [hs.nids] at this ⊢
  exact hd _ (by omega)

/-- C129: buckling of thin plates. With pre-buckling displacements `(t u, t v, w, phix, phiy)`, whose membrane forces are `t^2` times those of the original plate, the first positive
buckling factor is between `t` and `(1 + c) * t` times the original one: the critical membrane forces go with the cube of the thickness. Stated for all factors: below `1/t` times
every positive factor of the thin plate there is one of the original plate, and below `(1 + c) * t` times every positive factor of the original plate there is one of the thin plate. -/
theorem C129_buckling (hr : Reachable m) (hr' : Reachable m') {pn : Bool} (hg : GoodPlate m pn) (h : ThinPlate t m m') (ht : 0 < t) (ht1 : t ≤ 1) {method : String} {al : ℝ}
    (ha : 0 < al) {fa : Bool} {c : ℝ} (hc : ∀ e ∈ m.eids, cavg m pn e (fun l => l.h) ^ 2 ≤ c * (al * charLen m fa e ^ 2)) {K K' G G' : Mat} (hK : Stiffness m pn method al fa K)
    (hK' : Stiffness m' pn method al fa K') {S : Set ℕ} (hS : Stable K S) {d d' : List ℝ} (hl : d.length = 5 * m.nids.length) (hl' : d'.length = 5 * m.nids.length)
    (hd : ∀ j < 5 * m.nids.length, vec d' j = thinned t (vec d) j) (hG : calcKG (calcK0 m pn).1 d pn = .ok G) (hG' : calcKG (calcK0 m' pn).1 d' pn = .ok G') :
    Stable K' S ∧ (∀ s' x', 0 < s' → BucklingMode K' G' S s' x' → ∃ s x, 0 < s ∧ t * s ≤ s' ∧ BucklingMode K G S s x) ∧
      ∀ s x, 0 < s → BucklingMode K G S s x → ∃ s' x', 0 < s' ∧ s' ≤ (1 + c) * (t * s) ∧ BucklingMode K' G' S s' x' := by
  obtain ⟨hdd, hc0, hE⟩ := C127_energy hr hr' hg h ht ht1 ha hc hK hK'
  have hg' := h.good ht hr.wf hr'.wf hg
  have hgf := thin_geometric hr hr' hg h ht hK hK' hl hl' hd hG hG'
  have t3 : 0 < t ^ 3 := by positivity
  have t2 : 0 < t ^ 2 := by positivity
  have nz : ∀ (x : ℕ → ℝ) j, thinned t x j = 0 ↔ x j = 0 := by intro x j; unfold thinned; split_ifs <;> simp [ht.ne']
  have hS' : Stable K' S := by
    intro z hz hne
    obtain ⟨y, rfl⟩ := thinned_from ht.ne' z
    rw [hdd, thinned_supported ht.ne'] at hz
    simp only [ne_eq, nz, hdd] at hne
    exact lt_of_lt_of_le (mul_pos t3 (hS y hz hne)) (hE y).1
  refine ⟨hS', fun s' x' hs' hx' => ?_, fun s x hs hx => ?_⟩
  · have h1 := mode_form hx' hx'.2.1
    have h2 := hS' x' hx'.2.1 hx'.1
    have hsup := hx'.2.1
    obtain ⟨y, rfl⟩ := thinned_from ht.ne' x'
    rw [hdd, thinned_supported ht.ne'] at hsup
    rw [hgf] at h1
    have hneg : form K.dim G.get y y < 0 := by
      by_contra hn
      push Not at hn
      have := mul_nonneg hs'.le (mul_nonneg t2.le hn)
      linarith
    obtain ⟨s, hs, ⟨x, hx⟩, _, hle⟩ := C86_first hr hg hK hS hG hsup hneg
    refine ⟨s, x, hs, ?_, hx⟩
    rw [le_div_iff₀ (by linarith)] at hle
    have h3 : t ^ 3 * (s * -form K.dim G.get y y) ≤ s' * (t ^ 2 * -form K.dim G.get y y) := by
      have := mul_le_mul_of_nonneg_left hle t3.le
      have := (hE y).1
      linarith
    have h4 : 0 < t ^ 2 * -form K.dim G.get y y := mul_pos t2 (by linarith)
    exact le_of_mul_le_mul_right (by linarith) h4
  · have h1 := mode_form hx hx.2.1
    have h2 := hS x hx.2.1 hx.1
    have hneg : form K.dim G.get x x < 0 := by
      by_contra hn
      push Not at hn
      have := mul_nonneg hs.le hn
      linarith
    have hsup : Supported K'.dim S (thinned t x) := by rw [hdd, thinned_supported ht.ne']; exact hx.2.1
    obtain ⟨s', hs', ⟨x', hx'⟩, _, hle⟩ := C86_first hr' hg' hK' hS' hG' hsup (by rw [hgf]; exact mul_neg_of_pos_of_neg t2 hneg)
    refine ⟨s', x', hs', ?_, hx'⟩
    rw [hgf, le_div_iff₀ (by have := mul_pos t2 (neg_pos.2 hneg); linarith)] at hle
    have e2 := (hE x).2
    have h4 : 0 < t ^ 2 * -form K.dim G.get x x := mul_pos t2 (by linarith)
    have h5 : form K.dim K.get x x = s * -form K.dim G.get x x := by linarith
    rw [h5] at e2
    refine le_of_mul_le_mul_right ?_ h4
    calc s' * (t ^ 2 * -form K.dim G.get x x) ≤ (1 + c) * (t ^ 3 * (s * -form K.dim G.get x x)) := by linarith
      _ = _ := by ring

end

/-! Concrete case: the unit square clamped at three corners, only the deflection and rotations of node 3 left free. -/

theorem exSq_cell {z : ℕ → ℝ} (hz : Supported 20 {x | x < 12 ∨ 15 ≤ x} z) : cellStrain exSq 1 z 0 = 1 / 6 * z 13 + sixthErr * z 13 ∧
    cellStrain exSq 1 z 1 = z 12 + 1 / 6 * z 13 + 1 / 2 * z 14 + sixthErr * z 14 ∧ cellStrain exSq 2 z 1 = 1 / 6 * z 14 + sixthErr * z 14 := by
  have h0 : ∀ i < 20, (i < 12 ∨ 15 ≤ i) → z i = 0 := hz
  have n1 : List.idxOf 1 [1, 2, 3, 4] = 0 := by decide
  have n2 : List.idxOf 2 [1, 2, 3, 4] = 1 := by decide
  have n3 : List.idxOf 3 [1, 2, 3, 4] = 2 := by decide
  have n4 : List.idxOf 4 [1, 2, 3, 4] = 3 := by decide
  have hsd : ∀ A B C : List ℕ, sides [A, B, C] = [(A, B), (B, C), (C, A)] := fun _ _ _ => rfl
  have q2 := h0 2 (by norm_num) (by norm_num)
  have q3 := h0 3 (by norm_num) (by norm_num)
  have q4 := h0 4 (by norm_num) (by norm_num)
  have q7 := h0 7 (by norm_num) (by norm_num)
  have q8 := h0 8 (by norm_num) (by norm_num)
  have q9 := h0 9 (by norm_num) (by norm_num)
  have q17 := h0 17 (by norm_num) (by norm_num)
  have q18 := h0 18 (by norm_num) (by norm_num)
  have q19 := h0 19 (by norm_num) (by norm_num)
  refine ⟨?_, ?_, ?_⟩ <;>
  · simp only [cellStrain, cellGamma, rotSum, tpoly, hsd, corners, triArea, sarea3, dsg, gap, mean, nx, ny, disp, exMesh_nids, exMesh_tria1, exMesh_tria2, exMesh_node1, exMesh_node2, exMesh_node3,
      exMesh_node4, List.map_cons, List.map_nil, List.sum_cons, List.sum_nil, n1, n2, n3, n4, List.length_cons, List.length_nil]
    norm_num [q2, q3, q4, q7, q8, q9, q17, q18, q19, abs_of_nonneg, abs_of_pos]
    try ring

theorem exSq_shearHeld : ShearHeld exSq "cell-based" {x | x < 12 ∨ 15 ≤ x} := by
  intro z hz h0
  rw [exMesh_nids] at hz ⊢
  have hz : Supported 20 {x | x < 12 ∨ 15 ≤ x} z := hz
  obtain ⟨c1, c2, c3⟩ := exSq_cell hz
  have hm : methodStrain exSq "cell-based" = cellStrain exSq := by simp [methodStrain]
  rw [hm] at h0
  have a1 := h0 1 (by rw [exMesh_eids]; simp) 0
  have a2 := h0 1 (by rw [exMesh_eids]; simp) 1
  have a3 := h0 2 (by rw [exMesh_eids]; simp) 1
  rw [c1] at a1
  rw [c2] at a2
  rw [c3] at a3
  have e : (1 / 6 + sixthErr : ℝ) ≠ 0 := by unfold sixthErr; norm_num
  have z13 : z 13 = 0 := (mul_eq_zero.1 (show (1 / 6 + sixthErr) * z 13 = 0 by linarith)).resolve_left e
  have z14 : z 14 = 0 := (mul_eq_zero.1 (show (1 / 6 + sixthErr) * z 14 = 0 by linarith)).resolve_left e
  have z12 : z 12 = 0 := by rw [z13, z14] at a2; linarith
  intro i hi
  have hi : i < 20 := hi
  by_cases h : i < 12 ∨ 15 ≤ i
  · exact hz i hi h
  · obtain rfl | rfl | rfl : i = 12 ∨ i = 13 ∨ i = 14 := by omega
    exacts [z12, z13, z14]

/-- the square clamped at three corners, loaded by a transverse force at the fourth: without stabilisation the deflection under `t^3` times the force goes to zero like `t^2` -/
example (pn : Bool) : ∃ C > 0, ∀ t, 0 < t → t ≤ 1 → ∃ K K' d d', Stiffness exSq pn "cell-based" 0 false K ∧ Stiffness (exThin t) pn "cell-based" 0 false K' ∧
    StaticSol K {x | x < 12 ∨ 15 ≤ x} (fun i => if i = 12 then 1 else 0) d ∧ StaticSol K' {x | x < 12 ∨ 15 ≤ x} (thinLoad t fun i => if i = 12 then 1 else 0) d' ∧
      0 < d 12 ∧ d' 12 ≤ C * t ^ 2 * d 12 := by
  have hr := exMesh_reachable exIso exIso exIso exIso exIso exIso
  obtain ⟨K, hK⟩ := exSq_stiffness (Or.inl rfl) pn 0 false
  obtain ⟨C, hC, hl⟩ := C128_locks hr (exSq_good pn) hK exSq_shearHeld
  have hdim : K.dim = 20 := by rw [(stiffness_energy hr (exSq_good pn) hK).1, exMesh_nids]; rfl
  have hheld : ∀ m : Mesh, m.nids = exSq.nids → (∀ i ∈ exSq.nids, nx m i = nx exSq i) → (∀ i ∈ exSq.nids, ny m i = ny exSq i) → Held m {x | x < 12 ∨ 15 ≤ x} := by
    intro m h1 h2 h3
    have m1 : 1 ∈ exSq.nids := by rw [exMesh_nids]; simp
    have m4 : 4 ∈ exSq.nids := by rw [exMesh_nids]; simp
    refine ⟨1, h1 ▸ m1, 4, h1 ▸ m4, Or.inl ⟨Or.inr ?_, fun r hr => ?_⟩⟩
    · rw [h3 1 m1, h3 4 m4]; simp only [ny, exMesh_node1, exMesh_node4]; norm_num
    · simp only [dofNo, h1, exMesh_nids, Set.mem_ofPred_eq]
      norm_num [List.idxOf_cons]
      omega
  refine ⟨C, hC, fun t ht _ => ?_⟩
  have hr' : Reachable (exThin t) := exMesh_reachable ..
  have tp := exThin_thin t
  have hg' := tp.good ht hr.wf hr'.wf (exSq_good pn)
  obtain ⟨K', hK'⟩ := stiffness_exists hr' hg' (exMesh_props ..) (by rw [tp.nids, exMesh_nids]; simp) (Or.inl rfl) 0 false
  obtain ⟨d, hd, _⟩ := C76_static hr (exSq_good pn) le_rfl hK (hheld exSq rfl (fun _ _ => rfl) (fun _ _ => rfl)) fun i => if i = 12 then 1 else 0
  obtain ⟨d', hd', _⟩ := C76_static hr' hg' le_rfl hK' (hheld _ tp.nids tp.hx tp.hy) (thinLoad t fun i => if i = 12 then 1 else 0)
  have h1 := hl t _ K' _ d d' ht hr' tp hK' hd hd'
  have hw := form_work hd.1 hd.2
  have hsum : ∀ x : ℕ → ℝ, ∑ i ∈ range 20, x i * thinLoad t (fun i => if i = 12 then 1 else 0) i = x 12 * t ^ 3 := by
    intro x
    rw [Finset.sum_eq_single_of_mem 12 (by simp)]
    · simp [thinLoad]
    · intro j _ hj; simp [thinLoad, hj]
  rw [hdim, hsum] at h1
  simp only [mul_ite, mul_zero, mul_one, Finset.sum_ite_eq', Finset.mem_range, hdim, show 12 < 20 by norm_num, if_true] at hw h1
  refine ⟨K, K', d, d', hK, hK', hd, hd', ?_, le_of_mul_le_mul_right (by linarith) (pow_pos ht 3)⟩
  rw [← hw, ← hdim]
  refine held_stable hr (exSq_good pn) le_rfl hK (hheld exSq rfl (fun _ _ => rfl) (fun _ _ => rfl)) d hd.1 ?_
  by_contra hcon
  push Not at hcon
  have := hd.2 12 (by omega) (by simp)
  rw [if_pos rfl] at this
  rw [show ∑ j ∈ range K.dim, K.get 12 j * d j = 0 from Finset.sum_eq_zero fun j hj => by rw [hcon j (Finset.mem_range.1 hj), mul_zero]] at this
  norm_num at this

theorem vec_listed {n : ℕ} {f : ℕ → ℝ} {j : ℕ} (hj : j < n) : vec ((List.range n).map f) j = f j := by
  unfold vec
  rw [List.getD_eq_getElem _ _ (by simpa using hj)]
  simp

/-- the square clamped along its left side and pressed by `u = -x`, with `alpha = 0.1`: its first buckling factor `s` exists, and the thin squares pressed by `u = -t x` have one between
`t * s` and `6 * t * s` -/
example (pn : Bool) : ∃ s > 0, ∀ t, 0 < t → t ≤ 1 → ∃ K K' G G', Stiffness exSq pn "cell-based" (1 / 10) false K ∧ Stiffness (exThin t) pn "cell-based" (1 / 10) false K' ∧
    calcKG (calcK0 exSq pn).1 exPress pn = .ok G ∧ calcKG (calcK0 (exThin t) pn).1 ((List.range 20).map (thinned t (vec exPress))) pn = .ok G' ∧
      (∃ x, BucklingMode K G {x | x < 5 ∨ 15 ≤ x} s x) ∧ ∃ s' x', t * s ≤ s' ∧ s' ≤ (1 + 5) * (t * s) ∧ BucklingMode K' G' {x | x < 5 ∨ 15 ≤ x} s' x' := by
  have hr := exMesh_reachable exIso exIso exIso exIso exIso exIso
  obtain ⟨K, hK⟩ := exSq_stiffness (Or.inl rfl) pn (1 / 10) false
  have hdim : K.dim = 20 := by rw [(stiffness_energy hr (exSq_good pn) hK).1, exMesh_nids]; rfl
  have hS := held_stable hr (exSq_good pn) (by norm_num) hK exSq_held
  obtain ⟨G, hG, hGw⟩ := exSq_work pn (-1)
  have hsl : Supported K.dim {x | x < 5 ∨ 15 ≤ x} exSlope := by
    intro i hi hiS
    simp only [Set.mem_ofPred_eq] at hiS
    unfold exSlope
    rw [if_neg (by omega)]
  obtain ⟨s, hs, ⟨x, hx⟩, hfirst, _⟩ := C86_first hr (exSq_good pn) hK hS hG hsl (by rw [hdim, hGw]; norm_num)
  refine ⟨s, hs, fun t ht ht1 => ?_⟩
  have hr' : Reachable (exThin t) := exMesh_reachable ..
  have tp := exThin_thin t
  have hg' := tp.good ht hr.wf hr'.wf (exSq_good pn)
  obtain ⟨K', hK'⟩ := stiffness_exists hr' hg' (exMesh_props ..) (by rw [tp.nids, exMesh_nids]; simp) (Or.inl rfl) (1 / 10) false
  obtain ⟨_, K0', hK0', _⟩ := id hK'
  obtain ⟨hs', _, hh', _⟩ := calcK0_ok hr'.wf hK0'
  have haf' : AfterK0 (calcK0 (exThin t) pn).1 := .intro _ hr' pn K0' hK0' [] (by simp)
  obtain ⟨G', hG', _⟩ := C49_kG haf' (hs'.proper hg'.proper) (hs'.hasProps hh') (d := (List.range 20).map (thinned t (vec exPress)))
    (by rw [hs'.nids, tp.nids, exMesh_nids]; simp)
  obtain ⟨_, h1, h2⟩ := C129_buckling hr hr' (exSq_good pn) tp ht ht1 (by norm_num) (c := 5) (fun e he => by
    rw [cavg_homog hr.wf (exMesh_Homog exIso pn) he, exSq_longest he]; norm_num [exIso, exLam]) hK hK' hS (by rw [exMesh_nids]; rfl) (by rw [exMesh_nids]; simp) (fun j hj => by
      rw [exMesh_nids] at hj
      have hj : j < 20 := hj
      exact vec_listed (f := thinned t (vec exPress)) hj) hG hG'
  obtain ⟨s', x', hs'0, hle, hx'⟩ := h2 s x hs hx
  obtain ⟨s2, x2, hs2, hle2, hx2⟩ := h1 s' x' hs'0 hx'
  have := hfirst s2 x2 hs2 hx2
  exact ⟨K, K', G, G', hK, hK', hG, hG', ⟨x, hx⟩, s', x', by nlinarith, hle, hx'⟩

end Meshless
