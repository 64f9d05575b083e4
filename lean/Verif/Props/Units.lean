import Verif.Lemmas.Units

/-! The same plate in other units of length and force. -/

set_option autoImplicit false

namespace Meshless
open Spec Finset

section
variable {a f : ℝ} {m m' : Mesh}

theorem Spec.UnitPlate.after (h : UnitPlate a f m m') {n n' : Mesh} (hs : SameStatic m n) (hs' : SameStatic m' n') : UnitPlate a f n n' where
  tprop e he := by rw [hs.tria, hs'.tria]; exact h.tprop e (hs.eids ▸ he)
  nprop i hi := by rw [hs.prop, hs'.prop]; exact h.nprop i (hs.nids ▸ hi)
  nids := by rw [hs.nids, hs'.nids, h.nids]
  eids := by rw [hs.eids, hs'.eids, h.eids]
  tri e he := by rw [hs.scorners, hs'.scorners]; exact h.tri e (hs.eids ▸ he)
  hx i hi := by rw [hs.snx, hs'.snx]; exact h.hx i (hs.nids ▸ hi)
  hy i hi := by rw [hs.sny, hs'.sny]; exact h.hy i (hs.nids ▸ hi)
  basic i hi := by rw [hs'.xyz, hs'.cp]; exact h.basic i (hs'.nids ▸ hi)
  flat i hi j hj := by rw [hs'.xyz, hs'.xyz]; exact h.flat i (hs'.nids ▸ hi) j (hs'.nids ▸ hj)

theorem Spec.UnitPlate.planar (h : UnitPlate a f m m') (ha : a ≠ 0) (w : WF m) (w' : WF m') (hp : Proper m) (hg : Planar m) : Proper m' ∧ Planar m' :=
  ⟨h.same.proper (relaid_wf w) w' (relaid_proper hp), h.same.planar (relaid_wf w) w' (relaid_proper hp) (relaid_planar hg) ha h.basic h.flat⟩

theorem Spec.UnitPlate.hasProps (h : UnitPlate a f m m') (w : WF m) {pn : Bool} (hh : HasProps m pn) : HasProps m' pn := by
  have hg : TurnedGeom ![![a, 0], ![0, a]] id id 0 0 m m' :=
    ⟨by rw [h.nids, List.map_id], by rw [h.eids, List.map_id], fun e he => by rw [List.map_id]; exact h.tri e he ▸ .refl _,
      fun i hi => by simpa using h.hx i hi, fun i hi => by simpa using h.hy i hi⟩
  exact h.toLamRel.hasProps hg w hh

theorem Spec.UnitPlate.thick (h : UnitPlate a f m m') (ha : a ≠ 0) (w : WF m) (hd : ∀ e ∈ m.eids, (m.tria e).Distinct) {pn : Bool} (ht : Thick m pn) : Thick m' pn := by
  intro e he
  rw [h.eids] at he
  rw [relaid_cavg h.toLamRel h.tri w hd pn he (c := a) (sel := fun l => l.h) (sel' := fun l => l.h) fun p p' hh => hh.h]
  exact mul_ne_zero ha (ht e he)

theorem SameStatic.thick {n : Mesh} (hs : SameStatic m n) {pn : Bool} (ht : Thick m pn) : Thick n pn := by
  intro e he
  have : cavg n pn e = cavg m pn e := by
    funext sel; simp only [cavg, hs.tria, hs.scorners, hs.prop]
  rw [this]; exact ht e (hs.eids ▸ he)

/-! ### C125 -/

/-- C125: with lengths multiplied by `a` and forces by `f`, `calc_k0` succeeds as before and every energy is multiplied by `f * a` -/
theorem C125_k0 (hr : Reachable m) (hr' : Reachable m') (hp : Proper m) (hg : Planar m) (h : UnitPlate a f m m') (ha : 0 < a) {pn : Bool} {K : Mat}
    (hK : (calcK0 m pn).2 = .ok K) : ∃ K', (calcK0 m' pn).2 = .ok K' ∧ K'.dim = K.dim ∧
      ∀ v u, form K'.dim K'.get (inLength a v) (inLength a u) = f * a * form K.dim K.get v u := by
  obtain ⟨hp', hg'⟩ := h.planar ha.ne' hr.wf hr'.wf hp hg
  obtain ⟨_, _, hh, hne⟩ := calcK0_ok hr.wf hK
  obtain ⟨K', hK', _⟩ := C11_success hr' hp' (by rw [h.nids]; exact hne) (h.hasProps hr.wf hh)
  refine ⟨K', hK', by rw [(calcK0_sum hr'.wf hK').1, (calcK0_sum hr.wf hK).1, h.nids], fun v u => ?_⟩
  rw [C18_energy hr' hp' hg' hK', C18_energy hr hp hg hK, h.energy hr.wf hr'.wf hp hg ha.ne']

/-- C125: the same for the whole stiffness matrix (`calc_k0`, then `add_k0s` with one of the two cell-based methods) -/
theorem C125_stiffness (hr : Reachable m) (hr' : Reachable m') (hp : Proper m) (hg : Planar m) (h : UnitPlate a f m m') (ha : 0 < a) {pn : Bool} (ht : Thick m pn)
    {method : String} {al : ℝ} {fa : Bool} {K : Mat} (hK : Stiffness m pn method al fa K) : K.dim = 5 * m.nids.length ∧ ∃ K', Stiffness m' pn method al fa K' ∧ K'.dim = K.dim ∧
      ∀ v u, form K'.dim K'.get (inLength a v) (inLength a u) = f * a * form K.dim K.get v u := by
  obtain ⟨hme, K0, hK0, hadd⟩ := hK
  obtain ⟨K0', hK0', hd0', hf0⟩ := C125_k0 hr hr' hp hg h ha hK0
  obtain ⟨hp', hg'⟩ := h.planar ha.ne' hr.wf hr'.wf hp hg
  obtain ⟨hs, _, hh, _⟩ := calcK0_ok hr.wf hK0
  obtain ⟨hs', _, hh', _⟩ := calcK0_ok hr'.wf hK0'
  have hm : Numbered (calcK0 m pn).1 := .intro m hr pn K0 hK0 []
  have hm' : Numbered (calcK0 m' pn).1 := .intro m' hr' pn K0' hK0' []
  have tt := h.after hs hs'
  have hd : ∀ e ∈ (calcK0 m pn).1.eids, ((calcK0 m pn).1.tria e).Distinct := by rw [hs.eids, hs.tria]; exact hp.distinct
  have htk := hs.thick ht
  have hd0 : K0.dim = 5 * m.nids.length := by rw [(calcK0_sum hr.wf hK0).1]; ring
  have hl : K0.dim = 5 * (calcK0 m pn).1.nids.length := by rw [hs.nids]; exact hd0
  have hl' : K0'.dim = 5 * (calcK0 m' pn).1.nids.length := by rw [hs'.nids, h.nids, hd0', hd0]
  have key : ∀ {g g' : ℕ → (ℕ → ℝ) → Fin 2 → ℝ} {L L' : Mat}, L.dim = K0.dim → L'.dim = K0'.dim →
      (∀ v u, form K0.dim (fun i j => L.get i j - K0.get i j) v u = shearEnergy (calcK0 m pn).1 pn al fa g v u) →
      (∀ v u, form K0'.dim (fun i j => L'.get i j - K0'.get i j) v u = shearEnergy (calcK0 m' pn).1 pn al fa g' v u) →
      (∀ e ∈ (calcK0 m pn).1.eids, ∀ z r, g' e (inLength a z) r = g e z r) →
      ∀ v u, form L'.dim L'.get (inLength a v) (inLength a u) = f * a * form L.dim L.get v u := by
    intro g g' L L' l2 l2' l3 l3' hgg v u
    rw [l2', l2, form_add _ K0'.get L'.get, l3', form_add _ K0.get L.get, l3, hf0, tt.shearEnergy ha hm.wf hd pn al fa hgg]
    ring
  rcases hme with rfl | rfl
  · obtain ⟨L, l1, l2, l3⟩ := C38_energy hm (hs.flatMesh hg) (hs.hasProps hh) htk al fa hl
    obtain ⟨L', l1', l2', l3'⟩ := C38_energy hm' (hs'.flatMesh hg') (hs'.hasProps hh') (tt.thick ha.ne' hm.wf hd htk) al fa hl'
    rw [hadd] at l1
    have hKL : K = L := by injection l1
    subst hKL
    exact ⟨by rw [l2, hd0], L', ⟨Or.inl rfl, K0', hK0', l1'⟩, by rw [l2', l2, hd0'], key l2 l2' l3 l3' fun e he z r => tt.cell ha.ne' hm.wf hd he z r⟩
  · obtain ⟨L, l1, l2, l3⟩ := C39_energy hm (hs.flatMesh hg) (hs.hasProps hh) htk al fa hl
    obtain ⟨L', l1', l2', l3'⟩ := C39_energy hm' (hs'.flatMesh hg') (hs'.hasProps hh') (tt.thick ha.ne' hm.wf hd htk) al fa hl'
    rw [hadd] at l1
    have hKL : K = L := by injection l1
    subst hKL
    exact ⟨by rw [l2, hd0], L', ⟨Or.inr rfl, K0', hK0', l1'⟩, by rw [l2', l2, hd0'], key l2 l2' l3 l3' fun e he z r => by rw [tt.whole ha.ne' hm.wf hd he z]⟩

theorem scaled_supported {s t : ℝ} (hs : s ≠ 0) (ht : t ≠ 0) (n : ℕ) (S : Set ℕ) (z : ℕ → ℝ) : Supported n S (scaled s t z) ↔ Supported n S z := by
  have : ∀ j, scaled s t z j = 0 ↔ z j = 0 := by intro j; unfold scaled; split_ifs <;> simp [hs, ht]
  unfold Supported
  simp only [this]

theorem scaled_from {s t : ℝ} (hs : s ≠ 0) (ht : t ≠ 0) (z : ℕ → ℝ) : ∃ y, z = scaled s t y := by
  refine ⟨scaled s⁻¹ t⁻¹ z, ?_⟩
  funext j
  unfold scaled
  split_ifs <;> field_simp

theorem scaled_work (a f : ℝ) (n : ℕ) (v g : ℕ → ℝ) : ∑ i ∈ range n, inLength a v i * inLoad a f g i = f * a * ∑ i ∈ range n, v i * g i := by
  rw [Finset.mul_sum]
  refine Finset.sum_congr rfl fun i _ => ?_
  unfold inLength inLoad scaled
  split_ifs <;> ring

/-- C125: the static solution in the new units is the static solution converted to the new units -/
theorem C125_static (hr : Reachable m) (hr' : Reachable m') (hp : Proper m) (hg : Planar m) (h : UnitPlate a f m m') (ha : 0 < a) (hf : 0 < f) {pn : Bool} (ht : Thick m pn)
    {method : String} {al : ℝ} {fa : Bool} {K K' : Mat} (hK : Stiffness m pn method al fa K) (hK' : Stiffness m' pn method al fa K') {S : Set ℕ} {g d : ℕ → ℝ} :
    StaticSol K' S (inLoad a f g) (inLength a d) ↔ StaticSol K S g d := by
  obtain ⟨hKd, K'', hK'', hdd, hform⟩ := C125_stiffness hr hr' hp hg h ha ht hK
  obtain rfl := stiffness_fun hK' hK''
  have hfa : f * a ≠ 0 := (mul_pos hf ha).ne'
  rw [static_weak, static_weak, hdd]
  refine and_congr (scaled_supported ha.ne' one_ne_zero _ _ _) ⟨fun H v hv => ?_, fun H v hv => ?_⟩
  · have := H (inLength a v) ((scaled_supported ha.ne' one_ne_zero _ _ _).2 hv)
    rw [← hdd, hform, hdd, scaled_work] at this
    exact mul_left_cancel₀ hfa this
  · obtain ⟨y, rfl⟩ := scaled_from ha.ne' one_ne_zero v
    have := H y ((scaled_supported ha.ne' one_ne_zero _ _ _).1 hv)
    change form K.dim K'.get (inLength a y) _ = ∑ i ∈ range K.dim, inLength a y i * _
    rw [← hdd, hform, hdd, this, scaled_work]

/-! ### C126 -/

/-- C126: in the new units the buckling factors are the same numbers and the modes the same modes, converted to the new units -/
theorem C126_modes (hr : Reachable m) (hr' : Reachable m') (hp : Proper m) (hg : Planar m) (h : UnitPlate a f m m') (ha : 0 < a) (hf : 0 < f) {pn : Bool} (ht : Thick m pn)
    {method : String} {al : ℝ} {fa : Bool} {K K' G G' : Mat} (hK : Stiffness m pn method al fa K) (hK' : Stiffness m' pn method al fa K') {d d' : List ℝ}
    (hl : d.length = 5 * m.nids.length) (hl' : d'.length = 5 * m.nids.length) (hd : ∀ j < 5 * m.nids.length, vec d' j = inLength a (vec d) j)
    (hG : calcKG (calcK0 m pn).1 d pn = .ok G) (hG' : calcKG (calcK0 m' pn).1 d' pn = .ok G') {S : Set ℕ} {c : ℝ} {x : ℕ → ℝ} :
    BucklingMode K' G' S c (inLength a x) ↔ BucklingMode K G S c x := by
  obtain ⟨hKd, K'', hK'', hdd, hform⟩ := C125_stiffness hr hr' hp hg h ha ht hK
  obtain rfl := stiffness_fun hK' hK''
  have hfa : f * a ≠ 0 := (mul_pos hf ha).ne'
  obtain ⟨_, K0, hK0, hadd⟩ := hK
  obtain ⟨_, K0', hK0', _⟩ := hK'
  obtain ⟨hp', hg'⟩ := h.planar ha.ne' hr.wf hr'.wf hp hg
  obtain ⟨hs, _, hh, _⟩ := calcK0_ok hr.wf hK0
  obtain ⟨hs', _, hh', _⟩ := calcK0_ok hr'.wf hK0'
  have haf : AfterK0 (calcK0 m pn).1 := .intro m hr pn K0 hK0 [] (by simp)
  have haf' : AfterK0 (calcK0 m' pn).1 := .intro m' hr' pn K0' hK0' [] (by simp)
  have tt := h.after hs hs'
  have hGd : G.dim = 5 * m.nids.length := by rw [(calcKG_sum hG).1]; omega
  have hGd' : G'.dim = 5 * m.nids.length := by rw [(calcKG_sum hG').1]; omega
  have hgf : ∀ v u, form G'.dim G'.get (inLength a v) (inLength a u) = f * a * form G.dim G.get v u := by
    intro v u
    rw [C29_energy haf (hs.proper hp) (hs.planar hg) (hs.hasProps hh) (by rw [hs.nids]; exact hl) hG,
      C29_energy haf' (hs'.proper hp') (hs'.planar hg') (hs'.hasProps hh') (by rw [hs'.nids, h.nids]; exact hl') hG']
    refine tt.geometric haf.wf haf'.wf (hs.proper hp) (hs.planar hg) ha.ne' pn (fun r hr5 i hi => ?_) v u
    unfold disp
    rw [tt.nids]
    have := List.idxOf_lt_length_iff.2 hi
    rw [hs.nids] at this ⊢
    exact hd _ (by omega)
  rw [hGd, hGd'] at hgf
  rw [hdd, hKd] at hform
  rw [mode_weak, mode_weak, hdd, hKd]
  have nz : ∀ j, inLength a x j = 0 ↔ x j = 0 := by intro j; unfold inLength scaled; split_ifs <;> simp [ha.ne']
  simp only [ne_eq, nz]
  refine and_congr Iff.rfl (and_congr (scaled_supported ha.ne' one_ne_zero _ _ _) ⟨fun H v hv => ?_, fun H v hv => ?_⟩)
  · have := H (inLength a v) ((scaled_supported ha.ne' one_ne_zero _ _ _).2 hv)
    rw [hform, hgf] at this
    exact (mul_eq_zero.1 (show f * a * (form (5 * m.nids.length) K.get v x + c * form (5 * m.nids.length) G.get v x) = 0 by linarith)).resolve_left hfa
  · obtain ⟨y, rfl⟩ := scaled_from ha.ne' one_ne_zero v
    have := H y ((scaled_supported ha.ne' one_ne_zero _ _ _).1 hv)
    change form (5 * m.nids.length) K'.get (inLength a y) _ + c * form (5 * m.nids.length) G'.get (inLength a y) _ = 0
    rw [hform, hgf]
    linear_combination f * a * this

/-- C126: the whole script. With the loads converted to the new units, static solution, `calc_kG` of it and the buckling problem give the same buckling factors. -/
theorem C126_factors (hr : Reachable m) (hr' : Reachable m') (hp : Proper m) (hg : Planar m) (h : UnitPlate a f m m') (ha : 0 < a) (hf : 0 < f) {pn : Bool} (ht : Thick m pn)
    {method : String} {al : ℝ} {fa : Bool} {K K' G G' : Mat} (hK : Stiffness m pn method al fa K) (hK' : Stiffness m' pn method al fa K') {S : Set ℕ} (hst : Stable K S)
    {g : ℕ → ℝ} {d d' : List ℝ} (hl : d.length = 5 * m.nids.length) (hl' : d'.length = 5 * m.nids.length) (hd : StaticSol K S g (vec d))
    (hd' : StaticSol K' S (inLoad a f g) (vec d')) (hG : calcKG (calcK0 m pn).1 d pn = .ok G) (hG' : calcKG (calcK0 m' pn).1 d' pn = .ok G') (c : ℝ) :
    (∃ x', BucklingMode K' G' S c x') ↔ ∃ x, BucklingMode K G S c x := by
  have hdt : ∀ j < 5 * m.nids.length, vec d' j = inLength a (vec d) j := by
    obtain ⟨y, hy⟩ := scaled_from ha.ne' one_ne_zero (vec d')
    rw [hy] at hd' ⊢
    have hu := stable_unique hst ((C125_static hr hr' hp hg h ha hf ht hK hK').1 hd') hd
    rw [(C125_stiffness hr hr' hp hg h ha ht hK).1] at hu
    intro j hj
    unfold inLength scaled
    rw [hu j hj]
  constructor
  · rintro ⟨x', hx'⟩
    obtain ⟨x, rfl⟩ := scaled_from ha.ne' one_ne_zero x'
    exact ⟨x, (C126_modes hr hr' hp hg h ha hf ht hK hK' hl hl' hdt hG hG').1 hx'⟩
  · rintro ⟨x, hx⟩
    exact ⟨inLength a x, (C126_modes hr hr' hp hg h ha hf ht hK hK' hl hl' hdt hG hG').2 hx⟩

end

/-! ### concrete cases -/

/-- the laminates of the unit square `exSq` in the new units -/
noncomputable def exUnit (a f : ℝ) : Lam := exLam (f / a) (f * a) (f / a) a

/-- the square before it is scaled -/
noncomputable def exLaid (a f : ℝ) : Mesh := exMesh (exUnit a f) (exUnit a f) (exUnit a f) (exUnit a f) (exUnit a f) (exUnit a f)

/-- the unit square in the new units: the square of side `a` with converted laminates -/
noncomputable def exScaled (a f : ℝ) : Mesh := run (exLaid a f) ((exLaid a f).nids.map fun i => .moveNode i (Vec3.smul a ((exLaid a f).node i).xyz))

theorem exScaled_reachable (a f : ℝ) : Reachable (exScaled a f) := (exMesh_reachable ..).run _

theorem exScaled_spec (a f : ℝ) : (exScaled a f).nids = (exLaid a f).nids ∧ (exScaled a f).eids = (exLaid a f).eids ∧ (exScaled a f).tria = (exLaid a f).tria ∧
    ∀ i, ((exScaled a f).node i).xyz = (if i ∈ (exLaid a f).nids then Vec3.smul a ((exLaid a f).node i).xyz else ((exLaid a f).node i).xyz) ∧
      ((exScaled a f).node i).cp = ((exLaid a f).node i).cp ∧ ((exScaled a f).node i).prop = ((exLaid a f).node i).prop := by
  unfold exScaled
  generalize exLaid a f = n
  exact moves_spec (fun i => Vec3.smul a (n.node i).xyz) n.nids n (fun i hi => hi)

theorem exScaled_unit (a f : ℝ) : UnitPlate a f exSq (exScaled a f) := by
  obtain ⟨h1, h2, h3, h4⟩ := exScaled_spec a f
  have hnn : (exLaid a f).nids = [1, 2, 3, 4] := exMesh_nids ..
  have hl : UnitLam a f exIso (exUnit a f) := by
    constructor <;> (try intro i j) <;> simp only [exIso, exUnit, exLam] <;> (try split_ifs) <;> ring
  have hxyz : ∀ i ∈ exSq.nids, ((exScaled a f).node i).xyz = Vec3.smul a (exSq.node i).xyz := by
    intro i hi
    rw [exMesh_nids] at hi
    have := (h4 i).1
    rw [if_pos (by rw [hnn]; exact hi)] at this
    rw [this]
    unfold exLaid
    simp only [List.mem_cons, List.not_mem_nil, or_false] at hi
    rcases hi with rfl | rfl | rfl | rfl <;> simp only [exMesh_node1, exMesh_node2, exMesh_node3, exMesh_node4]
  have hn : (exScaled a f).nids = exSq.nids := by rw [h1, hnn, exMesh_nids]
  refine { toLamRel := ⟨fun e he => ?_, fun i hi => ?_⟩, nids := hn, eids := by rw [h2]; unfold exLaid; rw [exMesh_eids, exMesh_eids], tri := fun e he => ?_,
           hx := fun i hi => ?_, hy := fun i hi => ?_, basic := fun i hi => ?_, flat := fun i hi j hj => ?_ }
  · rw [exMesh_eids] at he
    rw [h3, id]
    unfold exLaid
    simp only [List.mem_cons, List.not_mem_nil, or_false] at he
    rcases he with rfl | rfl
    · rw [exMesh_tria1, exMesh_tria1]; exact .some hl
    · rw [exMesh_tria2, exMesh_tria2]; exact .some hl
  · rw [exMesh_nids] at hi
    rw [id, (h4 i).2.2]
    unfold exLaid
    obtain ⟨e1, e2, e3, e4⟩ := exMesh_nprop (exUnit a f) (exUnit a f) (exUnit a f) (exUnit a f) (exUnit a f) (exUnit a f)
    obtain ⟨f1, f2, f3, f4⟩ := exMesh_nprop exIso exIso exIso exIso exIso exIso
    simp only [List.mem_cons, List.not_mem_nil, or_false] at hi
    rcases hi with rfl | rfl | rfl | rfl
    · rw [e1, f1]; exact .some hl
    · rw [e2, f2]; exact .some hl
    · rw [e3, f3]; exact .some hl
    · rw [e4, f4]; exact .some hl
  · rw [exMesh_eids] at he
    unfold corners
    rw [h3]
    unfold exLaid
    simp only [List.mem_cons, List.not_mem_nil, or_false] at he
    rcases he with rfl | rfl
    · simp only [exMesh_tria1]
    · simp only [exMesh_tria2]
  · unfold nx; rw [hxyz i hi]; rfl
  · unfold ny; rw [hxyz i hi]; rfl
  · rw [h1] at hi
    rw [(h4 i).2.1, show ((exLaid a f).node i).cp = id from exMesh_cp _ _ _ _ _ _ i hi]; rfl
  · rw [hn] at hi hj
    rw [hxyz i hi, hxyz j hj]
    change a * _ = a * _
    rw [(exMesh_planar exIso exIso exIso exIso exIso exIso).flat i hi j hj]

/-- the unit square clamped along its left side: the deflections in millimetres and kilonewtons (lengths times 1000, forces divided by 1000) -/
example (pn : Bool) {method : String} (hme : method = "cell-based" ∨ method = "cell-based-no-smoothing") (al : ℝ) (fa : Bool) :
    ∃ K K', Stiffness exSq pn method al fa K ∧ Stiffness (exScaled 1000 (1 / 1000)) pn method al fa K' ∧
      ∀ S g d, StaticSol K' S (inLoad 1000 (1 / 1000) g) (inLength 1000 d) ↔ StaticSol K S g d := by
  have hr := exMesh_reachable exIso exIso exIso exIso exIso exIso
  obtain ⟨K, hK⟩ := exSq_stiffness hme pn al fa
  obtain ⟨_, K', hK', _⟩ := C125_stiffness hr (exScaled_reachable 1000 (1 / 1000)) (exMesh_proper ..) (exMesh_planar ..) (exScaled_unit ..) (by norm_num) (exSq_thick pn) hK
  exact ⟨K, K', hK, hK', fun S g d => C125_static hr (exScaled_reachable ..) (exMesh_proper ..) (exMesh_planar ..) (exScaled_unit ..) (by norm_num) (by norm_num)
    (exSq_thick pn) hK hK'⟩

/-- buckling of the unit square pressed by `u = -x`, in any other units -/
example (pn : Bool) (al : ℝ) (fa : Bool) {a f : ℝ} (ha : 0 < a) (hf : 0 < f) :
    ∃ K K' G G', Stiffness exSq pn "cell-based" al fa K ∧ Stiffness (exScaled a f) pn "cell-based" al fa K' ∧ calcKG (calcK0 exSq pn).1 exPress pn = .ok G ∧
      calcKG (calcK0 (exScaled a f) pn).1 ((List.range 20).map (inLength a (vec exPress))) pn = .ok G' ∧
      ∀ S c x, BucklingMode K' G' S c (inLength a x) ↔ BucklingMode K G S c x := by
  have hr := exMesh_reachable exIso exIso exIso exIso exIso exIso
  obtain ⟨K, hK⟩ := exSq_stiffness (Or.inl rfl) pn al fa
  obtain ⟨_, K', hK', _⟩ := C125_stiffness hr (exScaled_reachable a f) (exMesh_proper ..) (exMesh_planar ..) (exScaled_unit a f) ha (exSq_thick pn) hK
  obtain ⟨hme, K0, hK0, hadd⟩ := hK
  obtain ⟨hme', K0', hK0', hadd'⟩ := hK'
  obtain ⟨hp', hg'⟩ := (exScaled_unit a f).planar ha.ne' hr.wf (exScaled_reachable a f).wf (exMesh_proper ..) (exMesh_planar ..)
  obtain ⟨hs, _, hh, _⟩ := calcK0_ok hr.wf hK0
  obtain ⟨hs', _, hh', _⟩ := calcK0_ok (exScaled_reachable a f).wf hK0'
  have haf : AfterK0 (calcK0 exSq pn).1 := .intro exSq hr pn K0 hK0 [] (by simp)
  have haf' : AfterK0 (calcK0 (exScaled a f) pn).1 := .intro _ (exScaled_reachable a f) pn K0' hK0' [] (by simp)
  obtain ⟨G, hG, _⟩ := C49_kG haf (hs.proper (exMesh_proper ..)) (hs.hasProps hh) (d := exPress) (by rw [hs.nids, exMesh_nids]; rfl)
  obtain ⟨G', hG', _⟩ := C49_kG haf' (hs'.proper hp') (hs'.hasProps hh') (d := (List.range 20).map (inLength a (vec exPress)))
    (by rw [hs'.nids, (exScaled_unit a f).nids, exMesh_nids]; simp)
  refine ⟨K, K', G, G', ⟨hme, K0, hK0, hadd⟩, ⟨hme', K0', hK0', hadd'⟩, hG, hG', fun S c x => ?_⟩
  refine C126_modes hr (exScaled_reachable a f) (exMesh_proper ..) (exMesh_planar ..) (exScaled_unit a f) ha hf (exSq_thick pn) ⟨hme, K0, hK0, hadd⟩
    ⟨hme', K0', hK0', hadd'⟩ (by rw [exMesh_nids]; rfl) (by rw [exMesh_nids]; simp) (fun j hj => ?_) hG hG'
  rw [exMesh_nids] at hj
  have hj : j < 20 := hj
  unfold vec
  rw [List.getD_eq_getElem _ _ (by simpa using hj)]
  simp

end Meshless
