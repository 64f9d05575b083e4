import Verif.Lemmas.TurnSolve

/-! The same plate in turned, mirrored or renumbered form: static solutions and buckling factors; symmetric plates. -/

set_option autoImplicit false

namespace Meshless
open Spec Finset

section
variable {q : Fin 2 → Fin 2 → ℝ} {π σ : ℕ → ℕ} {a b : ℝ} {m m' : Mesh}

theorem stiffness_fun {pn : Bool} {method : String} {al : ℝ} {fa : Bool} {K K' : Mat} (h : Stiffness m pn method al fa K) (h' : Stiffness m pn method al fa K') : K = K' := by
  obtain ⟨_, K0, h0, h1⟩ := h
  obtain ⟨_, K0', h0', h1'⟩ := h'
  rw [h0] at h0'
  cases h0'
  rw [h1] at h1'
  cases h1'
  rfl

/-- the stiffness matrix (`calc_k0`, then `add_k0s` with the smoothed cell method) of the turned plate is the turned matrix -/
theorem stiffness_turned (hr : Reachable m) (hr' : Reachable m') (hp : Proper m) (hg : Planar m) (h : TurnedModel q π σ a b m m') {pn : Bool} (ht : Thick m pn) {al : ℝ}
    {fa : Bool} {K : Mat} (hK : Stiffness m pn "cell-based" al fa K) : K.dim = 5 * m.nids.length ∧ ∃ K', Stiffness m' pn "cell-based" al fa K' ∧ K'.dim = K.dim ∧
      ∀ v u v' u', TurnedDisp q π m m' v v' → TurnedDisp q π m m' u u' → form K'.dim K'.get v' u' = form K.dim K.get v u := by
  obtain ⟨hme, K0, hK0, hadd⟩ := hK
  obtain ⟨K0', hK0', hd0', hf0⟩ := C87_turned hr hr' hp hg h.orth h.toTurnedPlate h.basic h.flat hK0
  obtain ⟨hs, _, hh, _⟩ := calcK0_ok hr.wf hK0
  obtain ⟨hs', _, hh', _⟩ := calcK0_ok hr'.wf hK0'
  have hm : Numbered (calcK0 m pn).1 := .intro m hr pn K0 hK0 []
  have hm' : Numbered (calcK0 m' pn).1 := .intro m' hr' pn K0' hK0' []
  have tt := hs.turned hs' h
  have hf := hs.flatMesh hg
  have htk : Thick (calcK0 m pn).1 pn := by
    intro e he
    have : cavg (calcK0 m pn).1 pn e = cavg m pn e := by
      funext sel; simp only [cavg, hs.tria, hs.scorners, hs.prop]
    rw [this]; exact ht e (hs.eids ▸ he)
  obtain ⟨hf', ht'⟩ := tt.toTurnedGeom.shearHyps tt.orth tt.shear hm.wf hf tt.basic tt.flat htk
  have hd0 : K0.dim = 5 * m.nids.length := by rw [(calcK0_sum hr.wf hK0).1]; ring
  obtain ⟨L, l1, l2, l3⟩ := C38_energy hm hf (hs.hasProps hh) htk al fa (K := K0) (by rw [hs.nids]; exact hd0)
  obtain ⟨L', l1', l2', l3'⟩ := C38_energy hm' hf' (hs'.hasProps hh') ht' al fa (K := K0') (by rw [hs'.nids, h.toTurnedGeom.length, hd0', hd0])
  rw [hadd] at l1
  have hKL : K = L := by injection l1
  subst hKL
  refine ⟨by rw [l2, hd0], L', ⟨hme, K0', hK0', l1'⟩, by rw [l2', l2, hd0'], fun v u v' u' hv hu => ?_⟩
  have e0 := hf0 v u v' u' hv hu
  have e1 := tt.shearEnergy hm.wf pn al fa (hs.turnedDisp hs' hv) (hs.turnedDisp hs' hu)
  rw [l2', l2, form_add _ K0'.get L'.get, l3', form_add _ K0.get K.get, l3, e0, e1]

/-! ### C92 -/

/-- C92: in turned, mirrored or renumbered axes the static solution is the turned solution: if the supports and the loads are the turned ones, a
displacement solves the static problem exactly when its turned counterpart solves the static problem of the turned plate -/
theorem C92_turned (hr : Reachable m) (hr' : Reachable m') (hp : Proper m) (hg : Planar m) (h : TurnedModel q π σ a b m m') {pn : Bool} (ht : Thick m pn) {al : ℝ}
    {fa : Bool} {K K' : Mat} (hK : Stiffness m pn "cell-based" al fa K) (hK' : Stiffness m' pn "cell-based" al fa K') {S S' : Set ℕ} (hS : TurnedSupport q π m m' S S')
    {f f' d d' : ℕ → ℝ} (hf : TurnedDisp q π m m' f f') (hd : TurnedDisp q π m m' d d') : StaticSol K S f d ↔ StaticSol K' S' f' d' := by
  obtain ⟨hdim, K'', hK'', hdd, hform⟩ := stiffness_turned hr hr' hp hg h ht hK
  obtain rfl := stiffness_fun hK' hK''
  have hdim' : K'.dim = 5 * m'.nids.length := by rw [hdd, hdim, h.toTurnedGeom.length]
  rw [static_weak, static_weak, hdim, hdim']
  refine and_congr (hS d d' hd) ⟨fun H v' hv' => ?_, fun H v hv => ?_⟩
  · obtain ⟨v, hv⟩ := turned_from (π := π) (m := m) (m' := m') h.orth v'
    rw [← hdim', hform v d v' d' hv hd, hdim', h.toTurnedGeom.work h.orth hr.wf hr'.wf hv hf, ← H v ((hS v v' hv).2 hv'), hdim]
  · obtain ⟨v', hv'⟩ := h.toTurnedGeom.turned_to hr'.wf v
    rw [← hdim, ← hform v d v' d' hv' hd, hdim, ← h.toTurnedGeom.work h.orth hr.wf hr'.wf hv' hf, ← H v' ((hS v v' hv').1 hv), hdim']

/-! ### C93 -/

/-- C93: a symmetric plate (the map `q`, `π` takes it to itself) with symmetric supports and loads has a symmetric static solution -/
theorem C93_symmetric (hr : Reachable m) (hp : Proper m) (hg : Planar m) (h : TurnedModel q π σ a b m m) {pn : Bool} (ht : Thick m pn) {al : ℝ} {fa : Bool} {K : Mat}
    (hK : Stiffness m pn "cell-based" al fa K) {S : Set ℕ} (hS : TurnedSupport q π m m S S) (hst : Stable K S) {f d : ℕ → ℝ} (hf : TurnedDisp q π m m f f)
    (hd : StaticSol K S f d) : TurnedDisp q π m m d d := by
  obtain ⟨d', hd'⟩ := h.toTurnedGeom.turned_to hr.wf d
  have hsol := (C92_turned hr hr hp hg h ht hK hK hS hf hd').1 hd
  have hu := stable_unique hst hsol hd
  rw [(stiffness_turned hr hr hp hg h ht hK).1] at hu
  exact hd'.of_eq h.toTurnedGeom (fun _ _ => rfl) fun j hj => (hu j hj).symm

/-! ### C94 -/

/-- C94: the buckling modes of the turned plate are the turned modes, with the same factors -/
theorem C94_modes (hr : Reachable m) (hr' : Reachable m') (hp : Proper m) (hg : Planar m) (h : TurnedModel q π σ a b m m') (hsym : AllLams m SymmetricAB)
    (hsym' : AllLams m' SymmetricAB) {pn : Bool} (ht : Thick m pn) {al : ℝ} {fa : Bool} {K K' G G' : Mat} (hK : Stiffness m pn "cell-based" al fa K)
    (hK' : Stiffness m' pn "cell-based" al fa K') {d d' : List ℝ} (hl : d.length = 5 * m.nids.length) (hl' : d'.length = 5 * m'.nids.length)
    (hd : TurnedDisp q π m m' (vec d) (vec d')) (hG : calcKG (calcK0 m pn).1 d pn = .ok G) (hG' : calcKG (calcK0 m' pn).1 d' pn = .ok G') {S S' : Set ℕ}
    (hS : TurnedSupport q π m m' S S') {c : ℝ} {x x' : ℕ → ℝ} (hx : TurnedDisp q π m m' x x') : BucklingMode K G S c x ↔ BucklingMode K' G' S' c x' := by
  obtain ⟨hdim, K'', hK'', hdd, hform⟩ := stiffness_turned hr hr' hp hg h ht hK
  obtain rfl := stiffness_fun hK' hK''
  have hdim' : K'.dim = 5 * m'.nids.length := by rw [hdd, hdim, h.toTurnedGeom.length]
  obtain ⟨_, K0, hK0, _⟩ := hK
  obtain ⟨_, K0', hK0', _⟩ := hK'
  obtain ⟨hs, _, hh, _⟩ := calcK0_ok hr.wf hK0
  obtain ⟨hs', _, hh', _⟩ := calcK0_ok hr'.wf hK0'
  have haf : AfterK0 (calcK0 m pn).1 := .intro m hr pn K0 hK0 [] (by simp)
  have haf' : AfterK0 (calcK0 m' pn).1 := .intro m' hr' pn K0' hK0' [] (by simp)
  have tt := hs.turned hs' h
  have lam : ∀ {n n' : Mesh}, SameStatic n n' → AllLams n SymmetricAB → AllLams n' SymmetricAB := by
    intro n n' hn hl
    refine ⟨?_, ?_⟩
    · intro i hi; rw [hn.prop]; exact hl.1 i (hn.nids ▸ hi)
    · rw [hn.eids, hn.tria]; exact hl.2
  obtain ⟨G1, G1', g1, g1', hgd, hgf⟩ := C88_turned haf haf' (hs.proper hp) (hs.planar hg) tt.orth tt.toTurnedPlate (lam hs hsym) (lam hs' hsym') tt.basic tt.flat
    (hs.hasProps hh) (by rw [hs.nids]; exact hl) (by rw [hs'.nids]; exact hl') (hs.turnedDisp hs' hd)
  rw [hG] at g1
  cases g1
  rw [hG'] at g1'
  cases g1'
  have hGd : G.dim = 5 * m.nids.length := by rw [(calcKG_sum hG).1]; omega
  have hGd' : G'.dim = 5 * m'.nids.length := by rw [(calcKG_sum hG').1]; omega
  have hsum : ∀ v v', TurnedDisp q π m m' v v' → form (5 * m'.nids.length) K'.get v' x' + c * form (5 * m'.nids.length) G'.get v' x' =
      form (5 * m.nids.length) K.get v x + c * form (5 * m.nids.length) G.get v x := by
    intro v v' hv
    have e1 := hform v x v' x' hv hx
    have e2 := hgf v x v' x' (hs.turnedDisp hs' hv) (hs.turnedDisp hs' hx)
    rw [hdim, hdim'] at e1
    rw [hGd, hGd'] at e2
    rw [e1, e2]
  rw [mode_weak, mode_weak, hdim, hdim']
  refine and_congr (h.toTurnedGeom.nonzero h.orth hr.wf hr'.wf hx).symm (and_congr (hS x x' hx) ⟨fun H v' hv' => ?_, fun H v hv => ?_⟩)
  · obtain ⟨v, hv⟩ := turned_from (π := π) (m := m) (m' := m') h.orth v'
    rw [hsum v v' hv]
    exact H v ((hS v v' hv).2 hv')
  · obtain ⟨v', hv'⟩ := h.toTurnedGeom.turned_to hr'.wf v
    rw [← hsum v v' hv']
    exact H v' ((hS v v' hv').1 hv)

/-- C94: the whole script. With turned supports and loads, static solution, `calc_kG` of it and the buckling problem give the same buckling factors in every
choice of axes and numbers. -/
theorem C94_factors (hr : Reachable m) (hr' : Reachable m') (hp : Proper m) (hg : Planar m) (h : TurnedModel q π σ a b m m') (hsym : AllLams m SymmetricAB)
    (hsym' : AllLams m' SymmetricAB) {pn : Bool} (ht : Thick m pn) {al : ℝ} {fa : Bool} {K K' G G' : Mat} (hK : Stiffness m pn "cell-based" al fa K)
    (hK' : Stiffness m' pn "cell-based" al fa K') {S S' : Set ℕ} (hS : TurnedSupport q π m m' S S') (hst : Stable K' S') {f f' : ℕ → ℝ} (hf : TurnedDisp q π m m' f f')
    {d d' : List ℝ} (hl : d.length = 5 * m.nids.length) (hl' : d'.length = 5 * m'.nids.length) (hd : StaticSol K S f (vec d)) (hd' : StaticSol K' S' f' (vec d'))
    (hG : calcKG (calcK0 m pn).1 d pn = .ok G) (hG' : calcKG (calcK0 m' pn).1 d' pn = .ok G') (c : ℝ) :
    (∃ x, BucklingMode K G S c x) ↔ ∃ x', BucklingMode K' G' S' c x' := by
  have hdt : TurnedDisp q π m m' (vec d) (vec d') := by
    obtain ⟨y, hy⟩ := h.toTurnedGeom.turned_to hr'.wf (vec d)
    have hsol := (C92_turned hr hr' hp hg h ht hK hK' hS hf hy).1 hd
    obtain ⟨hdim, K'', hK'', hdd, _⟩ := stiffness_turned hr hr' hp hg h ht hK
    obtain rfl := stiffness_fun hK' hK''
    have hu := stable_unique hst hd' hsol
    rw [show K'.dim = 5 * m'.nids.length by rw [hdd, hdim, h.toTurnedGeom.length]] at hu
    exact hy.of_eq h.toTurnedGeom (fun _ _ => rfl) hu
  constructor
  · rintro ⟨x, hx⟩
    obtain ⟨x', hx'⟩ := h.toTurnedGeom.turned_to hr'.wf x
    exact ⟨x', (C94_modes hr hr' hp hg h hsym hsym' ht hK hK' hl hl' hdt hG hG' hS hx').1 hx⟩
  · rintro ⟨x', hx'⟩
    obtain ⟨x, hx⟩ := turned_from (π := π) (m := m) (m' := m') h.orth x'
    exact ⟨x, (C94_modes hr hr' hp hg h hsym hsym' ht hK hK' hl hl' hdt hG hG' hS hx).2 hx'⟩

/-! ### supports that turn with the plate -/

theorem supported_nodes {n : Mesh} (hn : n.nids.Nodup) {T : Set ℕ} {z : ℕ → ℝ} :
    Supported (5 * n.nids.length) T z ↔ ∀ i ∈ n.nids, ∀ r < 5, dofNo n i r ∈ T → disp n z r i = 0 := by
  constructor
  · intro H i hi r hr hT
    have := List.idxOf_lt_length_iff.2 hi
    exact H (dofNo n i r) (by unfold dofNo; omega) hT
  · intro H j hj hT
    have hl : j / 5 < n.nids.length := by omega
    have hj' : dofNo n n.nids[j / 5] (j % 5) = j := by unfold dofNo; rw [List.Nodup.idxOf_getElem hn]; omega
    have := H _ (List.getElem_mem hl) (j % 5) (by omega) (by rw [hj']; exact hT)
    change z (dofNo n n.nids[j / 5] (j % 5)) = 0 at this
    rwa [hj'] at this

/-- supports that hold both in-plane displacements or none, and both rotations or none, at corresponding nodes -/
theorem support_pairs (h : TurnedGeom q π σ a b m m') (hq : Orthogonal q) (w : WF m) (w' : WF m') {S S' : Set ℕ}
    (hSS : ∀ i ∈ m.nids, ∀ r < 5, dofNo m' (π i) r ∈ S' ↔ dofNo m i r ∈ S)
    (hS : ∀ i ∈ m.nids, (dofNo m i 0 ∈ S ↔ dofNo m i 1 ∈ S) ∧ (dofNo m i 3 ∈ S ↔ dofNo m i 4 ∈ S)) : TurnedSupport q π m m' S S' := by
  obtain ⟨c0, c1, c2⟩ := hq.cols
  have r0 := hq.row0
  have r1 := hq.row1
  have rc := hq.cross
  have rot : ∀ x y x' y' : ℝ, x' = q 0 0 * x + q 0 1 * y → y' = q 1 0 * x + q 1 1 * y → (x' = 0 ∧ y' = 0 ↔ x = 0 ∧ y = 0) := by
    rintro x y x' y' rfl rfl
    constructor
    · rintro ⟨h1, h2⟩
      constructor
      · linear_combination q 0 0 * h1 + q 1 0 * h2 - x * c0 - y * c2
      · linear_combination q 0 1 * h1 + q 1 1 * h2 - y * c1 - x * c2
    · rintro ⟨rfl, rfl⟩; simp
  have r5 : ∀ P : ℕ → Prop, (∀ r < 5, P r) ↔ (P 0 ∧ P 1) ∧ P 2 ∧ (P 3 ∧ P 4) := by
    intro P
    constructor
    · intro H; exact ⟨⟨H 0 (by norm_num), H 1 (by norm_num)⟩, H 2 (by norm_num), H 3 (by norm_num), H 4 (by norm_num)⟩
    · rintro ⟨⟨h0, h1⟩, h2, h3, h4⟩ r hr
      have : r = 0 ∨ r = 1 ∨ r = 2 ∨ r = 3 ∨ r = 4 := by omega
      rcases this with rfl | rfl | rfl | rfl | rfl <;> assumption
  intro z z' hz
  rw [supported_nodes w.nids_nodup, supported_nodes w'.nids_nodup]
  have hnode : ∀ i ∈ m.nids, (∀ r < 5, dofNo m i r ∈ S → disp m z r i = 0) ↔ ∀ r < 5, dofNo m' (π i) r ∈ S' → disp m' z' r (π i) = 0 := by
    intro i hi
    rw [r5, r5, hSS i hi 0 (by norm_num), hSS i hi 1 (by norm_num), hSS i hi 2 (by norm_num), hSS i hi 3 (by norm_num), hSS i hi 4 (by norm_num), ← (hS i hi).1, ← (hS i hi).2,
      ← imp_and, ← imp_and, ← imp_and, ← imp_and, rot _ _ _ _ (hz.u i hi) (hz.v i hi), rot _ _ _ _ (hz.phix i hi) (hz.phiy i hi), hz.w i hi]
  constructor
  · intro H i' hi'
    obtain ⟨i, hi, rfl⟩ := h.pre hi'
    exact (hnode i hi).1 (H i hi)
  · intro H i hi
    exact (hnode i hi).2 (H _ (h.mem hi))

/-- any supports, if the axes are only reversed -/
theorem support_signs (h : TurnedGeom q π σ a b m m') (hq : Orthogonal q) (h01 : q 0 1 = 0) (h10 : q 1 0 = 0) (w : WF m) (w' : WF m') {S S' : Set ℕ}
    (hSS : ∀ i ∈ m.nids, ∀ r < 5, dofNo m' (π i) r ∈ S' ↔ dofNo m i r ∈ S) : TurnedSupport q π m m' S S' := by
  have r0 := hq.row0
  have r1 := hq.row1
  have n0 : q 0 0 ≠ 0 := by rintro e; rw [e, h01] at r0; norm_num at r0
  have n1 : q 1 1 ≠ 0 := by rintro e; rw [e, h10] at r1; norm_num at r1
  intro z z' hz
  rw [supported_nodes w.nids_nodup, supported_nodes w'.nids_nodup]
  have hnode : ∀ i ∈ m.nids, ∀ r < 5, disp m z r i = 0 ↔ disp m' z' r (π i) = 0 := by
    intro i hi r hr
    have : r = 0 ∨ r = 1 ∨ r = 2 ∨ r = 3 ∨ r = 4 := by omega
    rcases this with rfl | rfl | rfl | rfl | rfl
    · rw [hz.u i hi, h01]; simp [n0]
    · rw [hz.v i hi, h10]; simp [n1]
    · rw [hz.w i hi]
    · rw [hz.phix i hi, h01]; simp [n0]
    · rw [hz.phiy i hi, h10]; simp [n1]
  constructor
  · intro H i' hi' r hr hT
    obtain ⟨i, hi, rfl⟩ := h.pre hi'
    exact (hnode i hi r hr).1 (H i hi r hr ((hSS i hi r hr).1 hT))
  · intro H i hi r hr hT
    exact (hnode i hi r hr).2 (H _ (h.mem hi) r hr ((hSS i hi r hr).2 hT))

/-- other numbers, orders and origin: the axes do not turn and every laminate is kept -/
theorem samePlate_model (h : SamePlate π σ 1 a b m m') (hbasic : ∀ i ∈ m'.nids, (m'.node i).cp (m'.node i).xyz = (m'.node i).xyz)
    (hflat : ∀ i ∈ m'.nids, ∀ j ∈ m'.nids, (m'.node i).xyz.z = (m'.node j).xyz.z) : TurnedModel ![![1, 0], ![0, 1]] π σ a b m m' := by
  have rel : ∀ {R : Lam → Lam → Prop}, (∀ p, R p p) → ∀ o o' : Option Lam, o' = o → Option.Rel R o o' := by
    intro R hR o o' ho
    subst ho
    cases o' with
    | none => exact .none
    | some p => exact .some (hR p)
  have hlam : ∀ p, TurnedLam ![![1, 0], ![0, 1]] p p := by
    intro p e
    have : turnStrain ![![1, 0], ![0, 1]] e = e := by funext i; fin_cases i <;> simp [turnStrain]
    rw [this]
  have hsh : ∀ p, SameShear p p := fun p => ⟨rfl, rfl, rfl, rfl, rfl⟩
  exact
    { nids := h.nids, eids := h.eids, tri := h.tri
      hx := fun i hi => by simp [h.hx i hi]
      hy := fun i hi => by simp [h.hy i hi]
      tprop := fun e he => rel hlam _ _ (h.tprop e he)
      nprop := fun i hi => rel hlam _ _ (h.nprop i hi)
      orth := ⟨by simp, by simp, by simp⟩
      shear := ⟨fun e he => rel hsh _ _ (h.tprop e he), fun i hi => rel hsh _ _ (h.nprop i hi)⟩
      axes := Or.inr ⟨by simp, by simp⟩
      basic := hbasic, flat := hflat }

end

/-! ### concrete cases -/

/-- node and triangle numbers of the unit square after half a turn -/
def exHalf (i : ℕ) : ℕ := if i = 1 then 3 else if i = 3 then 1 else if i = 2 then 4 else 2

/-- half a turn about its centre takes the unit square, with any two laminates of opposite nodes equal, to itself -/
theorem exHalf_model (p r t : Lam) : TurnedModel (rotation (-1) 0) exHalf (fun e => 3 - e) 1 1 (exMesh p r p r t t) (exMesh p r p r t t) := by
  have hlam : ∀ p, TurnedLam (rotation (-1) 0) p p := by
    intro p e
    have : turnStrain (rotation (-1) 0) e = e := by funext i; fin_cases i <;> simp [turnStrain, rotation]
    rw [this]
  obtain ⟨e1, e2, e3, e4⟩ := exMesh_nprop p r p r t t
  have nprop : ∀ {R : Lam → Lam → Prop}, (∀ p, R p p) → ∀ i ∈ (exMesh p r p r t t).nids,
      Option.Rel R ((exMesh p r p r t t).node i).prop ((exMesh p r p r t t).node (exHalf i)).prop := by
    intro R hR i hi
    rw [exMesh_nids] at hi
    simp only [List.mem_cons, List.not_mem_nil, or_false] at hi
    rcases hi with rfl | rfl | rfl | rfl
    · change Option.Rel R _ ((exMesh p r p r t t).node 3).prop; rw [e1, e3]; exact .some (hR p)
    · change Option.Rel R _ ((exMesh p r p r t t).node 4).prop; rw [e2, e4]; exact .some (hR r)
    · change Option.Rel R _ ((exMesh p r p r t t).node 1).prop; rw [e1, e3]; exact .some (hR p)
    · change Option.Rel R _ ((exMesh p r p r t t).node 2).prop; rw [e2, e4]; exact .some (hR r)
  have tprop : ∀ {R : Lam → Lam → Prop}, (∀ p, R p p) → ∀ e ∈ (exMesh p r p r t t).eids,
      Option.Rel R ((exMesh p r p r t t).tria e).prop ((exMesh p r p r t t).tria (3 - e)).prop := by
    intro R hR e he
    rw [exMesh_eids] at he
    simp only [List.mem_cons, List.not_mem_nil, or_false] at he
    rcases he with rfl | rfl
    · change Option.Rel R _ ((exMesh p r p r t t).tria 2).prop; rw [exMesh_tria1, exMesh_tria2]; exact .some (hR t)
    · change Option.Rel R _ ((exMesh p r p r t t).tria 1).prop; rw [exMesh_tria1, exMesh_tria2]; exact .some (hR t)
  have hsh : ∀ p, SameShear p p := fun p => ⟨rfl, rfl, rfl, rfl, rfl⟩
  exact
    { nids := by rw [exMesh_nids]; decide
      eids := by rw [exMesh_eids]; decide
      tri := fun e he => by
        rw [exMesh_eids] at he
        simp only [List.mem_cons, List.not_mem_nil, or_false] at he
        rcases he with rfl | rfl
        · change (corners _ 2).Perm _; simp only [corners, exMesh_tria1, exMesh_tria2]; decide
        · change (corners _ 1).Perm _; simp only [corners, exMesh_tria1, exMesh_tria2]; decide
      hx := fun i hi => by
        rw [exMesh_nids] at hi
        simp only [List.mem_cons, List.not_mem_nil, or_false] at hi
        rcases hi with rfl | rfl | rfl | rfl <;> simp [nx, exHalf, rotation, exMesh_node1, exMesh_node2, exMesh_node3, exMesh_node4]
      hy := fun i hi => by
        rw [exMesh_nids] at hi
        simp only [List.mem_cons, List.not_mem_nil, or_false] at hi
        rcases hi with rfl | rfl | rfl | rfl <;> simp [ny, exHalf, rotation, exMesh_node1, exMesh_node2, exMesh_node3, exMesh_node4]
      tprop := tprop hlam
      nprop := nprop hlam
      orth := rotation_orthogonal (by norm_num)
      shear := ⟨tprop hsh, nprop hsh⟩
      axes := Or.inr ⟨by simp [rotation], by simp [rotation]⟩
      basic := (exMesh_planar p r p r t t).basic
      flat := (exMesh_planar p r p r t t).flat }

theorem exSq_thick (pn : Bool) : Thick exSq pn := fun _ he =>
  (cavg_pos (exMesh_reachable exIso exIso exIso exIso exIso exIso).wf (exMesh_props _ _ _ _ _ _ pn) he fun _ h => by rw [exSq_inUse h]; exact exIso_shear.1).ne'

/-- the square clamped at the nodes 1 and 3 -/
theorem exSq_held2 : Held exSq {x | x < 5 ∨ (10 ≤ x ∧ x < 15)} := by
  refine ⟨1, by rw [exMesh_nids]; simp, 3, by rw [exMesh_nids]; simp, Or.inl ⟨Or.inr ?_, fun r hr => ?_⟩⟩
  · simp only [ny, exMesh_node1, exMesh_node3]; norm_num
  · simp only [dofNo, exMesh_nids, Set.mem_ofPred_eq]
    constructor
    · left; simp; omega
    · right; simp; omega

theorem exSq_support2 : TurnedSupport (rotation (-1) 0) exHalf exSq exSq {x | x < 5 ∨ (10 ≤ x ∧ x < 15)} {x | x < 5 ∨ (10 ≤ x ∧ x < 15)} := by
  refine support_signs (exHalf_model exIso exIso exIso).toTurnedGeom (exHalf_model exIso exIso exIso).orth (by simp [rotation]) (by simp [rotation])
    (exMesh_reachable exIso exIso exIso exIso exIso exIso).wf (exMesh_reachable exIso exIso exIso exIso exIso exIso).wf fun i hi r hr => ?_
  simp only [dofNo, exMesh_nids, Set.mem_ofPred_eq] at hi ⊢
  simp only [List.mem_cons, List.not_mem_nil, or_false] at hi
  rcases hi with rfl | rfl | rfl | rfl <;> simp [exHalf] <;> omega

/-- equal loads along `z` on the nodes 2 and 4 of the square clamped at its other two nodes: the deflections of the two nodes are equal, their rotations
opposite -/
example (pn : Bool) (al : ℝ) (ha : 0 ≤ al) (fa : Bool) : ∃ K, Stiffness exSq pn "cell-based" al fa K ∧ ∀ d,
    StaticSol K {x | x < 5 ∨ (10 ≤ x ∧ x < 15)} (fun j => if j = 7 ∨ j = 17 then 1 else 0) d → d 17 = d 7 ∧ d 18 = -d 8 ∧ d 19 = -d 9 := by
  obtain ⟨K, hK⟩ := exSq_stiffness (Or.inl rfl) pn al fa
  refine ⟨K, hK, fun d hd => ?_⟩
  have hr := exMesh_reachable exIso exIso exIso exIso exIso exIso
  have h := C93_symmetric hr (exMesh_proper ..) (exMesh_planar ..) (exHalf_model exIso exIso exIso) (exSq_thick pn) hK exSq_support2
    (held_stable hr (exSq_good pn) ha hK exSq_held2) (by
      constructor <;> intro i hi <;> rw [exMesh_nids] at hi <;> simp only [List.mem_cons, List.not_mem_nil, or_false] at hi <;>
        rcases hi with rfl | rfl | rfl | rfl <;> simp [disp, exMesh_nids, exHalf, rotation]) hd
  have h2 : 2 ∈ exSq.nids := by rw [exMesh_nids]; simp
  have e1 := h.w 2 h2
  have e2 := h.phix 2 h2
  have e3 := h.phiy 2 h2
  simp [disp, exMesh_nids, exHalf, rotation] at e1 e2 e3
  exact ⟨e1, e2, e3⟩

/-- the square with its nodes and triangles renumbered: the static problems correspond, for every support and load -/
example (pn : Bool) (al : ℝ) (fa : Bool) : ∃ K K', Stiffness exSq pn "cell-based" al fa K ∧ Stiffness (exMesh' exIso exIso exIso exIso exIso exIso) pn "cell-based" al fa K' ∧
    ∀ (S S' : Set ℕ) (f f' d d' : ℕ → ℝ), (∀ i ∈ exSq.nids, ∀ r < 5, dofNo (exMesh' exIso exIso exIso exIso exIso exIso) (5 - i) r ∈ S' ↔ dofNo exSq i r ∈ S) →
      TurnedDisp ![![1, 0], ![0, 1]] (fun i => 5 - i) exSq (exMesh' exIso exIso exIso exIso exIso exIso) f f' →
      TurnedDisp ![![1, 0], ![0, 1]] (fun i => 5 - i) exSq (exMesh' exIso exIso exIso exIso exIso exIso) d d' → (StaticSol K S f d ↔ StaticSol K' S' f' d') := by
  obtain ⟨K, hK⟩ := exSq_stiffness (Or.inl rfl) pn al fa
  have hr := exMesh_reachable exIso exIso exIso exIso exIso exIso
  have hr' : Reachable (exMesh' exIso exIso exIso exIso exIso exIso) := exMesh'_reachable ..
  have hm := samePlate_model (exSame exIso exIso exIso exIso exIso exIso) (fun i hi => by
      rw [exMesh'_nids] at hi
      simp only [List.mem_cons, List.not_mem_nil, or_false] at hi
      rcases hi with rfl | rfl | rfl | rfl <;> rfl) (fun i hi j hj => by
      have hz : ∀ i ∈ (exMesh' exIso exIso exIso exIso exIso exIso).nids, ((exMesh' exIso exIso exIso exIso exIso exIso).node i).xyz.z = 0 := by
        intro i hi
        rw [exMesh'_nids] at hi
        simp only [List.mem_cons, List.not_mem_nil, or_false] at hi
        rcases hi with rfl | rfl | rfl | rfl
        · rw [(exMesh'_node1 ..).1]
        · rw [(exMesh'_node2 ..).1]
        · rw [(exMesh'_node3 ..).1]
        · rw [(exMesh'_node4 ..).1]
      rw [hz i hi, hz j hj])
  obtain ⟨_, K', hK', _⟩ := stiffness_turned hr hr' (exMesh_proper ..) (exMesh_planar ..) hm (exSq_thick pn) hK
  refine ⟨K, K', hK, hK', fun S S' f f' d d' hSS hf hd => ?_⟩
  exact C92_turned hr hr' (exMesh_proper ..) (exMesh_planar ..) hm (exSq_thick pn) hK hK'
    (support_signs hm.toTurnedGeom hm.orth (by simp) (by simp) hr.wf hr'.wf hSS) hf hd

/-- compression of the square by `u = -x` and, half a turn later, by `u = 1 - x`: the same modes up to half a turn -/
example (pn : Bool) (al : ℝ) (fa : Bool) : ∃ K G G', Stiffness exSq pn "cell-based" al fa K ∧ calcKG (calcK0 exSq pn).1 exPress pn = .ok G ∧
    calcKG (calcK0 exSq pn).1 [1, 0, 0, 0, 0, 0, 0, 0, 0, 0, 0, 0, 0, 0, 0, 1, 0, 0, 0, 0] pn = .ok G' ∧
    ∀ c x x', TurnedDisp (rotation (-1) 0) exHalf exSq exSq x x' →
      (BucklingMode K G {x | x < 5 ∨ (10 ≤ x ∧ x < 15)} c x ↔ BucklingMode K G' {x | x < 5 ∨ (10 ≤ x ∧ x < 15)} c x') := by
  obtain ⟨K, hK⟩ := exSq_stiffness (Or.inl rfl) pn al fa
  have hr := exMesh_reachable exIso exIso exIso exIso exIso exIso
  obtain ⟨K0, hK0, _⟩ := exMesh_k0 exIso exIso exIso exIso exIso exIso pn
  obtain ⟨hs, _, hh, _⟩ := calcK0_ok hr.wf hK0
  have haf : AfterK0 (calcK0 exSq pn).1 := .intro exSq hr pn K0 hK0 [] (by simp)
  obtain ⟨G, hG, _⟩ := C49_kG haf (hs.proper (exMesh_proper ..)) (hs.hasProps hh) (d := exPress) (by rw [hs.nids, exMesh_nids]; rfl)
  obtain ⟨G', hG', _⟩ := C49_kG haf (hs.proper (exMesh_proper ..)) (hs.hasProps hh) (d := [1, 0, 0, 0, 0, 0, 0, 0, 0, 0, 0, 0, 0, 0, 0, 1, 0, 0, 0, 0])
    (by rw [hs.nids, exMesh_nids]; rfl)
  have hsym : SymmetricAB exIso := by constructor <;> intro i j <;> fin_cases i <;> fin_cases j <;> simp [exIso, exLam]
  have hl : AllLams exSq SymmetricAB := exMesh_lams hsym hsym hsym hsym hsym hsym
  refine ⟨K, G, G', hK, hG, hG', fun c x x' hx => ?_⟩
  refine C94_modes hr hr (exMesh_proper ..) (exMesh_planar ..) (exHalf_model exIso exIso exIso) hl hl (exSq_thick pn) hK hK (by rw [exMesh_nids]; rfl) (by rw [exMesh_nids]; rfl)
    ?_ hG hG' exSq_support2 hx
  constructor <;> intro i hi <;> rw [exMesh_nids] at hi <;> simp only [List.mem_cons, List.not_mem_nil, or_false] at hi <;>
    rcases hi with rfl | rfl | rfl | rfl <;> simp [disp, exMesh_nids, exHalf, rotation, vec, exPress]

end Meshless
