import Verif.Lemmas.K0sPos
import Verif.Props.KG

/-! C35–C45 and parts of C49: `add_k0s`. -/

set_option autoImplicit false

namespace Meshless
open Spec Finset

/-- C35: an unknown method raises ValueError and leaves the matrix as it was -/
theorem C35_unknown {method : String} (h : method ∉ ["cell-based", "cell-based-no-smoothing", "edge-based"]) (K : Mat) (m : Mesh) (pn : Bool)
    (al : ℝ) (fa : Bool) : addK0s K m pn method al fa = (K, some .valueError) := by
  simp only [List.mem_cons, List.not_mem_nil, or_false, not_or] at h
  unfold addK0s
  rw [if_neg h.1, if_neg h.2.1, if_neg h.2.2]

example (K : Mat) (m : Mesh) : addK0s K m true "Cell-based" 0.1 true = (K, some .valueError) := C35_unknown (by decide) K m true 0.1 true

/-- C35: a known method name runs its implementation with the caller's arguments -/
theorem C35_dispatch (K : Mat) (m : Mesh) (pn : Bool) (al : ℝ) (fa : Bool) :
    addK0s K m pn "cell-based" al fa = addK0sCell K m pn al fa ∧
    addK0s K m pn "cell-based-no-smoothing" al fa = addK0sCellNS K m pn al fa ∧
    addK0s K m pn "edge-based" al fa = addK0sEdge K m pn al fa := by
  refine ⟨?_, ?_, ?_⟩
  · unfold addK0s; rw [if_pos rfl]
  · unfold addK0s; rw [if_neg (by decide), if_pos rfl]
  · unfold addK0s; rw [if_neg (by decide), if_neg (by decide), if_pos rfl]

theorem Mat.ext_get {K K' : Mat} (h : K.dim = K'.dim) (hg : K.get = K'.get) : K = K' := by
  cases K; cases K'; dsimp only at h hg; rw [h, hg]

/-- C36: what a call adds, and the exception it raises, do not depend on the contents of the matrix; the shape is kept. This includes
calls that raise halfway: the same increments have been made in both matrices. -/
theorem C36_additive (m : Mesh) (pn : Bool) (method : String) (al : ℝ) (fa : Bool) {K K' : Mat} (h : K.dim = K'.dim) :
    (addK0s K m pn method al fa).1.dim = K.dim ∧ (addK0s K m pn method al fa).2 = (addK0s K' m pn method al fa).2 ∧
    ∀ i j, (addK0s K m pn method al fa).1.get i j - K.get i j = (addK0s K' m pn method al fa).1.get i j - K'.get i j := by
  rw [addK0s_eq, addK0s_eq]
  exact ⟨applyAll_dim _ _, applyAll_incr _ h⟩

/-- C36: calling twice adds twice -/
theorem C36_twice (K : Mat) (m : Mesh) (pn : Bool) (method : String) (al : ℝ) (fa : Bool) (i j : ℕ) :
    (addK0s (addK0s K m pn method al fa).1 m pn method al fa).1.get i j - K.get i j =
      2 * ((addK0s K m pn method al fa).1.get i j - K.get i j) := by
  have := (C36_additive m pn method al fa (C36_additive m pn method al fa (rfl : K.dim = K.dim)).1).2.2 i j
  linarith

/-- C36: two calls commute, whatever their meshes and parameters -/
theorem C36_comm (K : Mat) (m m' : Mesh) (pn pn' : Bool) (method method' : String) (al al' : ℝ) (fa fa' : Bool) :
    (addK0s (addK0s K m pn method al fa).1 m' pn' method' al' fa').1 = (addK0s (addK0s K m' pn' method' al' fa').1 m pn method al fa).1 := by
  have d1 := (C36_additive m pn method al fa (rfl : K.dim = K.dim)).1
  have d2 := (C36_additive m' pn' method' al' fa' (rfl : K.dim = K.dim)).1
  have h1 := C36_additive m' pn' method' al' fa' d1
  have h2 := C36_additive m pn method al fa d2
  apply Mat.ext_get
  · rw [h1.1, h2.1, d1, d2]
  · funext i j
    have := h1.2.2 i j
    have := h2.2.2 i j
    linarith

/-- two nodes are corners of a common triangle (cell methods), or of triangles at a common edge (edge-based method) -/
def Spec.Near (m : Mesh) (method : String) (p q : ℕ) : Prop :=
  if method = "edge-based" then ∃ k ∈ m.ekeys, (∃ t ∈ (m.edge k).trias, IsCorner m t p) ∧ ∃ t ∈ (m.edge k).trias, IsCorner m t q
  else ∃ e ∈ m.eids, IsCorner m e p ∧ IsCorner m e q

theorem pyIdx_eq {n a i : ℕ} (h : pyIdx n (a : ℤ) = some i) : a = i := by
  by_cases hl : a < n
  · rw [pyIdx_nonneg hl] at h; exact Option.some.inj h
  · unfold pyIdx at h
    rw [if_pos (by positivity), if_neg (by exact_mod_cast hl)] at h
    cases h

/-- C37: on any mesh in any state, with any arguments, only rows and columns of `w`, `phix`, `phiy` change, also when the call raises -/
theorem C37_dofs {m : Mesh} {pn : Bool} {method : String} {al : ℝ} {fa : Bool} {K : Mat} {i j : ℕ}
    (h : (addK0s K m pn method al fa).1.get i j ≠ K.get i j) : (i % 5 = 2 ∨ i % 5 = 3 ∨ i % 5 = 4) ∧ (j % 5 = 2 ∨ j % 5 = 3 ∨ j % 5 = 4) := by
  rw [addK0s_eq] at h
  obtain ⟨es, he, x, hx, h1, h2⟩ := applyAll_changed _ h
  obtain ⟨p, q, a, b, r, s, -, -, -, hr, hs, e1, e2⟩ := k0sIncr_pos he hx
  rw [e1] at h1
  rw [e2] at h2
  have l1 := pyIdx_eq h1
  have l2 := pyIdx_eq h2
  omega

theorem EdgeKnows.near {m : Mesh} (w : WF m) (hp : Proper m) (hq : Prepared m) {k : Key} (hk : k ∈ m.ekeys) {p : ℕ} (h : EdgeKnows m k p) :
    ∃ t ∈ (m.edge k).trias, IsCorner m t p := by
  rcases prepared_shape w hp hq hk with ⟨t, o, he, hs⟩ | ⟨t1, t2, o1, o2, he, hs1, hs2, ho, _⟩
  · unfold EdgeKnows at h
    rw [he] at h ⊢
    refine ⟨t, by simp [bEdge], (hs.corner_iff _).2 ?_⟩
    simp only [bEdge, Option.some.injEq, reduceCtorEq, or_false] at h
    tauto
  · unfold EdgeKnows at h
    rw [he] at h ⊢
    simp only [iEdge, Option.some.injEq] at h
    rcases h with h | h | h | h
    · exact ⟨t1, by simp [iEdge], (hs1.corner_iff _).2 (by tauto)⟩
    · exact ⟨t1, by simp [iEdge], (hs1.corner_iff _).2 (by tauto)⟩
    · exact ⟨t1, by simp [iEdge], (hs1.corner_iff _).2 (by tauto)⟩
    · exact ⟨t2, by simp [iEdge], (hs2.corner_iff _).2 (by tauto)⟩

theorem near_aux {m : Mesh} (hcorner : ∀ p a, (m.node p).index = some a → p ∈ m.nids → a = m.nids.idxOf p)
    {pn : Bool} {method : String} {al : ℝ} {fa : Bool} {K : Mat} {i j : ℕ} (hn : ∀ p q, Coupled m method p q → p ∈ m.nids ∧ q ∈ m.nids)
    (h : (addK0s K m pn method al fa).1.get i j ≠ K.get i j) :
    ∃ p q, Coupled m method p q ∧ m.nids[i / 5]? = some p ∧ m.nids[j / 5]? = some q := by
  rw [addK0s_eq] at h
  obtain ⟨es, he, x, hx, h1, h2⟩ := applyAll_changed _ h
  obtain ⟨p, q, a, b, r, s, ia, ib, hc, hr, hs, e1, e2⟩ := k0sIncr_pos he hx
  rw [e1] at h1
  rw [e2] at h2
  have l1 := pyIdx_eq h1
  have l2 := pyIdx_eq h2
  obtain ⟨hp, hq⟩ := hn p q hc
  refine ⟨p, q, hc, ?_, ?_⟩
  · rw [show i / 5 = m.nids.idxOf p by rw [← hcorner p a ia hp]; omega]
    exact List.getElem?_idxOf hp
  · rw [show j / 5 = m.nids.idxOf q by rw [← hcorner q b ib hq]; omega]
    exact List.getElem?_idxOf hq

/-- C37: a changed entry couples two corners of a common triangle (cell methods, on every mesh numbered by `calc_k0`, moved or not) -/
theorem C37_local_cell {m : Mesh} (hm : Numbered m) {pn : Bool} {method : String} (hme : method ≠ "edge-based") {al : ℝ} {fa : Bool} {K : Mat} {i j : ℕ}
    (h : (addK0s K m pn method al fa).1.get i j ≠ K.get i j) :
    ∃ p q, Near m method p q ∧ m.nids[i / 5]? = some p ∧ m.nids[j / 5]? = some q := by
  have hc : ∀ p q, Coupled m method p q → Near m method p q := by
    intro p q hc
    unfold Coupled at hc
    unfold Near
    rw [if_neg hme] at hc ⊢
    exact hc
  have mem : ∀ e ∈ m.eids, ∀ p, IsCorner m e p → p ∈ m.nids := fun e he p hp => hm.wf.corner_mem he (by unfold corners IsCorner at *; simpa using hp)
  obtain ⟨p, q, h1, h2⟩ := near_aux (fun p a ha hp => by
    have := hm.indexed.index hp; rw [ha] at this; exact Option.some.inj this) (fun p q hc' => by
    have := hc p q hc'
    unfold Near at this
    rw [if_neg hme] at this
    obtain ⟨e, he, hp, hq⟩ := this
    exact ⟨mem e he p hp, mem e he q hq⟩) h
  exact ⟨p, q, hc p q h1, h2⟩

/-- C37: a changed entry couples two corners of triangles at a common edge (edge-based method, on a proper mesh after `calc_k0`) -/
theorem C37_local {m : Mesh} (ha : AfterK0 m) (hp : Proper m) {pn : Bool} {method : String} {al : ℝ} {fa : Bool} {K : Mat} {i j : ℕ}
    (h : (addK0s K m pn method al fa).1.get i j ≠ K.get i j) :
    ∃ p q, Near m method p q ∧ m.nids[i / 5]? = some p ∧ m.nids[j / 5]? = some q := by
  by_cases hme : method = "edge-based"
  · have hc : ∀ p q, Coupled m method p q → Near m method p q := by
      intro p q hc
      unfold Coupled at hc
      unfold Near
      rw [if_pos hme] at hc ⊢
      obtain ⟨k, hk, h1, h2⟩ := hc
      exact ⟨k, hk, h1.near ha.wf hp ha.prepared hk, h2.near ha.wf hp ha.prepared hk⟩
    have mem : ∀ k ∈ m.ekeys, ∀ p, EdgeKnows m k p → p ∈ m.nids := by
      intro k hk p hpk
      obtain ⟨t, ht, hpt⟩ := hpk.near ha.wf hp ha.prepared hk
      rcases prepared_shape ha.wf hp ha.prepared hk with ⟨t', o, he, hs⟩ | ⟨t1, t2, o1, o2, he, hs1, hs2, ho, _⟩
      · rw [he] at ht
        simp only [bEdge, List.mem_singleton] at ht
        subst ht
        rcases (hs.corner_iff _).1 hpt with h | h | h
        · rw [h]; exact hs.ina
        · rw [h]; exact hs.inb
        · rw [h]; exact hs.ino
      · rw [he] at ht
        simp only [iEdge, List.mem_cons, List.not_mem_nil, or_false] at ht
        rcases ht with rfl | rfl
        · rcases (hs1.corner_iff _).1 hpt with h | h | h
          · rw [h]; exact hs1.ina
          · rw [h]; exact hs1.inb
          · rw [h]; exact hs1.ino
        · rcases (hs2.corner_iff _).1 hpt with h | h | h
          · rw [h]; exact hs2.ina
          · rw [h]; exact hs2.inb
          · rw [h]; exact hs2.ino
    obtain ⟨p, q, h1, h2⟩ := near_aux (fun p a ha' hp => by
      have := ha.numbered.indexed.index hp; rw [ha'] at this; exact Option.some.inj this) (fun p q hc' => by
      unfold Coupled at hc'
      rw [if_pos hme] at hc'
      obtain ⟨k, hk, h1, h2⟩ := hc'
      exact ⟨mem k hk p h1, mem k hk q h2⟩) h
    exact ⟨p, q, hc p q h1, h2⟩
  · exact C37_local_cell ha.numbered hme h

/-- the shear strain the cell-based method gives a triangle: the average of the discrete shear gap strains of its three sub-triangles,
plus the effect of the literal `0.166666666666667` standing for `1/6` -/
noncomputable def Spec.cellStrain (m : Mesh) (e : ℕ) (z : ℕ → ℝ) (r : Fin 2) : ℝ := cellGamma m e z r + sixthErr * rotSum m e z r

/-- size of the effect of the literal -/
theorem sixthErr_eq : 0 < sixthErr ∧ sixthErr = 1 / (3 * 10 ^ 15) := by
  unfold sixthErr
  constructor <;> norm_num

/-- C38: the call succeeds and adds the shear energy of the smoothed discrete shear gap strains -/
theorem C38_energy {m : Mesh} (hm : Numbered m) (hf : FlatMesh m) {pn : Bool} (hh : HasProps m pn) (ht : Thick m pn) (al : ℝ) (fa : Bool) {K : Mat}
    (hK : K.dim = 5 * m.nids.length) :
    ∃ K', addK0s K m pn "cell-based" al fa = (K', none) ∧ K'.dim = K.dim ∧
      ∀ v u, form K.dim (fun i j => K'.get i j - K.get i j) v u = shearEnergy m pn al fa (cellStrain m) v u := by
  obtain ⟨K', h1, h2, _, h3⟩ := cell_form hm.wf hm.indexed hf hh ht al fa hK
  exact ⟨K', h1, h2, h3⟩

/-- C39: the call succeeds and adds the shear energy of the discrete shear gap strains of the whole triangles -/
theorem C39_energy {m : Mesh} (hm : Numbered m) (hf : FlatMesh m) {pn : Bool} (hh : HasProps m pn) (ht : Thick m pn) (al : ℝ) (fa : Bool) {K : Mat}
    (hK : K.dim = 5 * m.nids.length) :
    ∃ K', addK0s K m pn "cell-based-no-smoothing" al fa = (K', none) ∧ K'.dim = K.dim ∧
      ∀ v u, form K.dim (fun i j => K'.get i j - K.get i j) v u = shearEnergy m pn al fa (wholeGamma m) v u := by
  obtain ⟨K', h1, h2, _, h3⟩ := cellNS_form hm.wf hm.indexed hf hh ht al fa hK
  exact ⟨K', h1, h2, h3⟩

theorem cellSymm {method : String} (hme : method = "cell-based" ∨ method = "cell-based-no-smoothing") {m : Mesh} {pn : Bool} {al : ℝ} {fa : Bool} {K : Mat}
    (hok : (addK0s K m pn method al fa).2 = none) (hA : method = "cell-based-no-smoothing" → ∀ e ∈ m.eids, m.triaArea e ≠ 0) (i j : ℕ) :
    (addK0s K m pn method al fa).1.get i j - K.get i j = (addK0s K m pn method al fa).1.get j i - K.get j i := by
  rw [addK0s_eq] at hok ⊢
  obtain ⟨_, h⟩ := applyAll_sum hok
  rw [h, h]
  have : ∀ g ∈ k0sIncr m pn method al fa, entrySum K.dim (okEntries g) i j = entrySum K.dim (okEntries g) j i := by
    intro g hg
    rcases hme with rfl | rfl
    · rw [k0sIncr, if_pos rfl] at hg
      obtain ⟨e, _, rfl⟩ := List.mem_map.1 hg
      cases cellSEnv m pn al fa e with
      | error e => simp [Except.map, okEntries, entrySum]
      | ok e =>
        simp only [Except.map, okEntries, cellSEntries_eq]
        exact entrySum_symm_outer (fun p q => by fin_cases p <;> fin_cases q <;> rfl) _ _ _
    · rw [k0sIncr, if_neg (by decide), if_pos rfl] at hg
      obtain ⟨e, he, rfl⟩ := List.mem_map.1 hg
      cases henv : cellNSEnv m pn al fa e with
      | error e => simp [Except.map, okEntries, entrySum]
      | ok env =>
        have hAc : env.Ac ≠ 0 := by
          have : env.Ac = m.triaArea e := by
            unfold cellNSEnv at henv
            revert henv
            rcases cellNSOrient m e with ⟨a, b, c⟩
            intro henv
            dsimp only [bind, Except.bind] at henv
            split at henv
            · cases henv
            split at henv
            · cases henv
            split at henv
            · cases henv; rfl
            · cases henv
          rw [this]; exact hA rfl e he
        simp only [Except.map, okEntries, cellNSEntries_eq _ hAc]
        exact entrySum_symm_outer (fun p q => by fin_cases p <;> fin_cases q <;> rfl) _ _ _
  rw [show ((k0sIncr m pn method al fa).map fun g => entrySum K.dim (okEntries g) i j) = (k0sIncr m pn method al fa).map fun g => entrySum K.dim (okEntries g) j i from
    List.map_congr_left this]
  ring

/-- C38: whenever the call returns, on any mesh, what it added is symmetric -/
theorem C38_symmetric {m : Mesh} {pn : Bool} {al : ℝ} {fa : Bool} {K : Mat} (hok : (addK0s K m pn "cell-based" al fa).2 = none) (i j : ℕ) :
    (addK0s K m pn "cell-based" al fa).1.get i j - K.get i j = (addK0s K m pn "cell-based" al fa).1.get j i - K.get j i :=
  cellSymm (Or.inl rfl) hok (fun h => absurd h (by decide)) i j

/-- C39: on flat meshes without zero-area triangles what the call adds is symmetric -/
theorem C39_symmetric {m : Mesh} (hm : Numbered m) (hf : FlatMesh m) {pn : Bool} {al : ℝ} {fa : Bool} {K : Mat}
    (hok : (addK0s K m pn "cell-based-no-smoothing" al fa).2 = none) (i j : ℕ) :
    (addK0s K m pn "cell-based-no-smoothing" al fa).1.get i j - K.get i j = (addK0s K m pn "cell-based-no-smoothing" al fa).1.get j i - K.get j i :=
  cellSymm (Or.inr rfl) hok (fun _ e he => by
    rw [triaArea_eq hm.wf hf he]
    exact abs_ne_zero.2 (hf.nondeg e he)) i j

/-- all transverse shear data of the laminates in use are non-negative -/
def Spec.ShearNonneg (m : Mesh) (pn : Bool) : Prop :=
  let ok := fun p : Lam => 0 ≤ p.k13 ∧ 0 ≤ p.k23 ∧ 0 ≤ p.E 0 0 ∧ 0 ≤ p.E 1 1
  if pn then ∀ e ∈ m.eids, ∀ i, IsCorner m e i → ∀ p, (m.node i).prop = some p → ok p
  else ∀ e ∈ m.eids, ∀ p, (m.tria e).prop = some p → ok p

theorem cavg_nonneg {m : Mesh} {pn : Bool} (hn : ShearNonneg m pn) {e : ℕ} (he : e ∈ m.eids) {sel : Lam → ℝ}
    (hs : ∀ p : Lam, 0 ≤ p.k13 ∧ 0 ≤ p.k23 ∧ 0 ≤ p.E 0 0 ∧ 0 ≤ p.E 1 1 → 0 ≤ sel p) : 0 ≤ cavg m pn e sel := by
  have op : ∀ o : Option Lam, (∀ p, o = some p → 0 ≤ sel p) → 0 ≤ ofProp sel o := by
    intro o ho
    cases o with
    | none => exact le_refl _
    | some p => exact ho p rfl
  unfold cavg
  unfold ShearNonneg at hn
  cases pn with
  | false => exact op _ fun p hp => hs p (hn e he p hp)
  | true =>
    simp only [if_true] at hn ⊢
    have h1 := op (m.node (m.tria e).n1).prop fun p hp => hs p (hn e he _ (Or.inl rfl) p hp)
    have h2 := op (m.node (m.tria e).n2).prop fun p hp => hs p (hn e he _ (Or.inr (Or.inl rfl)) p hp)
    have h3 := op (m.node (m.tria e).n3).prop fun p hp => hs p (hn e he _ (Or.inr (Or.inr rfl)) p hp)
    rw [mean_corners']
    linarith

theorem shearMod_nonneg {m : Mesh} {pn : Bool} (hn : ShearNonneg m pn) {al : ℝ} (ha : 0 ≤ al) (fa : Bool) {e : ℕ} (he : e ∈ m.eids) (r : Fin 2) :
    0 ≤ shearMod m pn al fa e r := by
  unfold shearMod
  dsimp only
  apply mul_nonneg (div_nonneg (sq_nonneg _) (by positivity))
  split
  · exact mul_nonneg (cavg_nonneg hn he fun p h => h.2.1) (cavg_nonneg hn he fun p h => h.2.2.1)
  · exact mul_nonneg (cavg_nonneg hn he fun p h => h.1) (cavg_nonneg hn he fun p h => h.2.2.2)

theorem shearEnergy_nonneg {m : Mesh} {pn : Bool} (hn : ShearNonneg m pn) {al : ℝ} (ha : 0 ≤ al) (fa : Bool) (g : ℕ → (ℕ → ℝ) → Fin 2 → ℝ) (v : ℕ → ℝ) :
    0 ≤ shearEnergy m pn al fa g v v := by
  unfold shearEnergy
  apply List.sum_nonneg
  intro x hx
  obtain ⟨e, he, rfl⟩ := List.mem_map.1 hx
  have h0 := shearMod_nonneg hn ha fa he 0
  have h1 := shearMod_nonneg hn ha fa he 1
  have hA : 0 ≤ triArea m e := abs_nonneg _
  apply mul_nonneg hA
  have := mul_nonneg h0 (mul_self_nonneg (g e v 0))
  have := mul_nonneg h1 (mul_self_nonneg (g e v 1))
  nlinarith

/-- C38: positive semidefinite for non-negative moduli, correction factors and `alpha` -/
theorem C38_psd {m : Mesh} (hm : Numbered m) (hf : FlatMesh m) {pn : Bool} (hh : HasProps m pn) (ht : Thick m pn) (hn : ShearNonneg m pn) {al : ℝ} (ha : 0 ≤ al)
    (fa : Bool) {K : Mat} (hK : K.dim = 5 * m.nids.length) (v : ℕ → ℝ) :
    0 ≤ form K.dim (fun i j => (addK0s K m pn "cell-based" al fa).1.get i j - K.get i j) v v := by
  obtain ⟨K', h1, _, h3⟩ := C38_energy hm hf hh ht al fa hK
  rw [h1, h3]
  exact shearEnergy_nonneg hn ha fa _ v

/-- C39: the same without smoothing -/
theorem C39_psd {m : Mesh} (hm : Numbered m) (hf : FlatMesh m) {pn : Bool} (hh : HasProps m pn) (ht : Thick m pn) (hn : ShearNonneg m pn) {al : ℝ} (ha : 0 ≤ al)
    (fa : Bool) {K : Mat} (hK : K.dim = 5 * m.nids.length) (v : ℕ → ℝ) :
    0 ≤ form K.dim (fun i j => (addK0s K m pn "cell-based-no-smoothing" al fa).1.get i j - K.get i j) v v := by
  obtain ⟨K', h1, _, h3⟩ := C39_energy hm hf hh ht al fa hK
  rw [h1, h3]
  exact shearEnergy_nonneg hn ha fa _ v

/-- shear strains of `w = c + p x + q y` with uniform rotations `(r, s)`: without smoothing exactly `(p + r, q + s)` -/
theorem patch_whole {m : Mesh} (hm : Numbered m) (hf : FlatMesh m) {z : ℕ → ℝ} {c p q r s : ℝ}
    (hw : ∀ i ∈ m.nids, disp m z 2 i = c + p * nx m i + q * ny m i) (hx : ∀ i ∈ m.nids, disp m z 3 i = r) (hy : ∀ i ∈ m.nids, disp m z 4 i = s)
    {e : ℕ} (he : e ∈ m.eids) : wholeGamma m e z 0 = p + r ∧ wholeGamma m e z 1 = q + s :=
  wholeGamma_linear hf he (fun i hi => hw i (hm.wf.corner_mem he hi)) (fun i hi => hx i (hm.wf.corner_mem he hi)) (fun i hi => hy i (hm.wf.corner_mem he hi))

/-- with smoothing `(p + r, q + s)`, plus the effect `10^-15 * (r, s)` of the literal -/
theorem patch_cell {m : Mesh} (hm : Numbered m) (hf : FlatMesh m) {z : ℕ → ℝ} {c p q r s : ℝ}
    (hw : ∀ i ∈ m.nids, disp m z 2 i = c + p * nx m i + q * ny m i) (hx : ∀ i ∈ m.nids, disp m z 3 i = r) (hy : ∀ i ∈ m.nids, disp m z 4 i = s)
    {e : ℕ} (he : e ∈ m.eids) : cellStrain m e z 0 = p + r + r / 10 ^ 15 ∧ cellStrain m e z 1 = q + s + s / 10 ^ 15 := by
  have hc : ∀ i ∈ corners m e, i ∈ m.nids := fun i hi => hm.wf.corner_mem he hi
  obtain ⟨h1, h2⟩ := cellGamma_linear hm.wf hf he (fun i hi => hw i (hc i hi)) (fun i hi => hx i (hc i hi)) (fun i hi => hy i (hc i hi))
  unfold cellStrain
  rw [h1, h2, rotSum_const (k := 0) (r := r) (fun i hi => hx i (hc i hi)), rotSum_const (k := 1) (r := s) (fun i hi => hy i (hc i hi)), sixthErr_eq.2]
  constructor <;> ring

theorem shearEnergy_null {m : Mesh} {pn : Bool} {al : ℝ} {fa : Bool} {g : ℕ → (ℕ → ℝ) → Fin 2 → ℝ} {v u : ℕ → ℝ}
    (h : ∀ e ∈ m.eids, g e u 0 = 0 ∧ g e u 1 = 0) : shearEnergy m pn al fa g v u = 0 := by
  unfold shearEnergy
  apply List.sum_eq_zero
  intro x hx
  obtain ⟨e, he, rfl⟩ := List.mem_map.1 hx
  rw [(h e he).1, (h e he).2]
  ring

/-- C40: a uniform transverse translation is shear free, for both cell methods -/
theorem C40_translation {m : Mesh} (hm : Numbered m) (hf : FlatMesh m) {pn : Bool} (hh : HasProps m pn) (ht : Thick m pn) (al : ℝ) (fa : Bool) {K : Mat}
    (hK : K.dim = 5 * m.nids.length) {method : String} (hme : method = "cell-based" ∨ method = "cell-based-no-smoothing") {z : ℕ → ℝ} {c : ℝ}
    (hw : ∀ i ∈ m.nids, disp m z 2 i = c) (hx : ∀ i ∈ m.nids, disp m z 3 i = 0) (hy : ∀ i ∈ m.nids, disp m z 4 i = 0) :
    ∀ i < K.dim, ∑ j ∈ range K.dim, ((addK0s K m pn method al fa).1.get i j - K.get i j) * z j = 0 := by
  intro i hi
  have hw' : ∀ i ∈ m.nids, disp m z 2 i = c + 0 * nx m i + 0 * ny m i := fun i hi => by rw [hw i hi]; ring
  rw [← form_row (fun i j => (addK0s K m pn method al fa).1.get i j - K.get i j) hi]
  rcases hme with rfl | rfl
  · obtain ⟨K', h1, _, h3⟩ := C38_energy hm hf hh ht al fa hK
    rw [h1, h3]
    refine shearEnergy_null fun e he => ?_
    obtain ⟨g0, g1⟩ := patch_cell hm hf hw' hx hy he
    rw [g0, g1]; norm_num
  · obtain ⟨K', h1, _, h3⟩ := C39_energy hm hf hh ht al fa hK
    rw [h1, h3]
    refine shearEnergy_null fun e he => ?_
    obtain ⟨g0, g1⟩ := patch_whole hm hf hw' hx hy he
    rw [g0, g1]; norm_num

/-- C41: a rigid rotation `w = c + p x + q y`, `phix = -p`, `phiy = -q` is shear free without smoothing -/
theorem C41_whole {m : Mesh} (hm : Numbered m) (hf : FlatMesh m) {pn : Bool} (hh : HasProps m pn) (ht : Thick m pn) (al : ℝ) (fa : Bool) {K : Mat}
    (hK : K.dim = 5 * m.nids.length) {z : ℕ → ℝ} {c p q : ℝ}
    (hw : ∀ i ∈ m.nids, disp m z 2 i = c + p * nx m i + q * ny m i) (hx : ∀ i ∈ m.nids, disp m z 3 i = -p) (hy : ∀ i ∈ m.nids, disp m z 4 i = -q) :
    ∀ i < K.dim, ∑ j ∈ range K.dim, ((addK0s K m pn "cell-based-no-smoothing" al fa).1.get i j - K.get i j) * z j = 0 := by
  intro i hi
  rw [← form_row (fun i j => (addK0s K m pn "cell-based-no-smoothing" al fa).1.get i j - K.get i j) hi]
  obtain ⟨K', h1, _, h3⟩ := C39_energy hm hf hh ht al fa hK
  rw [h1, h3]
  refine shearEnergy_null fun e he => ?_
  obtain ⟨g0, g1⟩ := patch_whole hm hf hw hx hy he
  rw [g0, g1]; constructor <;> ring

/-- C41: with smoothing a rigid rotation has the shear strain `-10^-15 * (p, q)` in every triangle, so its work on any `v` is
`-10^-15` times the work of the constant strain `(p, q)` -/
theorem C41_cell {m : Mesh} (hm : Numbered m) (hf : FlatMesh m) {pn : Bool} (hh : HasProps m pn) (ht : Thick m pn) (al : ℝ) (fa : Bool) {K : Mat}
    (hK : K.dim = 5 * m.nids.length) {z : ℕ → ℝ} {c p q : ℝ}
    (hw : ∀ i ∈ m.nids, disp m z 2 i = c + p * nx m i + q * ny m i) (hx : ∀ i ∈ m.nids, disp m z 3 i = -p) (hy : ∀ i ∈ m.nids, disp m z 4 i = -q)
    (v : ℕ → ℝ) : form K.dim (fun i j => (addK0s K m pn "cell-based" al fa).1.get i j - K.get i j) v z =
      -(1 / 10 ^ 15) * (m.eids.map fun e => triArea m e * (cellStrain m e v 0 * shearMod m pn al fa e 0 * p + cellStrain m e v 1 * shearMod m pn al fa e 1 * q)).sum := by
  obtain ⟨K', h1, _, h3⟩ := C38_energy hm hf hh ht al fa hK
  rw [h1, h3]
  unfold shearEnergy
  rw [← List.sum_map_mul_left]
  congr 1
  refine List.map_congr_left fun e he => ?_
  obtain ⟨g0, g1⟩ := patch_cell hm hf hw hx hy he
  rw [g0, g1]
  ring

/-- the same mesh with the corners of each triangle possibly listed in another order -/
structure Spec.Reordered (m m' : Mesh) : Prop where
  nids : m'.nids = m.nids
  eids : m'.eids = m.eids
  node : ∀ i ∈ m.nids, (m'.node i).xyz = (m.node i).xyz ∧ (m'.node i).cp = (m.node i).cp ∧ (m'.node i).prop = (m.node i).prop
  corners : ∀ e ∈ m.eids, (corners m' e).Perm (corners m e)
  prop : ∀ e ∈ m.eids, (m'.tria e).prop = (m.tria e).prop

section
variable {m m' : Mesh}

theorem Reordered_mean (h : Reordered m m') {P : List ℕ} (hP : ∀ i ∈ P, i ∈ m.nids) : mean (nx m') P = mean (nx m) P ∧ mean (ny m') P = mean (ny m) P :=
  ⟨mean_congr fun i hi => by unfold nx; rw [(h.node i (hP i hi)).1], mean_congr fun i hi => by unfold ny; rw [(h.node i (hP i hi)).1]⟩

theorem Reordered_sarea (h : Reordered m m') {P Q R : List ℕ} (hP : ∀ i ∈ P, i ∈ m.nids) (hQ : ∀ i ∈ Q, i ∈ m.nids) (hR : ∀ i ∈ R, i ∈ m.nids) :
    sarea m' [P, Q, R] = sarea m [P, Q, R] := by
  obtain ⟨a1, a2⟩ := Reordered_mean h hP
  obtain ⟨b1, b2⟩ := Reordered_mean h hQ
  obtain ⟨c1, c2⟩ := Reordered_mean h hR
  rw [sarea3, sarea3, a1, a2, b1, b2, c1, c2]

theorem Reordered_disp (h : Reordered m m') (z : ℕ → ℝ) (r : ℕ) : disp m' z r = disp m z r := by funext i; unfold disp; rw [h.nids]

theorem Reordered_dsg (h : Reordered m m') (z : ℕ → ℝ) {P Q R : List ℕ} (hP : ∀ i ∈ P, i ∈ m.nids) (hQ : ∀ i ∈ Q, i ∈ m.nids) (hR : ∀ i ∈ R, i ∈ m.nids) :
    dsg m' z P Q R = dsg m z P Q R := by
  obtain ⟨a1, a2⟩ := Reordered_mean h hP
  obtain ⟨b1, b2⟩ := Reordered_mean h hQ
  obtain ⟨c1, c2⟩ := Reordered_mean h hR
  unfold dsg gap
  simp only [Reordered_sarea h hP hQ hR, a1, a2, b1, b2, c1, c2, Reordered_disp h]

theorem Reordered_mem (w : WF m) (h : Reordered m m') {e : ℕ} (he : e ∈ m.eids) : (m'.tria e).n1 ∈ m.nids ∧ (m'.tria e).n2 ∈ m.nids ∧ (m'.tria e).n3 ∈ m.nids := by
  have : ∀ i ∈ corners m' e, i ∈ m.nids := fun i hi => w.corner_mem he ((h.corners e he).mem_iff.1 hi)
  unfold Spec.corners at this
  simpa using this

theorem mem1 {l : List ℕ} {i : ℕ} (hi : i ∈ l) : ∀ j ∈ [i], j ∈ l := by simpa using hi

theorem Reordered_triArea (w : WF m) (h : Reordered m m') {e : ℕ} (he : e ∈ m.eids) : triArea m' e = triArea m e := by
  obtain ⟨k1, k2, k3⟩ := Reordered_mem w h he
  unfold triArea
  rw [Reordered_sarea h (mem1 k1) (mem1 k2) (mem1 k3)]
  have hp := h.corners e he
  unfold Spec.corners at hp
  rcases perm3_cases hp.symm with ⟨h1, h2, h3⟩ | ⟨h1, h2, h3⟩ | ⟨h1, h2, h3⟩ | ⟨h1, h2, h3⟩ | ⟨h1, h2, h3⟩ | ⟨h1, h2, h3⟩ <;>
    rw [h1, h2, h3]
  all_goals first
    | rfl
    | (rw [sarea3, sarea3]; congr 1; ring1)
    | (rw [← abs_neg, sarea3, sarea3]; congr 1; ring1)

theorem mean_perm {f : ℕ → ℝ} {l l' : List ℕ} (h : l.Perm l') : mean f l = mean f l' := by
  unfold mean; rw [(h.map f).sum_eq, h.length_eq]

theorem Reordered_cavg (w : WF m) (h : Reordered m m') (pn : Bool) {e : ℕ} (he : e ∈ m.eids) (sel : Lam → ℝ) : cavg m' pn e sel = cavg m pn e sel := by
  unfold cavg
  rw [h.prop e he, mean_perm (h.corners e he), mean_congr (l := corners m e) fun i hi => by rw [(h.node i (w.corner_mem he hi)).2.2]]

theorem Reordered_shearMod (w : WF m) (h : Reordered m m') (pn : Bool) (al : ℝ) (fa : Bool) {e : ℕ} (he : e ∈ m.eids) (r : Fin 2) :
    shearMod m' pn al fa e r = shearMod m pn al fa e r := by
  have hl : charLen m' fa e = charLen m fa e := by
    obtain ⟨k1, k2, k3⟩ := Reordered_mem w h he
    have hd : ∀ i ∈ m.nids, ∀ j ∈ m.nids, dist2 m' i j = dist2 m i j := by
      intro i hi j hj; unfold dist2 nx ny; rw [(h.node i hi).1, (h.node j hj).1]
    unfold charLen
    simp only [Reordered_triArea w h he, hd _ k1 _ k2, hd _ k2 _ k3, hd _ k3 _ k1]
    have hp := h.corners e he
    unfold Spec.corners at hp
    congr 1
    rcases perm3_cases hp.symm with ⟨h1, h2, h3⟩ | ⟨h1, h2, h3⟩ | ⟨h1, h2, h3⟩ | ⟨h1, h2, h3⟩ | ⟨h1, h2, h3⟩ | ⟨h1, h2, h3⟩ <;>
      rw [h1, h2, h3]
    all_goals
      try simp only [dist2_comm m (m.tria e).n2 (m.tria e).n1, dist2_comm m (m.tria e).n3 (m.tria e).n2,
        dist2_comm m (m.tria e).n1 (m.tria e).n3]
      try simp only [max_comm, max_left_comm, max_assoc]
  unfold shearMod
  simp only [Reordered_cavg w h pn he, hl]

theorem Reordered_cellStrain (w : WF m) (h : Reordered m m') {e : ℕ} (he : e ∈ m.eids) (z : ℕ → ℝ) (r : Fin 2) : cellStrain m' e z r = cellStrain m e z r := by
  have hp := h.corners e he
  have hcm : ∀ f, mean f (corners m' e) = mean f (corners m e) := fun f => mean_perm hp
  have hcn : ∀ i ∈ corners m' e, i ∈ m.nids := fun i hi => w.corner_mem he (hp.mem_iff.1 hi)
  obtain ⟨k1, k2, k3⟩ := Reordered_mem w h he
  have hdsg : ∀ i ∈ m.nids, ∀ j ∈ m.nids, dsg m' z (corners m' e) [i] [j] r = dsg m z (corners m e) [i] [j] r := by
    intro i hi j hj
    rw [Reordered_dsg h z hcn (mem1 hi) (mem1 hj)]
    unfold dsg gap
    rw [sarea3, sarea3]
    simp only [hcm]
  have hsa : ∀ i ∈ m.nids, ∀ j ∈ m.nids, sarea m' [corners m' e, [i], [j]] = sarea m [corners m e, [i], [j]] := by
    intro i hi j hj
    rw [Reordered_sarea h hcn (mem1 hi) (mem1 hj), sarea3, sarea3]; simp only [hcm]
  have hrot : rotSum m' e z r = rotSum m e z r := by
    unfold rotSum
    rw [Reordered_disp h, (hp.map _).sum_eq]
  unfold cellStrain
  rw [hrot]
  congr 1
  have hsum : ∀ m'' : Mesh, cellGamma m'' e z r = (|sarea m'' [corners m'' e, [(m''.tria e).n1], [(m''.tria e).n2]]| * dsg m'' z (corners m'' e) [(m''.tria e).n1] [(m''.tria e).n2] r +
      |sarea m'' [corners m'' e, [(m''.tria e).n2], [(m''.tria e).n3]]| * dsg m'' z (corners m'' e) [(m''.tria e).n2] [(m''.tria e).n3] r +
      |sarea m'' [corners m'' e, [(m''.tria e).n3], [(m''.tria e).n1]]| * dsg m'' z (corners m'' e) [(m''.tria e).n3] [(m''.tria e).n1] r) / triArea m'' e := by
    intro m''
    unfold cellGamma tpoly
    simp only [show sides [[(m''.tria e).n1], [(m''.tria e).n2], [(m''.tria e).n3]] = [([(m''.tria e).n1], [(m''.tria e).n2]), ([(m''.tria e).n2], [(m''.tria e).n3]),
      ([(m''.tria e).n3], [(m''.tria e).n1])] from rfl, List.map_cons, List.map_nil, List.sum_cons, List.sum_nil]
    congr 1
    ring
  rw [hsum, hsum, Reordered_triArea w h he, hdsg _ k1 _ k2, hdsg _ k2 _ k3, hdsg _ k3 _ k1, hsa _ k1 _ k2, hsa _ k2 _ k3, hsa _ k3 _ k1]
  congr 1
  set T : ℕ → ℕ → ℝ := fun i j => |sarea m [corners m e, [i], [j]]| * dsg m z (corners m e) [i] [j] r with hT
  have Tsymm : ∀ i j, T i j = T j i := by
    intro i j
    simp only [hT]
    rw [dsg_swap]
    congr 1
    rw [show sarea m [corners m e, [i], [j]] = - sarea m [corners m e, [j], [i]] by rw [sarea3, sarea3]; ring, abs_neg]
  change T _ _ + T _ _ + T _ _ = T _ _ + T _ _ + T _ _
  unfold Spec.corners at hp
  rcases perm3_cases hp.symm with ⟨h1, h2, h3⟩ | ⟨h1, h2, h3⟩ | ⟨h1, h2, h3⟩ | ⟨h1, h2, h3⟩ | ⟨h1, h2, h3⟩ | ⟨h1, h2, h3⟩ <;>
    rw [h1, h2, h3] <;> linarith [Tsymm (m.tria e).n1 (m.tria e).n2, Tsymm (m.tria e).n2 (m.tria e).n3, Tsymm (m.tria e).n3 (m.tria e).n1]

theorem Reordered_hyps (w : WF m) (h : Reordered m m') {pn : Bool} (hf : FlatMesh m) (hh : HasProps m pn) (ht : Thick m pn) :
    FlatMesh m' ∧ HasProps m' pn ∧ Thick m' pn := by
  refine ⟨⟨?_, ?_, ?_⟩, ?_, ?_⟩
  · intro i hi; rw [h.nids] at hi; rw [(h.node i hi).1, (h.node i hi).2.1]; exact hf.basic i hi
  · intro i hi j hj; rw [h.nids] at hi hj; rw [(h.node i hi).1, (h.node j hj).1]; exact hf.flat i hi j hj
  · intro e he
    rw [h.eids] at he
    have : triArea m' e ≠ 0 := by rw [Reordered_triArea w h he]; exact abs_ne_zero.2 (hf.nondeg e he)
    exact abs_ne_zero.1 this
  · have hc : ∀ e ∈ m.eids, ∀ i, IsCorner m' e i → IsCorner m e i := by
      intro e he i hi
      have := (h.corners e he).mem_iff (a := i)
      unfold Spec.corners at this
      unfold IsCorner at *
      simpa using this.1 (by simpa using hi)
    unfold HasProps at *
    cases pn with
    | true =>
      simp only [if_true] at *
      intro e he i hi
      rw [h.eids] at he
      have hi' := hc e he i hi
      rw [(h.node i (w.corner_mem he (by unfold Spec.corners; unfold IsCorner at hi'; simpa using hi'))).2.2]
      exact hh e he i hi'
    | false =>
      simp only [Bool.false_eq_true, if_false] at *
      intro e he
      rw [h.prop e (h.eids ▸ he)]
      exact hh e (h.eids ▸ he)
  · intro e he
    rw [h.eids] at he
    rw [Reordered_cavg w h pn he]
    exact ht e he

theorem k0s_eq_of_form {K K1 K2 : Mat} (h1 : K1.dim = K.dim) (h2 : K2.dim = K.dim) (o1 : ∀ i j, (K.dim ≤ i ∨ K.dim ≤ j) → K1.get i j = K.get i j)
    (o2 : ∀ i j, (K.dim ≤ i ∨ K.dim ≤ j) → K2.get i j = K.get i j)
    (hf : ∀ v u, form K.dim (fun i j => K1.get i j - K.get i j) v u = form K.dim (fun i j => K2.get i j - K.get i j) v u) : K1 = K2 := by
  apply Mat.ext_get (h1.trans h2.symm)
  funext i j
  by_cases h : i < K.dim ∧ j < K.dim
  · have := hf (single i) (single j)
    rw [form_single _ h.1 h.2, form_single _ h.1 h.2] at this
    linarith
  · rw [o1 i j (by omega), o2 i j (by omega)]

/-- C43 for the cell-based method: the order of the corners of any triangle does not matter -/
theorem C43_cell (hm : Numbered m) (hm' : Numbered m') (h : Reordered m m') (hf : FlatMesh m) {pn : Bool} (hh : HasProps m pn) (ht : Thick m pn) (al : ℝ)
    (fa : Bool) {K : Mat} (hK : K.dim = 5 * m.nids.length) : addK0s K m' pn "cell-based" al fa = addK0s K m pn "cell-based" al fa := by
  obtain ⟨f1, f2, f3⟩ := Reordered_hyps hm.wf h hf hh ht
  obtain ⟨K1, a1, b1, c1, e1⟩ := cell_form hm.wf hm.indexed hf hh ht al fa hK
  obtain ⟨K2, a2, b2, c2, e2⟩ := cell_form hm'.wf hm'.indexed f1 f2 f3 al fa (K := K) (by rw [h.nids]; exact hK)
  rw [a1, a2, k0s_eq_of_form b2 b1 c2 c1]
  intro v u
  rw [e1, e2]
  unfold shearEnergy
  rw [h.eids]
  congr 1
  refine List.map_congr_left fun e he => ?_
  have := Reordered_cellStrain hm.wf h he
  unfold cellStrain at this
  simp only [this, Reordered_triArea hm.wf h he, Reordered_shearMod hm.wf h pn al fa he]

/-- C43 without smoothing, missing: orders other than exchanging the first two corners (the result does depend on those, `C43_false`) -/
theorem C43_whole_partial (hm : Numbered m) (hm' : Numbered m') (h : Reordered m m') (hf : FlatMesh m) {pn : Bool} (hh : HasProps m pn) (ht : Thick m pn)
    (hc : ∀ e ∈ m.eids, corners m' e = corners m e ∨ corners m' e = [(m.tria e).n2, (m.tria e).n1, (m.tria e).n3]) (al : ℝ)
    (fa : Bool) {K : Mat} (hK : K.dim = 5 * m.nids.length) :
    addK0s K m' pn "cell-based-no-smoothing" al fa = addK0s K m pn "cell-based-no-smoothing" al fa := by
  obtain ⟨f1, f2, f3⟩ := Reordered_hyps hm.wf h hf hh ht
  obtain ⟨K1, a1, b1, c1, e1⟩ := cellNS_form hm.wf hm.indexed hf hh ht al fa hK
  obtain ⟨K2, a2, b2, c2, e2⟩ := cellNS_form hm'.wf hm'.indexed f1 f2 f3 al fa (K := K) (by rw [h.nids]; exact hK)
  rw [a1, a2, k0s_eq_of_form b2 b1 c2 c1]
  intro v u
  rw [e1, e2]
  unfold shearEnergy
  rw [h.eids]
  congr 1
  refine List.map_congr_left fun e he => ?_
  have : ∀ z, wholeGamma m' e z = wholeGamma m e z := by
    intro z
    obtain ⟨k1, k2, k3⟩ := Reordered_mem hm.wf h he
    have hnd := hf.nondeg e he
    unfold wholeGamma tpoly
    simp only [Reordered_sarea h (mem1 k1) (mem1 k2) (mem1 k3), Reordered_dsg h z (mem1 k1) (mem1 k2) (mem1 k3), Reordered_dsg h z (mem1 k2) (mem1 k1) (mem1 k3)]
    rcases hc e he with hc | hc
    · unfold Spec.corners at hc
      simp only [List.cons.injEq, and_true] at hc
      rw [hc.1, hc.2.1, hc.2.2]
    · unfold Spec.corners at hc
      simp only [List.cons.injEq, and_true] at hc
      rw [hc.1, hc.2.1, hc.2.2]
      have hsw : sarea m [[(m.tria e).n2], [(m.tria e).n1], [(m.tria e).n3]] = - sarea m [[(m.tria e).n1], [(m.tria e).n2], [(m.tria e).n3]] := by
        rw [sarea3, sarea3]; ring
      rw [hsw]
      rcases lt_or_gt_of_ne hnd with hl | hl
      · rw [if_pos (by linarith), if_neg (by linarith)]
      · rw [if_neg (by linarith), if_pos hl]
  simp only [this, Reordered_triArea hm.wf h he, Reordered_shearMod hm.wf h pn al fa he]

end

/-- without stabilisation the modulus is the laminate's -/
theorem shearMod_zero {m : Mesh} {pn : Bool} (ht : Thick m pn) (fa : Bool) {e : ℕ} (he : e ∈ m.eids) :
    shearMod m pn 0 fa e 0 = cavg m pn e (fun l => l.k23) * cavg m pn e (fun l => l.E 0 0) ∧
    shearMod m pn 0 fa e 1 = cavg m pn e (fun l => l.k13) * cavg m pn e (fun l => l.E 1 1) := by
  have h := pow_ne_zero 2 (ht e he)
  constructor <;> simp [shearMod, div_self h]

/-- the modulus decreases with `alpha` -/
theorem shearMod_antitone {m : Mesh} {pn : Bool} (hn : ShearNonneg m pn) (ht : Thick m pn) {al al' : ℝ} (h0 : 0 ≤ al) (h : al ≤ al') (fa : Bool) {e : ℕ} (he : e ∈ m.eids)
    (r : Fin 2) : shearMod m pn al' fa e r ≤ shearMod m pn al fa e r := by
  unfold shearMod
  dsimp only
  have hh : 0 < cavg m pn e (fun l => l.h) ^ 2 := by have := ht e he; positivity
  apply mul_le_mul_of_nonneg_right
  · apply div_le_div_of_nonneg_left hh.le
    · have := mul_nonneg h0 (sq_nonneg (charLen m fa e)); linarith
    · have := mul_le_mul_of_nonneg_right h (sq_nonneg (charLen m fa e)); linarith
  · split
    · exact mul_nonneg (cavg_nonneg hn he fun p h => h.2.1) (cavg_nonneg hn he fun p h => h.2.2.1)
    · exact mul_nonneg (cavg_nonneg hn he fun p h => h.1) (cavg_nonneg hn he fun p h => h.2.2.2)

/-- for `alpha > 0` and a positive laminate modulus `E` the stabilised modulus lies strictly between 0 and `E` -/
theorem stab_strict {al l h E : ℝ} (ha : 0 < al) (hl : 0 < l) (hh : h ≠ 0) (hE : 0 < E) : 0 < stab al l h * E ∧ stab al l h * E < E := by
  rw [stab_eq hh]
  have h2 : 0 < h ^ 2 := by positivity
  have hl2 : 0 < al * l ^ 2 := by positivity
  constructor
  · positivity
  · rw [div_mul_eq_mul_div, div_lt_iff₀ (by linarith)]
    nlinarith

/-- the two ways of writing the factor agree: with equal correction factors and `E[0,1] = 0` the boundary and interior formulas of
the edge-based method give the same moduli for the same `alpha` and `maxl` -/
theorem moduli_agree {sp : ShearProp} (hh : sp.h ≠ 0) (hk : sp.k13 = sp.k23) (h01 : sp.E 0 1 = 0) (al l : ℝ) : edgeBModuli sp al l = edgeIModuli sp al l := by
  unfold edgeBModuli edgeIModuli
  rw [stab_eq hh, h01, hk]
  simp

/-- C44: the shear energy of any displacement decreases with `alpha`, for both cell methods -/
theorem C44_energy {m : Mesh} (hm : Numbered m) (hf : FlatMesh m) {pn : Bool} (hh : HasProps m pn) (ht : Thick m pn) (hn : ShearNonneg m pn) {al al' : ℝ} (h0 : 0 ≤ al)
    (h : al ≤ al') (fa : Bool) {K : Mat} (hK : K.dim = 5 * m.nids.length) {method : String} (hme : method = "cell-based" ∨ method = "cell-based-no-smoothing")
    (v : ℕ → ℝ) : form K.dim (fun i j => (addK0s K m pn method al' fa).1.get i j - K.get i j) v v ≤
      form K.dim (fun i j => (addK0s K m pn method al fa).1.get i j - K.get i j) v v := by
  have key : ∀ g : ℕ → (ℕ → ℝ) → Fin 2 → ℝ, shearEnergy m pn al' fa g v v ≤ shearEnergy m pn al fa g v v := by
    intro g
    unfold shearEnergy
    apply List.sum_le_sum
    intro e he
    have hA : 0 ≤ triArea m e := abs_nonneg _
    apply mul_le_mul_of_nonneg_left _ hA
    have := mul_le_mul_of_nonneg_right (shearMod_antitone hn ht h0 h fa he 0) (mul_self_nonneg (g e v 0))
    have := mul_le_mul_of_nonneg_right (shearMod_antitone hn ht h0 h fa he 1) (mul_self_nonneg (g e v 1))
    linarith
  rcases hme with rfl | rfl
  · obtain ⟨K1, a1, _, e1⟩ := C38_energy hm hf hh ht al fa hK
    obtain ⟨K2, a2, _, e2⟩ := C38_energy hm hf hh ht al' fa hK
    rw [a1, a2, e1, e2]; exact key _
  · obtain ⟨K1, a1, _, e1⟩ := C39_energy hm hf hh ht al fa hK
    obtain ⟨K2, a2, _, e2⟩ := C39_energy hm hf hh ht al' fa hK
    rw [a1, a2, e1, e2]; exact key _

/-- the length used by the cell methods is the square root of the area, or the length of a side that no side exceeds -/
theorem cellMaxl_longest {m : Mesh} (hr : Reachable m) (hf : FlatMesh m) {e : ℕ} (he : e ∈ m.eids) :
    cellMaxl m e (m.triaArea e) true = .ok (Real.sqrt (triArea m e)) ∧
    ∃ l, cellMaxl m e (m.triaArea e) false = .ok l ∧ (∃ i j, IsCorner m e i ∧ IsCorner m e j ∧ l = dist2 m i j) ∧
      ∀ i j, IsCorner m e i → IsCorner m e j → dist2 m i j ≤ l := by
  have w := hr.wf
  refine ⟨by rw [cellMaxl_eq w hf he]; rfl, _, cellMaxl_eq w hf he false, ?_, ?_⟩
  · simp only [charLen, Bool.false_eq_true, if_false]
    rcases max_choice (max (dist2 m (m.tria e).n1 (m.tria e).n2) (dist2 m (m.tria e).n2 (m.tria e).n3)) (dist2 m (m.tria e).n3 (m.tria e).n1) with h | h
    · rcases max_choice (dist2 m (m.tria e).n1 (m.tria e).n2) (dist2 m (m.tria e).n2 (m.tria e).n3) with h' | h'
      · rw [h, h']; exact ⟨_, _, Or.inl rfl, Or.inr (Or.inl rfl), rfl⟩
      · rw [h, h']; exact ⟨_, _, Or.inr (Or.inl rfl), Or.inr (Or.inr rfl), rfl⟩
    · rw [h]; exact ⟨_, _, Or.inr (Or.inr rfl), Or.inl rfl, rfl⟩
  · simp only [charLen, Bool.false_eq_true, if_false]
    have hself : ∀ i j, dist2 m i i ≤ dist2 m i j := by
      intro i j; unfold dist2; apply Real.sqrt_le_sqrt; nlinarith [sq_nonneg (nx m i - nx m j), sq_nonneg (ny m i - ny m j)]
    have l12 := le_trans (le_max_left (dist2 m (m.tria e).n1 (m.tria e).n2) (dist2 m (m.tria e).n2 (m.tria e).n3)) (le_max_left _ (dist2 m (m.tria e).n3 (m.tria e).n1))
    have l23 := le_trans (le_max_right (dist2 m (m.tria e).n1 (m.tria e).n2) (dist2 m (m.tria e).n2 (m.tria e).n3)) (le_max_left _ (dist2 m (m.tria e).n3 (m.tria e).n1))
    have l31 := le_max_right (max (dist2 m (m.tria e).n1 (m.tria e).n2) (dist2 m (m.tria e).n2 (m.tria e).n3)) (dist2 m (m.tria e).n3 (m.tria e).n1)
    have s1 := hself (m.tria e).n1 (m.tria e).n2
    have s2 := hself (m.tria e).n2 (m.tria e).n3
    have s3 := hself (m.tria e).n3 (m.tria e).n1
    intro i j hi hj
    rcases hi with rfl | rfl | rfl <;> rcases hj with rfl | rfl | rfl
    · exact s1.trans l12
    · exact l12
    · rw [dist2_comm]; exact l31
    · rw [dist2_comm]; exact l12
    · exact s2.trans l23
    · exact l23
    · exact l31
    · rw [dist2_comm]; exact l23
    · exact s3.trans l31

/-! ### concrete cases -/

section
variable (p1 p2 p3 p4 q1 q2 : Lam)

theorem exAfter_numbered : Numbered (exAfter p1 p2 p3 p4 q1 q2) := (exAfter_after ..).numbered
theorem exAfter_flat : FlatMesh (exAfter p1 p2 p3 p4 q1 q2) := (exAfter_planar ..).flatMesh
end

theorem exAfter_Homog (l : Lam) (pn : Bool) : Homog (exAfter l l l l l l) pn l := by
  have hs := exAfter_static l l l l l l
  have := exMesh_Homog l pn
  unfold Homog at this ⊢
  simpa only [hs.nids, hs.eids, hs.prop, hs.tria] using this

/-- one laminate everywhere: every average is its value -/
theorem cavg_homog {m : Mesh} (w : WF m) {pn : Bool} {l : Lam} (h : Homog m pn l) {e : ℕ} (he : e ∈ m.eids) (sel : Lam → ℝ) : cavg m pn e sel = sel l := by
  unfold Homog at h
  unfold cavg
  cases pn with
  | true =>
    simp only [if_true] at h ⊢
    rw [mean_corners', h _ (w.corner_mem he (by simp [corners])), h _ (w.corner_mem he (by simp [corners])), h _ (w.corner_mem he (by simp [corners]))]
    simp only [ofProp]; ring
  | false =>
    simp only [Bool.false_eq_true, if_false] at h ⊢
    rw [h e he]; rfl

theorem exAfter_thick (l : Lam) (hl : l.h ≠ 0) (pn : Bool) : Thick (exAfter l l l l l l) pn :=
  fun e he => by rw [cavg_homog (exAfter_numbered ..).wf (exAfter_Homog l pn) he]; exact hl

theorem exAfter_nonneg (l : Lam) (hl : 0 ≤ l.k13 ∧ 0 ≤ l.k23 ∧ 0 ≤ l.E 0 0 ∧ 0 ≤ l.E 1 1) (pn : Bool) : ShearNonneg (exAfter l l l l l l) pn := by
  have hH := exAfter_Homog l pn
  unfold Homog at hH
  unfold ShearNonneg
  cases pn with
  | true =>
    simp only [if_true] at hH ⊢
    intro e he i hi p hp
    have := hH i ((exAfter_numbered l l l l l l).wf.corner_mem he (by unfold corners IsCorner at *; simpa using hi))
    rw [this] at hp; cases hp; exact hl
  | false =>
    simp only [Bool.false_eq_true, if_false] at hH ⊢
    intro e he p hp
    rw [hH e he] at hp; cases hp; exact hl

/-- C38, C39: with a unit laminate and `w = x`, `phix = phiy = 0` on the unit square the shear energy of both cell methods is
`1/(1 + alpha*l^2)` times the area; here `alpha = 0` -/
example (pn fa : Bool) {method : String} (hme : method = "cell-based" ∨ method = "cell-based-no-smoothing") :
    form 20 (fun i j => (addK0s (Mat.zeros 20) (exAfter exIso exIso exIso exIso exIso exIso) pn method 0 fa).1.get i j - (Mat.zeros 20).get i j)
      (fun j => if j = 7 ∨ j = 12 then 1 else 0) (fun j => if j = 7 ∨ j = 12 then 1 else 0) = 1 := by
  set m := exAfter exIso exIso exIso exIso exIso exIso with hm
  set z : ℕ → ℝ := fun j => if j = 7 ∨ j = 12 then 1 else 0 with hz
  have hs := exAfter_static exIso exIso exIso exIso exIso exIso
  rw [← hm] at hs
  have hn : m.nids = [1, 2, 3, 4] := exAfter_nids ..
  have hmem : ∀ i ∈ m.nids, i = 1 ∨ i = 2 ∨ i = 3 ∨ i = 4 := by intro i hi; rw [hn] at hi; simpa using hi
  have hw : ∀ i ∈ m.nids, disp m z 2 i = 0 + 1 * nx m i + 0 * ny m i := by
    intro i hi
    rcases hmem i hi with rfl | rfl | rfl | rfl <;> simp only [disp, hn, nx, ny, hs.xyz, exMesh_node1, exMesh_node2, exMesh_node3, exMesh_node4] <;>
      norm_num [hz, List.idxOf_cons]
  have hx : ∀ i ∈ m.nids, disp m z 3 i = 0 := by
    intro i hi
    rcases hmem i hi with rfl | rfl | rfl | rfl <;> simp only [disp, hn] <;> norm_num [hz, List.idxOf_cons]
  have hy : ∀ i ∈ m.nids, disp m z 4 i = 0 := by
    intro i hi
    rcases hmem i hi with rfl | rfl | rfl | rfl <;> simp only [disp, hn] <;> norm_num [hz, List.idxOf_cons]
  have nm : Numbered m := exAfter_numbered ..
  have fm : FlatMesh m := exAfter_flat ..
  have ht : Thick m pn := exAfter_thick exIso (by norm_num [exIso, exLam]) pn
  have hmod : ∀ e ∈ m.eids, shearMod m pn 0 fa e 0 = 1 ∧ shearMod m pn 0 fa e 1 = 1 := by
    intro e he
    obtain ⟨h0, h1⟩ := shearMod_zero ht fa he
    rw [h0, h1]
    simp only [cavg_homog nm.wf (exAfter_Homog exIso pn) he]
    norm_num [exIso, exLam]
  have area : (m.eids.map (triArea m)).sum = 1 := by rw [hs.eids, hs.striArea]; exact exMesh_area ..
  have hK : (Mat.zeros 20).dim = 5 * m.nids.length := by rw [hn]; rfl
  have fin : ∀ g : ℕ → (ℕ → ℝ) → Fin 2 → ℝ, (∀ e ∈ m.eids, g e z 0 = 1 ∧ g e z 1 = 0) → shearEnergy m pn 0 fa g z z = 1 := by
    intro g hg
    rw [← area]
    unfold shearEnergy
    congr 1
    refine List.map_congr_left fun e he => ?_
    rw [(hg e he).1, (hg e he).2, (hmod e he).1, (hmod e he).2]; ring
  rcases hme with rfl | rfl
  · obtain ⟨K', h1, h2, h3⟩ := C38_energy nm fm (exAfter_props _ _ _ _ _ _ pn) ht 0 fa hK
    rw [h1]
    refine (h3 z z).trans (fin _ fun e he => ?_)
    obtain ⟨g0, g1⟩ := patch_cell nm fm hw hx hy he
    rw [g0, g1]; norm_num
  · obtain ⟨K', h1, h2, h3⟩ := C39_energy nm fm (exAfter_props _ _ _ _ _ _ pn) ht 0 fa hK
    rw [h1]
    refine (h3 z z).trans (fin _ fun e he => ?_)
    obtain ⟨g0, g1⟩ := patch_whole nm fm hw hx hy he
    rw [g0, g1]; norm_num

/-- C38, C39, C44: non-negative data on the same square -/
example (pn fa : Bool) (v : ℕ → ℝ) : 0 ≤ form 20 (fun i j => (addK0s (Mat.zeros 20) (exAfter exIso exIso exIso exIso exIso exIso) pn "cell-based" 0.1 fa).1.get i j
    - (Mat.zeros 20).get i j) v v :=
  C38_psd (exAfter_numbered ..) (exAfter_flat ..) (exAfter_props _ _ _ _ _ _ pn) (exAfter_thick exIso (by norm_num [exIso, exLam]) pn)
    (exAfter_nonneg exIso (by norm_num [exIso, exLam]) pn) (by norm_num) fa (K := Mat.zeros 20) (by rw [exAfter_nids]; rfl) v

/-- C45: the longest side of the triangle (0,0), (1,0), (1,1) is its diagonal -/
example : ∃ l, cellMaxl (exAfter exIso exIso exIso exIso exIso exIso) 1 ((exAfter exIso exIso exIso exIso exIso exIso).triaArea 1) false = .ok l ∧ Real.sqrt 2 ≤ l := by
  have hs := exAfter_static exIso exIso exIso exIso exIso exIso
  obtain ⟨-, l, h1, -, h2⟩ := cellMaxl_longest (exAfter_numbered exIso exIso exIso exIso exIso exIso).reachable (exAfter_flat ..) (e := 1) (by rw [hs.eids, exMesh_eids]; simp)
  refine ⟨l, h1, ?_⟩
  have := h2 1 3 (by unfold IsCorner; rw [hs.tria, exMesh_tria1]; simp) (by unfold IsCorner; rw [hs.tria, exMesh_tria1]; simp)
  refine le_trans (le_of_eq ?_) this
  unfold dist2 nx ny
  rw [hs.xyz, hs.xyz, exMesh_node1, exMesh_node3]
  norm_num

/-! one triangle with corners (0,0), (1,0), (0,1) listed in two orders -/

/-- the mesh with corner list `t` and a unit laminate -/
noncomputable def exOne (t : ℕ × ℕ × ℕ) : Mesh := run (match readDelaunay [.d2 0 0, .d2 1 0, .d2 0 1] (toInts [t]) with | .ok m => m | .error _ => emptyMesh)
  [.setTriaProp 1 (some exIso)]

theorem exOne_reachable {t : ℕ × ℕ × ℕ} (ht : t = (0, 1, 2) ∨ t = (1, 2, 0)) : Reachable (exOne t) := by
  rcases ht with rfl | rfl
  · exact .delaunay [.d2 0 0, .d2 1 0, .d2 0 1] (toInts [(0, 1, 2)]) _ rfl _
  · exact .delaunay [.d2 0 0, .d2 1 0, .d2 0 1] (toInts [(1, 2, 0)]) _ rfl _

theorem exOne_nids {t : ℕ × ℕ × ℕ} (ht : t = (0, 1, 2) ∨ t = (1, 2, 0)) : (exOne t).nids = [1, 2, 3] := by rcases ht with rfl | rfl <;> rfl
theorem exOne_eids {t : ℕ × ℕ × ℕ} (ht : t = (0, 1, 2) ∨ t = (1, 2, 0)) : (exOne t).eids = [1] := by rcases ht with rfl | rfl <;> rfl
theorem exOne_a : (exOne (0, 1, 2)).tria 1 = ⟨1, 2, 3, some exIso, [(1, 2), (2, 3), (1, 3)]⟩ := rfl
theorem exOne_b : (exOne (1, 2, 0)).tria 1 = ⟨2, 3, 1, some exIso, [(2, 3), (1, 3), (1, 2)]⟩ := rfl
theorem exOne_x1 {t : ℕ × ℕ × ℕ} (ht : t = (0, 1, 2) ∨ t = (1, 2, 0)) : ((exOne t).node 1).xyz = ⟨0, 0, 0⟩ := by rcases ht with rfl | rfl <;> rfl
theorem exOne_x2 {t : ℕ × ℕ × ℕ} (ht : t = (0, 1, 2) ∨ t = (1, 2, 0)) : ((exOne t).node 2).xyz = ⟨1, 0, 0⟩ := by rcases ht with rfl | rfl <;> rfl
theorem exOne_x3 {t : ℕ × ℕ × ℕ} (ht : t = (0, 1, 2) ∨ t = (1, 2, 0)) : ((exOne t).node 3).xyz = ⟨0, 1, 0⟩ := by rcases ht with rfl | rfl <;> rfl

theorem exOne_proper {t : ℕ × ℕ × ℕ} (ht : t = (0, 1, 2) ∨ t = (1, 2, 0)) : Proper (exOne t) := by
  have hr := exOne_reachable ht
  refine ⟨?_, ?_, ?_⟩
  · intro e he
    rw [exOne_eids ht, List.mem_singleton] at he
    subst he
    rcases ht with rfl | rfl
    · rw [exOne_a]; simp
    · rw [exOne_b]; simp
  · intro k hk
    have hk' : k ∈ [((1 : ℕ), (2 : ℕ)), (2, 3), (1, 3)] := by
      rcases ht with rfl | rfl
      · exact hk
      · have : k ∈ [((2 : ℕ), (3 : ℕ)), (1, 3), (1, 2)] := hk
        simp only [List.mem_cons, List.not_mem_nil, or_false] at this ⊢
        tauto
    simp only [List.mem_cons, List.not_mem_nil, or_false] at hk'
    rcases ht with rfl | rfl <;> rcases hk' with rfl | rfl | rfl
    · exact le_of_eq_of_le (congrArg List.length (show ((exOne (0, 1, 2)).edge (1, 2)).trias = [1] from rfl)) (by simp)
    · exact le_of_eq_of_le (congrArg List.length (show ((exOne (0, 1, 2)).edge (2, 3)).trias = [1] from rfl)) (by simp)
    · exact le_of_eq_of_le (congrArg List.length (show ((exOne (0, 1, 2)).edge (1, 3)).trias = [1] from rfl)) (by simp)
    · exact le_of_eq_of_le (congrArg List.length (show ((exOne (1, 2, 0)).edge (1, 2)).trias = [1] from rfl)) (by simp)
    · exact le_of_eq_of_le (congrArg List.length (show ((exOne (1, 2, 0)).edge (2, 3)).trias = [1] from rfl)) (by simp)
    · exact le_of_eq_of_le (congrArg List.length (show ((exOne (1, 2, 0)).edge (1, 3)).trias = [1] from rfl)) (by simp)
  · intro e he e' he' _
    rw [exOne_eids ht, List.mem_singleton] at he he'
    rw [he, he']

theorem exOne_prop {t : ℕ × ℕ × ℕ} (ht : t = (0, 1, 2) ∨ t = (1, 2, 0)) : ((exOne t).tria 1).prop = some exIso := by
  rcases ht with rfl | rfl
  · rw [exOne_a]
  · rw [exOne_b]

theorem exOne_has {t : ℕ × ℕ × ℕ} (ht : t = (0, 1, 2) ∨ t = (1, 2, 0)) : HasProps (exOne t) false := by
  intro e he
  rw [exOne_eids ht, List.mem_singleton] at he
  rw [he, exOne_prop ht]; rfl

theorem exOne_numbered {t : ℕ × ℕ × ℕ} (ht : t = (0, 1, 2) ∨ t = (1, 2, 0)) : Numbered (calcK0 (exOne t) false).1 ∧ SameStatic (exOne t) (calcK0 (exOne t) false).1 := by
  obtain ⟨K, hK, _⟩ := C11_success (exOne_reachable ht) (exOne_proper ht) (by rw [exOne_nids ht]; simp) (exOne_has ht)
  exact ⟨.intro _ (exOne_reachable ht) false K hK [], calcK0_static _ _ (exOne_reachable ht).wf⟩

theorem exOne_flat : FlatMesh (calcK0 (exOne (0, 1, 2)) false).1 := by
  have hs := (exOne_numbered (Or.inl rfl)).2
  have hmem : ∀ i ∈ (calcK0 (exOne (0, 1, 2)) false).1.nids, i = 1 ∨ i = 2 ∨ i = 3 := by
    intro i hi; rw [hs.nids, exOne_nids (Or.inl rfl)] at hi; simpa using hi
  refine ⟨?_, ?_, ?_⟩
  · intro i hi
    rw [hs.cp, hs.xyz]
    rcases hmem i hi with rfl | rfl | rfl <;> rfl
  · intro i hi j hj
    have : ∀ i, i = 1 ∨ i = 2 ∨ i = 3 → ((calcK0 (exOne (0, 1, 2)) false).1.node i).xyz.z = 0 := by
      intro i hi
      rw [hs.xyz]
      rcases hi with rfl | rfl | rfl <;> rfl
    rw [this i (hmem i hi), this j (hmem j hj)]
  · intro e he
    rw [hs.eids, exOne_eids (Or.inl rfl), List.mem_singleton] at he
    subst he
    rw [hs.tria, exOne_a, sarea3]
    simp only [mean_single, nx, ny, hs.xyz, exOne_x1 (Or.inl rfl), exOne_x2 (Or.inl rfl), exOne_x3 (Or.inl rfl)]
    norm_num

theorem exOne_c {t : ℕ × ℕ × ℕ} (ht : t = (0, 1, 2) ∨ t = (1, 2, 0)) (i : ℕ) (hi : i ∈ [1, 2, 3]) : ((exOne t).node i).cp = id := by
  simp only [List.mem_cons, List.not_mem_nil, or_false] at hi
  rcases ht with rfl | rfl <;> rcases hi with rfl | rfl | rfl <;> rfl

theorem exOne_p {t : ℕ × ℕ × ℕ} (ht : t = (0, 1, 2) ∨ t = (1, 2, 0)) (i : ℕ) (hi : i ∈ [1, 2, 3]) : ((exOne t).node i).prop = none := by
  simp only [List.mem_cons, List.not_mem_nil, or_false] at hi
  rcases ht with rfl | rfl <;> rcases hi with rfl | rfl | rfl <;> rfl

theorem exOne_reordered : Reordered (calcK0 (exOne (0, 1, 2)) false).1 (calcK0 (exOne (1, 2, 0)) false).1 := by
  have hs := (exOne_numbered (Or.inl rfl)).2
  have hs' := (exOne_numbered (Or.inr rfl)).2
  refine ⟨?_, ?_, ?_, ?_, ?_⟩
  · rw [hs.nids, hs'.nids, exOne_nids (Or.inl rfl), exOne_nids (Or.inr rfl)]
  · rw [hs.eids, hs'.eids, exOne_eids (Or.inl rfl), exOne_eids (Or.inr rfl)]
  · intro i hi
    rw [hs.nids, exOne_nids (Or.inl rfl)] at hi
    simp only [List.mem_cons, List.not_mem_nil, or_false] at hi
    rw [hs.xyz, hs'.xyz, hs.cp, hs'.cp, hs.prop, hs'.prop]
    rcases hi with rfl | rfl | rfl
    · exact ⟨by rw [exOne_x1 (Or.inl rfl), exOne_x1 (Or.inr rfl)], by rw [exOne_c (Or.inl rfl) 1 (by simp), exOne_c (Or.inr rfl) 1 (by simp)], by rw [exOne_p (Or.inl rfl) 1 (by simp), exOne_p (Or.inr rfl) 1 (by simp)]⟩
    · exact ⟨by rw [exOne_x2 (Or.inl rfl), exOne_x2 (Or.inr rfl)], by rw [exOne_c (Or.inl rfl) 2 (by simp), exOne_c (Or.inr rfl) 2 (by simp)], by rw [exOne_p (Or.inl rfl) 2 (by simp), exOne_p (Or.inr rfl) 2 (by simp)]⟩
    · exact ⟨by rw [exOne_x3 (Or.inl rfl), exOne_x3 (Or.inr rfl)], by rw [exOne_c (Or.inl rfl) 3 (by simp), exOne_c (Or.inr rfl) 3 (by simp)], by rw [exOne_p (Or.inl rfl) 3 (by simp), exOne_p (Or.inr rfl) 3 (by simp)]⟩
  · intro e he
    rw [hs.eids, exOne_eids (Or.inl rfl), List.mem_singleton] at he
    subst he
    unfold corners
    rw [hs.tria, hs'.tria, exOne_a, exOne_b]
    decide
  · intro e he
    rw [hs.eids, exOne_eids (Or.inl rfl), List.mem_singleton] at he
    subst he
    rw [hs.tria, hs'.tria, exOne_prop (Or.inl rfl), exOne_prop (Or.inr rfl)]

theorem exOne_thick : Thick (calcK0 (exOne (0, 1, 2)) false).1 false := by
  have hs := (exOne_numbered (Or.inl rfl)).2
  intro e he
  rw [hs.eids, exOne_eids (Or.inl rfl), List.mem_singleton] at he
  subst he
  unfold cavg
  rw [hs.tria, exOne_prop (Or.inl rfl)]
  norm_num [ofProp, exIso, exLam]

/-- C43 cell-based, concrete case -/
example (K : Mat) (hK : K.dim = 15) : addK0s K (calcK0 (exOne (1, 2, 0)) false).1 false "cell-based" 0.1 true =
    addK0s K (calcK0 (exOne (0, 1, 2)) false).1 false "cell-based" 0.1 true :=
  C43_cell (exOne_numbered (Or.inl rfl)).1 (exOne_numbered (Or.inr rfl)).1 exOne_reordered exOne_flat ((exOne_numbered (Or.inl rfl)).2.hasProps (exOne_has (Or.inl rfl)))
    exOne_thick 0.1 true (by rw [hK, (exOne_numbered (Or.inl rfl)).2.nids, exOne_nids (Or.inl rfl)]; rfl)

/-- C43 is false without smoothing: listing the corners (0,0), (1,0), (0,1) from the second one changes the matrix -/
theorem C43_false : ∃ (m m' : Mesh) (K : Mat), Numbered m ∧ Numbered m' ∧ Reordered m m' ∧ FlatMesh m ∧ HasProps m false ∧ Thick m false ∧
    K.dim = 5 * m.nids.length ∧ addK0s K m' false "cell-based-no-smoothing" 0 true ≠ addK0s K m false "cell-based-no-smoothing" 0 true := by
  obtain ⟨n1, hs⟩ := exOne_numbered (Or.inl rfl)
  obtain ⟨n2, hs'⟩ := exOne_numbered (Or.inr rfl)
  have hp := hs.hasProps (exOne_has (Or.inl rfl))
  have hn : (calcK0 (exOne (0, 1, 2)) false).1.nids = [1, 2, 3] := by rw [hs.nids, exOne_nids (Or.inl rfl)]
  have hn' : (calcK0 (exOne (1, 2, 0)) false).1.nids = [1, 2, 3] := by rw [hs'.nids, exOne_nids (Or.inr rfl)]
  have hK : (Mat.zeros 15).dim = 5 * (calcK0 (exOne (0, 1, 2)) false).1.nids.length := by rw [hn]; rfl
  have hK' : (Mat.zeros 15).dim = 5 * (calcK0 (exOne (1, 2, 0)) false).1.nids.length := by rw [hn']; rfl
  refine ⟨_, _, Mat.zeros 15, n1, n2, exOne_reordered, exOne_flat, hp, exOne_thick, hK, fun heq => ?_⟩
  obtain ⟨f1, f2, f3⟩ := Reordered_hyps n1.wf exOne_reordered exOne_flat hp exOne_thick
  obtain ⟨K1, a1, -, e1⟩ := C39_energy n1 exOne_flat hp exOne_thick 0 true hK
  obtain ⟨K2, a2, -, e2⟩ := C39_energy n2 f1 f2 f3 0 true hK'
  rw [a1, a2] at heq
  have hKK : K2 = K1 := congrArg Prod.fst heq
  have h1 := e1 (single 13) (single 13)
  have h2 := e2 (single 13) (single 13)
  rw [hKK, h1] at h2
  have m1 := shearMod_zero exOne_thick true (e := 1) (by rw [hs.eids, exOne_eids (Or.inl rfl)]; simp)
  have m2 := shearMod_zero f3 true (e := 1) (by rw [hs'.eids, exOne_eids (Or.inr rfl)]; simp)
  unfold shearEnergy at h2
  rw [hs.eids, hs'.eids, exOne_eids (Or.inl rfl), exOne_eids (Or.inr rfl)] at h2
  simp only [List.map_cons, List.map_nil, List.sum_cons, List.sum_nil, m1.1, m1.2, m2.1, m2.2] at h2
  simp only [cavg, Bool.false_eq_true, if_false, hs.tria, hs'.tria, triArea, wholeGamma, tpoly, exOne_a, exOne_b, ofProp, dsg, gap, sarea3, mean_single, nx, ny, hs.xyz, hs'.xyz,
    exOne_x1 (Or.inl rfl), exOne_x2 (Or.inl rfl), exOne_x3 (Or.inl rfl), exOne_x1 (Or.inr rfl), exOne_x2 (Or.inr rfl), exOne_x3 (Or.inr rfl), disp, hn, hn', single] at h2
  norm_num [List.idxOf_cons, exIso, exLam] at h2

end Meshless
