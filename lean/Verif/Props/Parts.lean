import Verif.Lemmas.Parts
import Verif.Lemmas.ConvergeShear
import Verif.Props.Buckling
import Verif.Lemmas.Grid

/-! Meshes of several parts, meshes with unused nodes. -/

set_option autoImplicit false

namespace Meshless
open Spec Finset

theorem Spec.GoodPlate.parts {m : Mesh} {pn : Bool} (h : GoodPlate m pn) : GoodParts m pn := ⟨h.proper, h.planar, h.abd, h.shear⟩

section
variable {m : Mesh} (hr : Reachable m) {pn : Bool} (hg : GoodParts m pn) {method : String} {al : ℝ} {fa : Bool} {K : Mat} (hK : Stiffness m pn method al fa K)
include hr hg hK

/-- the energy of the complete stiffness matrix: membrane and bending plus shear -/
theorem parts_energy : K.dim = 5 * m.nids.length ∧ HasProps m pn ∧ (∃ K0, (calcK0 m pn).2 = .ok K0) ∧
      ∀ v u, form K.dim K.get v u = energy m pn v u + shearEnergy m pn al fa (if method = "cell-based" then cellStrain m else wholeGamma m) v u := by
  obtain ⟨hme, K0, hK0, hadd⟩ := hK
  obtain ⟨hs, hq, hh, hne⟩ := calcK0_ok hr.wf hK0
  have hm : Numbered (calcK0 m pn).1 := .intro m hr pn K0 hK0 []
  have hf := hs.flatMesh hg.planar
  have hh2 := hs.hasProps hh
  have ht : Thick (calcK0 m pn).1 pn := fun e he => (cavg_pos (hs.wf hr.wf) hh2 he fun l h => (hg.shear l (hs.inUse.1 h)).1).ne'
  have hd : K0.dim = 5 * (calcK0 m pn).1.nids.length := by rw [(calcK0_sum hr.wf hK0).1, hs.nids]; ring
  rcases hme with rfl | rfl
  · obtain ⟨K', h1, h2, h3⟩ := C38_energy hm hf hh2 ht al fa hd
    rw [hadd] at h1
    have : K = K' := by injection h1
    subst this
    refine ⟨by rw [h2, hd, hs.nids], hh, ⟨K0, hK0⟩, fun v u => ?_⟩
    rw [h2, form_add _ K0.get, h3, if_pos rfl, C18_energy hr hg.proper hg.planar hK0, hs.sshear, hs.scell]
  · obtain ⟨K', h1, h2, h3⟩ := C39_energy hm hf hh2 ht al fa hd
    rw [hadd] at h1
    have : K = K' := by injection h1
    subst this
    refine ⟨by rw [h2, hd, hs.nids], hh, ⟨K0, hK0⟩, fun v u => ?_⟩
    rw [h2, form_add _ K0.get, h3, if_neg (by decide), C18_energy hr hg.proper hg.planar hK0, hs.sshear, hs.swhole]

omit hg hK in
theorem method_only {N : Set ℕ} {e : ℕ} (he : e ∈ m.eids) (v : ℕ → ℝ) :
    ((∀ i, IsCorner m e i → i ∈ N) → (if method = "cell-based" then cellStrain m else wholeGamma m) e (onlyAt m N v) = (if method = "cell-based" then cellStrain m else wholeGamma m) e v) ∧
    ((∀ i, IsCorner m e i → i ∉ N) → (if method = "cell-based" then cellStrain m else wholeGamma m) e (onlyAt m N v) = 0) := by
  have hn : ∀ i, IsCorner m e i → i ∈ m.nids := fun i hi => hr.wf.corner_mem he (corner_in hi)
  split
  · refine ⟨fun h => cellStrain_congr fun i hi r hr => onlyAt_in (hn i hi) (h i hi) hr, fun h => ?_⟩
    rw [← cellStrain_none m e]
    exact cellStrain_congr fun i hi r hr => by rw [onlyAt_out (hn i hi) (h i hi) hr]; rfl
  · refine ⟨fun h => wholeGamma_congr fun i hi r hr => onlyAt_in (hn i hi) (h i hi) hr, fun h => ?_⟩
    rw [← wholeGamma_none m e]
    exact wholeGamma_congr fun i hi r hr => by rw [onlyAt_out (hn i hi) (h i hi) hr]; rfl

/-- restricting one displacement to a separate set is the same as restricting the other -/
theorem form_only {N : Set ℕ} (hN : Separate m N) (v u : ℕ → ℝ) : form K.dim K.get (onlyAt m N v) u = form K.dim K.get v (onlyAt m N u) := by
  obtain ⟨hdim, hh, _, hform⟩ := parts_energy hr hg hK
  rw [hform, hform]
  congr 1
  · unfold energy
    rw [List.map_congr_left fun k hk => ?_]
    have e1 := eps_only hr.wf hg.proper (N := N) hk v
    have e2 := eps_only hr.wf hg.proper (N := N) hk u
    rcases edge_separate hr.wf hg.proper hN hk with h | h
    · rw [e1.1 h, e2.1 h]
    · rw [e1.2 h, e2.2 h]; simp
  · unfold shearEnergy
    rw [List.map_congr_left fun e he => ?_]
    have e1 := method_only hr (method := method) (N := N) he v
    have e2 := method_only hr (method := method) (N := N) he u
    rcases hN e he with h | h
    · rw [e1.1 h, e2.1 h]
    · rw [e1.2 h, e2.2 h]; simp

theorem geometric_only {N : Set ℕ} (hN : Separate m N) {d : List ℝ} (hd : d.length = 5 * m.nids.length) {G : Mat} (hG : calcKG (calcK0 m pn).1 d pn = .ok G) (v u : ℕ → ℝ) :
    G.dim = K.dim ∧ form K.dim G.get (onlyAt m N v) u = form K.dim G.get v (onlyAt m N u) := by
  obtain ⟨hdim, hh, ⟨K0, hK0⟩, _⟩ := parts_energy hr hg hK
  obtain ⟨hs, _, hh, _⟩ := calcK0_ok hr.wf hK0
  have haf : AfterK0 (calcK0 m pn).1 := .intro m hr pn K0 hK0 [] (by simp)
  have hlen : d.length = 5 * (calcK0 m pn).1.nids.length := by rw [hs.nids]; exact hd
  have hform := C29_energy haf (hs.proper hg.proper) (hs.planar hg.planar) (hs.hasProps hh) hlen hG
  have hGd : G.dim = K.dim := by rw [(calcKG_sum hG).1, hdim]; omega
  rw [hGd] at hform
  refine ⟨hGd, ?_⟩
  rw [hform, hform]
  have w2 := hs.wf hr.wf
  have p2 := hs.proper hg.proper
  obtain ⟨m2, hm2⟩ : ∃ m2, m2 = (calcK0 m pn).1 := ⟨_, rfl⟩
  rw [← hm2] at hs w2 p2 ⊢
  have hN2 : Separate m2 N := by unfold Separate IsCorner; rw [hs.eids, hs.tria]; exact hN
  have ho : ∀ v, onlyAt m2 N v = onlyAt m N v := fun v => by unfold onlyAt; rw [hs.nids]
  unfold geometric
  rw [List.map_congr_left fun k hk => ?_]
  have hn : ∀ t ∈ (m2.edge k).trias, ∀ i, IsCorner m2 t i → i ∈ m2.nids := fun t ht i hi => by
    obtain ⟨o, hs, _⟩ := side_of w2 p2.distinct hk ht
    exact w2.corner_mem hs.mem (corner_in hi)
  rcases edge_separate w2 p2 hN2 hk with h | h
  · have e := fun v => domGrad_congr w2 p2 hk (f := disp m2 (onlyAt m2 N v) 2) (g := disp m2 v 2) fun t ht i hi => onlyAt_in (hn t ht i hi) (h t ht i hi) (by norm_num)
    simp only [← ho, (e _).1, (e _).2]
  · have z : gradX m2 (dom m2 k) (fun _ => 0) = 0 ∧ gradY m2 (dom m2 k) (fun _ => 0) = 0 := by
      have : ∀ l, mean (fun _ : ℕ => (0 : ℝ)) l = 0 := fun l => by unfold mean; simp
      unfold gradX gradY circDx circDy
      simp [this]
    have e := fun v => domGrad_congr w2 p2 hk (f := disp m2 (onlyAt m2 N v) 2) (g := fun _ => 0) fun t ht i hi => onlyAt_out (hn t ht i hi) (h t ht i hi) (by norm_num)
    simp only [← ho, (e _).1, (e _).2, z.1, z.2]
    simp

/-- a row of the matrix on displacements restricted to a separate set -/
theorem row_only {N : Set ℕ} (hN : Separate m N) (u : ℕ → ℝ) {x : ℕ} (hx : x < K.dim) :
    ∑ j ∈ range K.dim, K.get x j * onlyAt m N u j = open Classical in if m.nids.getD (x / 5) 0 ∈ N then ∑ j ∈ range K.dim, K.get x j * u j else 0 := by
  have h := form_only hr hg hK hN (single x) u
  rw [form_row K.get hx] at h
  rw [← h]
  split
  · rename_i hm
    rw [← form_row K.get hx]
    refine form_congr (fun j _ => ?_) fun _ _ => rfl
    unfold onlyAt single
    by_cases hj : j = x
    · rw [hj, if_pos hm]
    · rw [if_neg hj]; simp
  · rename_i hm
    unfold form
    refine Finset.sum_eq_zero fun i _ => Finset.sum_eq_zero fun j _ => ?_
    have : onlyAt m N (single x) i = 0 := by
      unfold onlyAt single
      by_cases hj : i = x
      · rw [hj, if_neg hm]
      · rw [if_neg hj]; simp
    rw [this]; ring

theorem rowG_only {N : Set ℕ} (hN : Separate m N) {d : List ℝ} (hd : d.length = 5 * m.nids.length) {G : Mat} (hG : calcKG (calcK0 m pn).1 d pn = .ok G) (u : ℕ → ℝ)
    {x : ℕ} (hx : x < K.dim) :
    ∑ j ∈ range K.dim, G.get x j * onlyAt m N u j = open Classical in if m.nids.getD (x / 5) 0 ∈ N then ∑ j ∈ range K.dim, G.get x j * u j else 0 := by
  have h := (geometric_only hr hg hK hN hd hG (single x) u).2
  rw [form_row G.get hx] at h
  rw [← h]
  split
  · rename_i hm
    rw [← form_row G.get hx]
    refine form_congr (fun j _ => ?_) fun _ _ => rfl
    unfold onlyAt single
    by_cases hj : j = x
    · rw [hj, if_pos hm]
    · rw [if_neg hj]; simp
  · rename_i hm
    unfold form
    refine Finset.sum_eq_zero fun i _ => Finset.sum_eq_zero fun j _ => ?_
    have : onlyAt m N (single x) i = 0 := by
      unfold onlyAt single
      by_cases hj : i = x
      · rw [hj, if_neg hm]
      · rw [if_neg hj]; simp
    rw [this]; ring

omit hg hr hK in
theorem dof_lt (hdim : K.dim = 5 * m.nids.length) {i r : ℕ} (hi : i ∈ m.nids) (h5 : r < 5) : dofNo m i r < K.dim := by
  have := List.idxOf_lt_length_of_mem hi
  unfold dofNo; rw [hdim]; omega

/-- C138: nodes in different separate sets are not coupled, neither in the stiffness matrix nor in the geometric stiffness matrix. -/
theorem C138_uncoupled {N : Set ℕ} (hN : Separate m N) {i j r s : ℕ} (hi : i ∈ m.nids) (hj : j ∈ m.nids) (hiN : i ∈ N) (hjN : j ∉ N) (hr5 : r < 5) (hs5 : s < 5) :
    K.get (dofNo m i r) (dofNo m j s) = 0 ∧ ∀ d : List ℝ, d.length = 5 * m.nids.length → ∀ G, calcKG (calcK0 m pn).1 d pn = .ok G → G.get (dofNo m i r) (dofNo m j s) = 0 := by
  have hdim := (parts_energy hr hg hK).1
  have hx := dof_lt hdim hi hr5
  have hy := dof_lt hdim hj hs5
  have node : ∀ {i r : ℕ}, i ∈ m.nids → r < 5 → m.nids.getD (dofNo m i r / 5) 0 = i := fun {i r} hi hr => by
    unfold dofNo
    rw [show (5 * m.nids.idxOf i + r) / 5 = m.nids.idxOf i by omega, List.getD_eq_getElem _ _ (List.idxOf_lt_length_of_mem hi), List.getElem_idxOf]
  have hz : ∀ x, onlyAt m N (single (dofNo m j s)) x = 0 := fun x => by
    unfold onlyAt single
    by_cases h : x = dofNo m j s
    · rw [h, node hj hs5, if_neg hjN]
    · rw [if_neg h]; simp
  constructor
  · have h := row_only hr hg hK hN (single (dofNo m j s)) hx
    rw [node hi hr5, if_pos hiN] at h
    rw [← form_single K.get hx hy, form_row K.get hx, ← h]
    exact Finset.sum_eq_zero fun x _ => by rw [hz, mul_zero]
  · intro d hd G hG
    have h := rowG_only hr hg hK hN hd hG (single (dofNo m j s)) hx
    rw [node hi hr5, if_pos hiN] at h
    rw [← form_single G.get hx hy, form_row G.get hx, ← h]
    exact Finset.sum_eq_zero fun x _ => by rw [hz, mul_zero]

/-- C138: the static solution on a separate set of nodes does not depend on the loads and supports elsewhere. -/
theorem C138_static {N : Set ℕ} (hN : Separate m N) {S S' : Set ℕ} (hS : Stable K S) {f f' d d' : ℕ → ℝ} (hd : StaticSol K S f d) (hd' : StaticSol K S' f' d')
    (hSS : ∀ i ∈ m.nids, i ∈ N → ∀ r < 5, (dofNo m i r ∈ S ↔ dofNo m i r ∈ S')) (hff : ∀ i ∈ m.nids, i ∈ N → ∀ r < 5, f (dofNo m i r) = f' (dofNo m i r)) :
    ∀ i ∈ m.nids, i ∈ N → ∀ r < 5, disp m d r i = disp m d' r i := by
  have hdim := (parts_energy hr hg hK).1
  have hin : ∀ x < K.dim, m.nids.getD (x / 5) 0 ∈ N → (x ∈ S ↔ x ∈ S') ∧ f x = f' x := by
    intro x hx hN
    have hlt : x / 5 < m.nids.length := by omega
    rw [List.getD_eq_getElem _ _ hlt] at hN
    have hidx : m.nids.idxOf m.nids[x / 5] = x / 5 := hr.wf.nids_nodup.idxOf_getElem _ hlt
    have h1 := hSS _ (List.getElem_mem hlt) hN (x % 5) (by omega)
    have h2 := hff _ (List.getElem_mem hlt) hN (x % 5) (by omega)
    unfold dofNo at h1 h2
    rw [hidx, show 5 * (x / 5) + x % 5 = x by omega] at h1 h2
    exact ⟨h1, h2⟩
  have h1 : StaticSol K S (onlyAt m N f) (onlyAt m N d) := by
    refine ⟨fun x hx hxS => ?_, fun x hx hxS => ?_⟩
    · unfold onlyAt; rw [hd.1 x hx hxS]; simp
    · rw [row_only hr hg hK hN d hx, hd.2 x hx hxS]; unfold onlyAt; rfl
  have h2 : StaticSol K S (onlyAt m N f) (onlyAt m N d') := by
    refine ⟨fun x hx hxS => ?_, fun x hx hxS => ?_⟩
    · unfold onlyAt
      split
      · rename_i h; exact hd'.1 x hx ((hin x hx h).1.1 hxS)
      · rfl
    · rw [row_only hr hg hK hN d' hx]
      unfold onlyAt
      split
      · rename_i h; rw [hd'.2 x hx fun h' => hxS ((hin x hx h).1.2 h'), (hin x hx h).2]
      · rfl
  intro i hi hiN r hr5
  have := stable_unique hS h1 h2 _ (dof_lt hdim hi hr5)
  have e1 := onlyAt_in (v := d) hi hiN hr5
  have e2 := onlyAt_in (v := d') hi hiN hr5
  rw [← e1, ← e2]; exact this

/-- C138: a buckling mode restricted to a separate set of nodes is a mode for the same factor, or zero. -/
theorem C138_buckling {N : Set ℕ} (hN : Separate m N) {S : Set ℕ} {d : List ℝ} (hd : d.length = 5 * m.nids.length) {G : Mat} (hG : calcKG (calcK0 m pn).1 d pn = .ok G)
    {c : ℝ} {x : ℕ → ℝ} (hx : BucklingMode K G S c x) (hne : ∃ i < K.dim, onlyAt m N x i ≠ 0) : BucklingMode K G S c (onlyAt m N x) := by
  refine ⟨hne, fun i hi hiS => by unfold onlyAt; rw [hx.2.1 i hi hiS]; simp, fun i hi hiS => ?_⟩
  have h := hx.2.2 i hi hiS
  have e : ∀ u : ℕ → ℝ, ∑ j ∈ range K.dim, (K.get i j + c * G.get i j) * u j = ∑ j ∈ range K.dim, K.get i j * u j + c * ∑ j ∈ range K.dim, G.get i j * u j := fun u => by
    rw [Finset.mul_sum, ← Finset.sum_add_distrib]
    exact Finset.sum_congr rfl fun _ _ => by ring
  rw [e] at h ⊢
  rw [row_only hr hg hK hN x hi, rowG_only hr hg hK hN hd hG x hi]
  split
  · exact h
  · simp

/-- displacements only at nodes outside of all triangles carry no energy -/
theorem form_out {N : Set ℕ} (h : ∀ e ∈ m.eids, ∀ i, IsCorner m e i → i ∉ N) (v u : ℕ → ℝ) : form K.dim K.get (onlyAt m N v) u = 0 := by
  obtain ⟨_, _, _, hform⟩ := parts_energy hr hg hK
  have h2 : ∀ k ∈ m.ekeys, eps m k (onlyAt m N v) = 0 := fun k hk => (eps_only hr.wf hg.proper (N := N) hk v).2 fun t ht i hi =>
    h t (side_of hr.wf hg.proper.distinct hk ht).choose_spec.1.mem i hi
  rw [hform]
  have z1 : energy m pn (onlyAt m N v) u = 0 := by
    unfold energy
    exact List.sum_eq_zero fun x hx => by obtain ⟨k, hk, rfl⟩ := List.mem_map.1 hx; rw [h2 k hk]; simp
  have z2 : shearEnergy m pn al fa (if method = "cell-based" then cellStrain m else wholeGamma m) (onlyAt m N v) u = 0 := by
    unfold shearEnergy
    exact List.sum_eq_zero fun x hx => by
      obtain ⟨e, he, rfl⟩ := List.mem_map.1 hx
      rw [(method_only hr (method := method) (N := N) he v).2 (h e he)]; simp
  rw [z1, z2, add_zero]

theorem geometric_out {N : Set ℕ} (h : ∀ e ∈ m.eids, ∀ i, IsCorner m e i → i ∉ N) {d : List ℝ} (hd : d.length = 5 * m.nids.length) {G : Mat}
    (hG : calcKG (calcK0 m pn).1 d pn = .ok G) (v u : ℕ → ℝ) : form K.dim G.get (onlyAt m N v) u = 0 := by
  obtain ⟨hdim, hh, ⟨K0, hK0⟩, _⟩ := parts_energy hr hg hK
  obtain ⟨hs, _, hh, _⟩ := calcK0_ok hr.wf hK0
  have haf : AfterK0 (calcK0 m pn).1 := .intro m hr pn K0 hK0 [] (by simp)
  have hlen : d.length = 5 * (calcK0 m pn).1.nids.length := by rw [hs.nids]; exact hd
  have hform := C29_energy haf (hs.proper hg.proper) (hs.planar hg.planar) (hs.hasProps hh) hlen hG
  have hGd : G.dim = K.dim := by rw [(calcKG_sum hG).1, hdim]; omega
  rw [hGd] at hform
  rw [hform]
  have w2 := hs.wf hr.wf
  have p2 := hs.proper hg.proper
  obtain ⟨m2, hm2⟩ : ∃ m2, m2 = (calcK0 m pn).1 := ⟨_, rfl⟩
  rw [← hm2] at hs w2 p2 ⊢
  have h2 : ∀ e ∈ m2.eids, ∀ i, IsCorner m2 e i → i ∉ N := by unfold IsCorner; rw [hs.eids, hs.tria]; exact h
  have ho : onlyAt m N v = onlyAt m2 N v := by unfold onlyAt; rw [hs.nids]
  unfold geometric
  refine List.sum_eq_zero fun x hx => ?_
  obtain ⟨k, hk, rfl⟩ := List.mem_map.1 hx
  have z : gradX m2 (dom m2 k) (fun _ => 0) = 0 ∧ gradY m2 (dom m2 k) (fun _ => 0) = 0 := by
    have : ∀ l, mean (fun _ : ℕ => (0 : ℝ)) l = 0 := fun l => by unfold mean; simp
    unfold gradX gradY circDx circDy
    simp [this]
  have e := domGrad_congr w2 p2 hk (f := disp m2 (onlyAt m2 N v) 2) (g := fun _ => 0) fun t ht i hi => by
    obtain ⟨o, hs', _⟩ := side_of w2 p2.distinct hk ht
    exact onlyAt_out (w2.corner_mem hs'.mem (corner_in hi)) (h2 t hs'.mem i hi) (by norm_num)
  simp only [ho, e.1, e.2, z.1, z.2]
  simp

/-- C138: the rows and columns of a node that is the corner of no triangle are zero. -/
theorem C138_unused {i : ℕ} (hi : i ∈ m.nids) (hu : Unused m i) {r y : ℕ} (hr5 : r < 5) (hy : y < K.dim) :
    K.get (dofNo m i r) y = 0 ∧ K.get y (dofNo m i r) = 0 ∧ ∀ d : List ℝ, d.length = 5 * m.nids.length → ∀ G, calcKG (calcK0 m pn).1 d pn = .ok G →
      G.get (dofNo m i r) y = 0 ∧ G.get y (dofNo m i r) = 0 := by
  have hx := dof_lt (parts_energy hr hg hK).1 hi hr5
  have hN : ∀ e ∈ m.eids, ∀ j, IsCorner m e j → j ∉ ({i} : Set ℕ) := fun e he j hj h => hu e he (h ▸ hj)
  have hs : onlyAt m {i} (single (dofNo m i r)) = single (dofNo m i r) := by
    funext x
    unfold onlyAt single
    by_cases h : x = dofNo m i r
    · rw [h, if_pos]
      unfold dofNo
      rw [show (5 * m.nids.idxOf i + r) / 5 = m.nids.idxOf i by omega, List.getD_eq_getElem _ _ (List.idxOf_lt_length_of_mem hi), List.getElem_idxOf]
      rfl
    · rw [if_neg h]; simp
  have hsep : Separate m {i} := fun e he => Or.inr (hN e he)
  refine ⟨?_, ?_, fun d hd G hG => ⟨?_, ?_⟩⟩
  · rw [← form_single K.get hx hy, ← hs]; exact form_out hr hg hK hN _ _
  · rw [← form_single K.get hy hx, ← hs, ← form_only hr hg hK hsep]; exact form_out hr hg hK hN _ _
  · rw [← form_single G.get hx hy, ← hs]; exact geometric_out hr hg hK hN hd hG _ _
  · rw [← form_single G.get hy hx, ← hs, ← (geometric_only hr hg hK hsep hd hG _ _).2]; exact geometric_out hr hg hK hN hd hG _ _

/-- C138: so an unused node makes the matrix singular unless all its degrees of freedom are supported; a load there has no solution. -/
theorem C138_singular {i : ℕ} (hi : i ∈ m.nids) (hu : Unused m i) {r : ℕ} (hr5 : r < 5) {S : Set ℕ} (hS : dofNo m i r ∉ S) :
    ¬Stable K S ∧ ∀ f d, StaticSol K S f d → f (dofNo m i r) = 0 := by
  have hx := dof_lt (parts_energy hr hg hK).1 hi hr5
  refine ⟨fun h => ?_, fun f d hd => ?_⟩
  · have := h (single (dofNo m i r)) (fun j _ hj => by unfold single; rw [if_neg]; rintro rfl; exact hS hj) ⟨_, hx, by unfold single; simp⟩
    rw [form_single K.get hx hx, (C138_unused hr hg hK hi hu hr5 hx).1] at this
    exact lt_irrefl _ this
  · rw [← hd.2 _ hx hS]
    exact Finset.sum_eq_zero fun j hj => by rw [(C138_unused hr hg hK hi hu hr5 (Finset.mem_range.1 hj)).1, zero_mul]

/-- what a displacement without energy looks like on a part -/
theorem modes_parts (ha : 0 ≤ al) {d : ℕ → ℝ} :
    0 ≤ form K.dim K.get d d ∧ (form K.dim K.get d d = 0 → ∀ e ∈ m.eids, ∃ a b c p q r, ∀ e', SamePart m e e' → RigidOn m e' (disp m d 0) (disp m d 1) a b c ∧
      RigidOn m e' (disp m d 3) (disp m d 4) p q r ∧ ∃ c, Aff m e' (disp m d 2) c (-(rotFactor method * (p - r * mean (ny m) (shearOrigin m method e'))))
          (-(rotFactor method * (q + r * mean (nx m) (shearOrigin m method e'))))) := by
  obtain ⟨hdim, hh, _, hform⟩ := parts_energy hr hg hK
  have hf : FlatMesh m := ⟨hg.planar.basic, hg.planar.flat, hg.planar.nondeg⟩
  obtain ⟨n1, z1⟩ := energy_zero_eps hr.wf hg.proper hg.planar hh hg.abd (d := d)
  obtain ⟨n2, z2⟩ := shearEnergy_zero hr.wf hf hh hg.shear ha fa (g := if method = "cell-based" then cellStrain m else wholeGamma m) (v := d)
  rw [hform]
  refine ⟨by linarith, fun h e he => ?_⟩
  have hsz := z2 (by linarith)
  have h0 := z1 (by linarith)
  obtain ⟨a, b, c, h1⟩ := rigid_part hr.wf hg.proper hg.planar (fun k hk => (eps_unstrained (h0 k hk)).1) he
  obtain ⟨p, q, r, h2⟩ := rigid_part hr.wf hg.proper hg.planar (fun k hk => (eps_unstrained (h0 k hk)).2) he
  refine ⟨a, b, c, p, q, r, fun e' he' => ⟨h1 e' he', h2 e' he', ?_⟩⟩
  have hm' := samePart_mem hr.wf hg.proper he he'
  obtain ⟨c, P, Q, hA⟩ := aff_exists hr.wf hg.proper hg.planar hm' (disp m d 2)
  have hcor : ∀ i, i ∈ corners m e' → IsCorner m e' i := fun i hi => by unfold IsCorner; unfold corners at hi; simpa using hi
  have hw : ∀ i ∈ corners m e', disp m d 2 i = c + P * nx m i + Q * ny m i := fun i hi => hA i (hcor i hi)
  have hx : ∀ i ∈ corners m e', disp m d 3 i = p - r * ny m i := fun i hi => (h2 e' he' i (hcor i hi)).1
  have hy : ∀ i ∈ corners m e', disp m d 4 i = q + r * nx m i := fun i hi => (h2 e' he' i (hcor i hi)).2
  obtain ⟨g0, g1⟩ := hsz e' hm'
  refine ⟨c, ?_⟩
  unfold rotFactor shearOrigin
  rcases hK.cell with rfl | rfl
  · rw [if_pos rfl] at g0 g1 ⊢
    rw [if_pos rfl]
    obtain ⟨c0, c1⟩ := cellGamma_affine hr.wf hf hm' hw hx hy
    obtain ⟨r0, r1⟩ := rotSum_affine hx hy
    unfold cellStrain at g0 g1
    rw [c0, r0, sixthErr_eq.2] at g0
    rw [c1, r1, sixthErr_eq.2] at g1
    have e0 : P = -((1 + 1 / 10 ^ 15) * (p - r * mean (ny m) (corners m e'))) := by linarith
    have e1 : Q = -((1 + 1 / 10 ^ 15) * (q + r * mean (nx m) (corners m e'))) := by linarith
    rw [← e0, ← e1]; exact hA
  · rw [if_neg (by decide)] at g0 g1 ⊢
    rw [if_neg (by decide)]
    obtain ⟨c0, c1⟩ := wholeGamma_affine hf hm' hw hx hy
    rw [c0] at g0
    rw [c1] at g1
    rw [mean_single, mean_single]
    have e0 : P = -(1 * (p - r * ny m (cellNSOrient m e').1)) := by linarith
    have e1 : Q = -(1 * (q + r * nx m (cellNSOrient m e').1)) := by linarith
    rw [← e0, ← e1]; exact hA

/-- C138: the plate is stable if every node is clamped or belongs to a part that the supports hold. -/
theorem C138_held (ha : 0 ≤ al) {S : Set ℕ} (hS : ∀ i ∈ m.nids, (∀ r < 5, dofNo m i r ∈ S) ∨ ∃ e ∈ m.eids, IsCorner m e i ∧ HeldPart m S e) : Stable K S := by
  intro d hd hne
  obtain ⟨hnn, hz⟩ := modes_parts hr hg hK ha (d := d)
  rcases lt_or_eq_of_le hnn with h | h
  · exact h
  exfalso
  have hdim := (parts_energy hr hg hK).1
  have hz0 : ∀ i ∈ m.nids, ∀ s < 5, dofNo m i s ∈ S → disp m d s i = 0 := fun i hi s hs hm => hd _ (dof_lt hdim hi hs) hm
  have hall : ∀ i ∈ m.nids, ∀ s < 5, disp m d s i = 0 := by
    intro i0 hi0
    rcases hS i0 hi0 with hc | ⟨e, he, hce, e1, e2, i, j, p1, p2, ci, cj, hS⟩
    · exact fun s hs => hz0 i0 hi0 s hs (hc s hs)
    obtain ⟨a, b, c, p, q, r, hm⟩ := hz h.symm e he
    have hi : i ∈ m.nids := hr.wf.corner_mem (samePart_mem hr.wf hg.proper he p1) (corner_in ci)
    have hj : j ∈ m.nids := hr.wf.corner_mem (samePart_mem hr.wf hg.proper he p2) (corner_in cj)
    have zero : ∀ {f g : ℕ → ℝ} {a b c : ℝ}, (∀ e', SamePart m e e' → RigidOn m e' f g a b c) → (nx m i ≠ nx m j ∨ ny m i ≠ ny m j) → f i = 0 → g i = 0 → f j = 0 → g j = 0 →
        a = 0 ∧ b = 0 ∧ c = 0 := by
      intro f g a b c h hp f0 g0 f1 g1
      obtain ⟨x1, y1⟩ := h e1 p1 i ci
      obtain ⟨x2, y2⟩ := h e2 p2 j cj
      rw [f0] at x1; rw [g0] at y1; rw [f1] at x2; rw [g1] at y2
      have hc : c = 0 := by
        rcases hp with hp | hp
        · have : c * (nx m i - nx m j) = 0 := by linarith
          exact (mul_eq_zero.1 this).resolve_right (sub_ne_zero.2 hp)
        · have : c * (ny m i - ny m j) = 0 := by linarith
          exact (mul_eq_zero.1 this).resolve_right (sub_ne_zero.2 hp)
      subst hc
      exact ⟨by linarith, by linarith, rfl⟩
    have h1 := fun e' he' => (hm e' he').1
    have h2 := fun e' he' => (hm e' he').2.1
    have huv : a = 0 ∧ b = 0 ∧ c = 0 := by
      rcases hS with h | h
      · exact zero h1 h.1 (hz0 i hi 0 (by omega) (h.2 0 (by omega)).1) (hz0 i hi 1 (by omega) (h.2 1 (by omega)).1)
          (hz0 j hj 0 (by omega) (h.2 0 (by omega)).2) (hz0 j hj 1 (by omega) (h.2 1 (by omega)).2)
      · exact zero h1 (Or.inr h.1) (hz0 i hi 0 (by omega) (h.2 0 (by omega)).1) (hz0 i hi 1 (by omega) (h.2 1 (by omega)).1)
          (hz0 j hj 0 (by omega) (h.2 0 (by omega)).2) (hz0 j hj 1 (by omega) (h.2 1 (by omega)).2)
    have hr0 : r = 0 ∧ p = 0 := by
      rcases hS with h | h
      · obtain ⟨a1, a2, a3⟩ := zero h2 h.1 (hz0 i hi 3 (by omega) (h.2 3 (by omega)).1) (hz0 i hi 4 (by omega) (h.2 4 (by omega)).1)
          (hz0 j hj 3 (by omega) (h.2 3 (by omega)).2) (hz0 j hj 4 (by omega) (h.2 4 (by omega)).2)
        exact ⟨a3, a1⟩
      · have x1 := (h2 e1 p1 i ci).1
        have x2 := (h2 e2 p2 j cj).1
        rw [hz0 i hi 3 (by omega) (h.2 3 (by omega)).1] at x1
        rw [hz0 j hj 3 (by omega) (h.2 3 (by omega)).2] at x2
        have hr : r * (ny m i - ny m j) = 0 := by linarith
        have := (mul_eq_zero.1 hr).resolve_right (sub_ne_zero.2 h.1)
        subst this
        exact ⟨rfl, by linarith⟩
    obtain ⟨rfl, rfl⟩ := hr0
    obtain ⟨s, h5⟩ := deflection_part hr.wf hg.proper (d := d) (p := 0) (q := q) (θ := rotFactor method) (e := e) (fun e' he' => by
      obtain ⟨c, hc⟩ := (hm e' he').2.2
      exact ⟨c, by simpa using hc⟩)
    have hq : q = 0 ∧ s = 0 := by
      rcases hS with h | h
      · have x1 := (h2 e1 p1 i ci).2
        rw [hz0 i hi 4 (by omega) (h.2 4 (by omega)).1] at x1
        have hq : q = 0 := by linarith
        have w1 := h5 e1 p1 i ci
        rw [hz0 i hi 2 (by omega) (h.2 2 (by omega)).1, hq] at w1
        exact ⟨hq, by linarith⟩
      · have w1 := h5 e1 p1 i ci
        have w2 := h5 e2 p2 j cj
        rw [hz0 i hi 2 (by omega) (h.2 2 (by omega)).1] at w1
        rw [hz0 j hj 2 (by omega) (h.2 2 (by omega)).2] at w2
        have hq : rotFactor method * q * (ny m i - ny m j) = 0 := by linarith
        have hq2 := (mul_eq_zero.1 ((mul_eq_zero.1 hq).resolve_right (sub_ne_zero.2 h.1))).resolve_left (rotFactor_ne _)
        subst hq2
        exact ⟨rfl, by linarith⟩
    obtain ⟨rfl, rfl⟩ := hq
    obtain ⟨rfl, rfl, rfl⟩ := huv
    intro s hs
    interval_cases s
    · rw [(h1 e .refl i0 hce).1]; ring
    · rw [(h1 e .refl i0 hce).2]; ring
    · rw [h5 e .refl i0 hce]; ring
    · rw [(h2 e .refl i0 hce).1]; ring
    · rw [(h2 e .refl i0 hce).2]; ring
  obtain ⟨x, hx, hxd⟩ := hne
  apply hxd
  rw [hdim] at hx
  have hlt : x / 5 < m.nids.length := by omega
  have hidx : m.nids.idxOf m.nids[x / 5] = x / 5 := hr.wf.nids_nodup.idxOf_getElem _ hlt
  have := hall _ (List.getElem_mem hlt) (x % 5) (Nat.mod_lt _ (by omega))
  unfold disp at this
  rwa [hidx, show 5 * (x / 5) + x % 5 = x by omega] at this

end

/-- C138: with "cell-based" the displacements without energy are exactly the rigid motions of the parts, each part on its own (a part of one triangle may
also be twisted); displacements of unused nodes never carry energy. -/
theorem C138_modes {m : Mesh} (hr : Reachable m) {pn : Bool} (hg : GoodParts m pn) {al : ℝ} (ha : 0 ≤ al) {fa : Bool} {K : Mat}
    (hK : Stiffness m pn "cell-based" al fa K) (d : ℕ → ℝ) : form K.dim K.get d d = 0 ↔ ∀ e ∈ m.eids, RigidPart m d (1 + 1 / 10 ^ 15) e := by
  have hθ : rotFactor "cell-based" = 1 + 1 / 10 ^ 15 := if_pos rfl
  have ho : ∀ e, shearOrigin m "cell-based" e = corners m e := fun e => if_pos rfl
  have hf : FlatMesh m := ⟨hg.planar.basic, hg.planar.flat, hg.planar.nondeg⟩
  constructor
  · intro h e he
    obtain ⟨a, b, c, p, q, r, hm⟩ := (modes_parts hr hg hK ha).2 h e he
    simp only [ho] at hm
    by_cases hone : ∀ e', SamePart m e e' → e' = e
    · obtain ⟨s, hA⟩ := (hm e .refl).2.2
      refine ⟨a, b, c, p, q, r, s, Or.inr hone, fun e' he' i hi => ?_⟩
      obtain rfl := hone e' he'
      refine ⟨((hm _ he').1 i hi).1, ((hm _ he').1 i hi).2, ((hm _ he').2.1 i hi).1, ((hm _ he').2.1 i hi).2, ?_⟩
      rw [hA i hi, hθ]; ring
    · push Not at hone
      obtain ⟨e', he', hne⟩ := hone
      have hr0 := no_twist_part hr.wf hg.proper hg.planar (rotFactor_ne _) he' hne fun e' he' => (hm e' he').2.2
      subst hr0
      obtain ⟨s, h5⟩ := deflection_part hr.wf hg.proper (d := d) (p := p) (q := q) (θ := rotFactor "cell-based") (e := e) (fun e' he' => by
        obtain ⟨c, hc⟩ := (hm e' he').2.2
        exact ⟨c, by simpa using hc⟩)
      refine ⟨a, b, c, p, q, 0, s, Or.inl rfl, fun e' he' i hi => ?_⟩
      refine ⟨((hm _ he').1 i hi).1, ((hm _ he').1 i hi).2, ((hm _ he').2.1 i hi).1, ((hm _ he').2.1 i hi).2, ?_⟩
      rw [h5 e' he' i hi, hθ]; ring
  · intro h
    obtain ⟨_, _, _, hform⟩ := parts_energy hr hg hK
    rw [hform, if_pos rfl]
    have z1 : energy m pn d d = 0 := by
      refine energy_zero_right fun k hk => ?_
      obtain ⟨t, ht⟩ : ∃ t, t ∈ (m.edge k).trias := by
        rcases edge_shape hr.wf hg.proper hk with ⟨t, o, htr, _⟩ | ⟨t1, t2, o1, o2, htr, _⟩ <;> rw [htr] <;> exact ⟨_, List.mem_cons_self⟩
      obtain ⟨a, b, c, p, q, r, s, _, hm⟩ := h t (side_of hr.wf hg.proper.distinct hk ht).choose_spec.1.mem
      obtain ⟨z, hz⟩ : ∃ z : ℕ → ℝ, ∀ i ∈ m.nids, disp m z 0 i = a - c * ny m i ∧ disp m z 1 i = b + c * nx m i ∧ disp m z 3 i = p - r * ny m i ∧
          disp m z 4 i = q + r * nx m i ∧ disp m z 2 i = disp m d 2 i := by
        refine ⟨fun x => let i := m.nids.getD (x / 5) 0
          if x % 5 = 0 then a - c * ny m i else if x % 5 = 1 then b + c * nx m i else if x % 5 = 3 then p - r * ny m i else if x % 5 = 4 then q + r * nx m i else d x, fun i hi => ?_⟩
        have e1 : ∀ r < 5, (5 * m.nids.idxOf i + r) / 5 = m.nids.idxOf i := fun r hr => by omega
        have e2 : ∀ r < 5, (5 * m.nids.idxOf i + r) % 5 = r := fun r hr => by omega
        have e3 : m.nids.getD (m.nids.idxOf i) 0 = i := by rw [List.getD_eq_getElem _ _ (List.idxOf_lt_length_of_mem hi), List.getElem_idxOf]
        unfold disp
        simp only [e1 0 (by omega), e1 1 (by omega), e1 3 (by omega), e1 4 (by omega), e2 0 (by omega), e2 1 (by omega), e2 2 (by omega), e2 3 (by omega), e2 4 (by omega), e3]
        simp
      have hez := eps_linear hr.wf hg.proper hg.planar hk (d := z) (c := fun s => if s = 0 then a else if s = 1 then b else if s = 3 then p else q)
        (p := fun s => if s = 1 then c else if s = 4 then r else 0) (q := fun s => if s = 0 then -c else if s = 3 then -r else 0) (by
          intro s hs i hi
          obtain ⟨z0, z1, z3, z4, _⟩ := hz i hi
          simp only [List.mem_cons, List.not_mem_nil, or_false] at hs
          rcases hs with rfl | rfl | rfl | rfl
          · rw [z0]; simp; ring
          · rw [z1]; simp
          · rw [z3]; simp; ring
          · rw [z4]; simp)
      rw [eps_congr hr.wf hg.proper hk (v' := z) fun t' ht' i hi r' hr' => ?_, hez]
      · funext s
        fin_cases s <;> simp
      · obtain ⟨o, hs, _⟩ := side_of hr.wf hg.proper.distinct hk ht'
        obtain ⟨z0, z1, z3, z4, z2⟩ := hz i (hr.wf.corner_mem hs.mem (corner_in hi))
        obtain ⟨d0, d1, d3, d4, _⟩ := hm t' (.single ⟨k, hk, ht, ht'⟩) i hi
        interval_cases r'
        · rw [d0, z0]
        · rw [d1, z1]
        · rw [z2]
        · rw [d3, z3]
        · rw [d4, z4]
    rw [z1, zero_add]
    refine shearEnergy_null fun e he => ?_
    obtain ⟨a, b, c, p, q, r, s, _, hm⟩ := h e he
    have hcor : ∀ i, i ∈ corners m e → IsCorner m e i := fun i hi => by unfold IsCorner; unfold corners at hi; simpa using hi
    have hx : ∀ i ∈ corners m e, disp m d 3 i = p - r * ny m i := fun i hi => (hm e .refl i (hcor i hi)).2.2.1
    have hy : ∀ i ∈ corners m e, disp m d 4 i = q + r * nx m i := fun i hi => (hm e .refl i (hcor i hi)).2.2.2.1
    obtain ⟨c0, c1⟩ := cellGamma_affine hr.wf hf he (c := s) (p := -((1 + 1 / 10 ^ 15) * (p - r * mean (ny m) (corners m e))))
      (q := -((1 + 1 / 10 ^ 15) * (q + r * mean (nx m) (corners m e)))) (fun i hi => by rw [(hm e .refl i (hcor i hi)).2.2.2.2]; ring) hx hy
    obtain ⟨r0, r1⟩ := rotSum_affine hx hy
    unfold cellStrain
    rw [c0, r0, c1, r1, sixthErr_eq.2]
    constructor <;> ring

/-! ### concrete case: two triangles apart from each other and a point in neither -/

/-- a mesh made from a list of points and triangles, of any number of parts, its properties assigned -/
theorem input_parts {pts : List Pt} {P : ℕ → ℝ × ℝ} {z : ℕ → ℝ} {tris : List (ℕ × ℕ × ℕ)}
    (h : InputTriangulation pts.length P z tris) (hP : ∀ i (hi : i < pts.length), givenXYZ pts[i] = ((P i).1, (P i).2, z i))
    (pn : Bool) (lam : ℕ → Lam) (hl : ∀ i, StiffABD (lam i) ∧ StiffShear (lam i)) :
    ∃ m, Reachable m ∧ GoodParts m pn ∧ m.nids = List.range' 1 pts.length ∧ m.eids = List.range' 1 tris.length ∧ (∀ i < pts.length, pt m (i + 1) = P i) ∧
      (∀ j (hj : j < tris.length), (m.tria (j + 1)).n1 = tris[j].1 + 1 ∧ (m.tria (j + 1)).n2 = tris[j].2.1 + 1 ∧ (m.tria (j + 1)).n3 = tris[j].2.2 + 1) ∧
      (pn = true → ∀ i < pts.length, (m.node (i + 1)).prop = some (lam i)) ∧ (pn = false → ∀ e < tris.length, (m.tria (e + 1)).prop = some (lam e)) := by
  obtain ⟨m, hm⟩ := C08_accepted pts tris h.range
  have w := wf_readDelaunay hm
  set ops := assign pn lam pts.length tris.length with hops
  have hr : Reachable (run m ops) := .delaunay _ _ _ hm ops
  obtain ⟨hg, he⟩ := sameGeo_run ops w (assign_noMove _ _ _ _)
  have ht := hg.triangulation he (h.mesh hP hm)
  have hn : (run m ops).nids = List.range' 1 pts.length := by rw [hg.nids, nids_of_input hm]
  have hei : (run m ops).eids = List.range' 1 tris.length := by rw [he, eids_of_input hm]; simp [toInts]
  have hnode : pn = true → ∀ i < pts.length, ((run m ops).node (i + 1)).prop = some (lam i) := by
    intro hpn i hi
    rw [hops, assign, if_pos hpn]
    have hin : ∀ i < pts.length, i + 1 ∈ m.nids := fun i hi => by rw [nids_of_input hm, List.mem_range'_1]; omega
    exact setNodes_spec lam _ m (fun i hi => hin i (List.mem_range.1 hi)) i (hin i hi) ⟨i, rfl, Or.inl (List.mem_range.2 hi)⟩
  have htria : pn = false → ∀ e < tris.length, ((run m ops).tria (e + 1)).prop = some (lam e) := by
    intro hpn e hi
    rw [hops, assign, if_neg (by simp [hpn])]
    exact setTrias_spec lam _ m (fun i hi => (mem_eids_input hm _).2 ⟨i, List.mem_range.1 hi, rfl⟩) e (Or.inl (List.mem_range.2 hi))
  have hp := ht.proper hr.wf
  have huse : ∀ l, InUse (run m ops) pn l → ∃ i, l = lam i := by
    intro l hu
    unfold InUse at hu
    cases hpn : pn with
    | true =>
      rw [if_pos hpn] at hu
      obtain ⟨i, hi, hl⟩ := hu
      rw [hn, List.mem_range'_1] at hi
      have := hnode hpn (i - 1) (by omega)
      rw [show i - 1 + 1 = i by omega, hl] at this
      exact ⟨i - 1, Option.some.inj this⟩
    | false =>
      rw [if_neg (by simp [hpn])] at hu
      obtain ⟨e, h1, hl⟩ := hu
      rw [hei, List.mem_range'_1] at h1
      have := htria hpn (e - 1) (by omega)
      rw [show e - 1 + 1 = e by omega, hl] at this
      exact ⟨e - 1, Option.some.inj this⟩
  refine ⟨run m ops, hr, ⟨hp, ht.planar hr.wf,
    fun l hu => by obtain ⟨i, rfl⟩ := huse l hu; exact (hl i).1, fun l hu => by obtain ⟨i, rfl⟩ := huse l hu; exact (hl i).2⟩, hn, hei, ?_, ?_, hnode, htria⟩
  · intro i hi
    rw [← (input_place hP h.valid hm i hi).1]
    simp only [pt, nodeAt, nx, ny, hg.xyz]
  · intro j hj
    obtain ⟨c1, c2, c3⟩ := hg.corner (j + 1)
    rw [c1, c2, c3]
    exact tria_of_input h.valid hm j hj

/-- the analysis of a good plate of any number of parts returns a stiffness matrix -/
theorem stiffness_parts {m : Mesh} (hr : Reachable m) {pn : Bool} (hg : GoodParts m pn) (hh : HasProps m pn) (hne : m.nids ≠ []) {method : String}
    (hme : method = "cell-based" ∨ method = "cell-based-no-smoothing") (al : ℝ) (fa : Bool) : ∃ K, Stiffness m pn method al fa K := by
  obtain ⟨K0, hK0, _⟩ := C11_success hr hg.proper hne hh
  obtain ⟨hs, _, _, _⟩ := calcK0_ok hr.wf hK0
  have hm : Numbered (calcK0 m pn).1 := .intro m hr pn K0 hK0 []
  have hh2 := hs.hasProps hh
  have ht : Thick (calcK0 m pn).1 pn := fun e he => (cavg_pos (hs.wf hr.wf) hh2 he fun l h => (hg.shear l (hs.inUse.1 h)).1).ne'
  have hd : K0.dim = 5 * (calcK0 m pn).1.nids.length := by rw [(calcK0_sum hr.wf hK0).1, hs.nids]; ring
  rcases hme with rfl | rfl
  · obtain ⟨K', h1, _⟩ := C38_energy hm (hs.flatMesh hg.planar) hh2 ht al fa hd
    exact ⟨K', Or.inl rfl, K0, hK0, h1⟩
  · obtain ⟨K', h1, _⟩ := C39_energy hm (hs.flatMesh hg.planar) hh2 ht al fa hd
    exact ⟨K', Or.inr rfl, K0, hK0, h1⟩

noncomputable def exApart : List Pt := [.d2 0 0, .d2 1 0, .d2 0 1, .d2 5 0, .d2 6 0, .d2 5 1, .d2 9 9]

noncomputable def exApartP (i : ℕ) : ℝ × ℝ :=
  if i = 0 then (0, 0) else if i = 1 then (1, 0) else if i = 2 then (0, 1) else if i = 3 then (5, 0) else if i = 4 then (6, 0) else if i = 5 then (5, 1) else (9, 9)

theorem exApart_input : InputTriangulation exApart.length exApartP (fun _ => 0) [(0, 1, 2), (3, 4, 5)] := by
  refine ⟨?_, fun _ _ _ _ => rfl, ?_, ?_⟩
  · intro t ht
    simp at ht
    rcases ht with rfl | rfl <;> simp [exApart]
  · intro t ht
    simp at ht
    rcases ht with rfl | rfl <;> simp [OnLine, exApartP]
    norm_num
  · simp only [List.pairwise_cons, List.mem_cons, List.not_mem_nil, or_false, forall_eq, false_implies, implies_true, List.Pairwise.nil, and_true]
    rw [Set.disjoint_left]
    rintro p ⟨x, y, w, hx, hy, hw, hs, rfl⟩ ⟨x', y', w', hx', hy', hw', hs', he⟩
    simp [exApartP] at he
    linarith [he.1, he.2]

/-- C138 there: the triangles are not coupled, the rows of the unused point 7 are zero; with points 1, 2, 4, 5 and 7 clamped the plate is stable, without 7 not. -/
example (pn : Bool) : ∃ m K, Stiffness m pn "cell-based" (1 / 10) true K ∧ K.dim = 35 ∧ (∀ i ∈ [1, 2, 3], ∀ j ∈ [4, 5, 6], ∀ r < 5, ∀ s < 5, K.get (dofNo m i r) (dofNo m j s) = 0) ∧
    (∀ r < 5, ∀ y < 35, K.get (dofNo m 7 r) y = 0) ∧ Stable K {x | x < 10 ∨ 15 ≤ x ∧ x < 25 ∨ 30 ≤ x} ∧ ¬Stable K {x | x < 10 ∨ 15 ≤ x ∧ x < 25} := by
  obtain ⟨m, hr, hg, hn, he, hpt, htri, h1, h2⟩ := input_parts exApart_input (by intro i hi; simp [exApart] at hi; interval_cases i <;> simp [exApart, exApartP, givenXYZ]) pn
    (fun _ => exIso) (fun _ => ⟨exIso_stiff, exIso_shear⟩)
  have hlen : exApart.length = 7 := rfl
  have hh : HasProps m pn := by
    unfold HasProps
    cases pn with
    | true =>
      simp only [if_true]
      intro e he' i hi
      have := hr.wf.corner_mem he' (corner_in hi)
      rw [hn, List.mem_range'_1, hlen] at this
      have := h1 rfl (i - 1) (by rw [hlen]; omega)
      rw [show i - 1 + 1 = i by omega] at this
      rw [this]; rfl
    | false =>
      simp only [Bool.false_eq_true, if_false]
      intro e he'
      rw [he, List.mem_range'_1] at he'
      simp only [List.length_cons, List.length_nil] at he'
      have := h2 rfl (e - 1) (by simp only [List.length_cons, List.length_nil]; omega)
      rw [show e - 1 + 1 = e by omega] at this
      rw [this]; rfl
  rw [hlen] at hn
  obtain ⟨K, hK⟩ := stiffness_parts hr hg hh (by rw [hn]; decide) (Or.inl rfl) (1 / 10) true
  have hdim := (parts_energy hr hg hK).1
  rw [hn] at hdim
  have hc1 : ∀ i, IsCorner m 1 i ↔ i = 1 ∨ i = 2 ∨ i = 3 := fun i => by
    obtain ⟨a, b, c⟩ := htri 0 (by simp)
    unfold IsCorner; rw [show (1 : ℕ) = 0 + 1 from rfl, a, b, c]; simp
  have hc2 : ∀ i, IsCorner m 2 i ↔ i = 4 ∨ i = 5 ∨ i = 6 := fun i => by
    obtain ⟨a, b, c⟩ := htri 1 (by simp)
    unfold IsCorner; rw [show (2 : ℕ) = 1 + 1 from rfl, a, b, c]; simp
  have he12 : ∀ e, e ∈ m.eids ↔ e = 1 ∨ e = 2 := fun e => by rw [he]; simp; omega
  have hdof : ∀ i, 1 ≤ i → i ≤ 7 → ∀ r, dofNo m i r = 5 * (i - 1) + r := by
    intro i h1 h7 r
    unfold dofNo
    rw [hn]
    congr 2
    interval_cases i <;> decide
  have hmem : ∀ i, i ∈ m.nids ↔ 1 ≤ i ∧ i ≤ 7 := fun i => by rw [hn, List.mem_range'_1]; omega
  have hu : Unused m 7 := by
    intro e he' h
    rcases (he12 e).1 he' with rfl | rfl
    · rw [hc1] at h; omega
    · rw [hc2] at h; omega
  have hsep : Separate m {i | i ≤ 3} := by
    intro e he'
    rcases (he12 e).1 he' with rfl | rfl
    · exact Or.inl fun i h => by rw [hc1] at h; simp; omega
    · exact Or.inr fun i h => by rw [hc2] at h; simp; omega
  have hx : ∀ i < 7, nx m (i + 1) = (exApartP i).1 := fun i hi => congrArg Prod.fst (hpt i (by rw [hlen]; exact hi))
  refine ⟨m, K, hK, by simpa using hdim, ?_, ?_, ?_, ?_⟩
  · intro i hi j hj r hr5 s hs5
    simp at hi hj
    exact (C138_uncoupled hr hg hK hsep ((hmem i).2 (by omega)) ((hmem j).2 (by omega)) (show i ≤ 3 by omega) (show ¬j ≤ 3 by omega) hr5 hs5).1
  · intro r hr5 y hy
    exact (C138_unused hr hg hK ((hmem 7).2 (by omega)) hu hr5 (by rw [hdim]; simpa using hy)).1
  · refine C138_held hr hg hK (by norm_num) fun i hi => ?_
    have hp1 : HeldPart m {x | x < 10 ∨ 15 ≤ x ∧ x < 25 ∨ 30 ≤ x} 1 := by
      refine ⟨1, 1, 1, 2, .refl, .refl, (hc1 1).2 (by simp), (hc1 2).2 (by simp), Or.inl ⟨Or.inl ?_, fun r h => ?_⟩⟩
      · rw [hx 0 (by norm_num), hx 1 (by norm_num)]; simp [exApartP]
      · rw [hdof 1 (by norm_num) (by norm_num), hdof 2 (by norm_num) (by norm_num)]; simp only [Set.mem_ofPred_eq]; omega
    have hp2 : HeldPart m {x | x < 10 ∨ 15 ≤ x ∧ x < 25 ∨ 30 ≤ x} 2 := by
      refine ⟨2, 2, 4, 5, .refl, .refl, (hc2 4).2 (by simp), (hc2 5).2 (by simp), Or.inl ⟨Or.inl ?_, fun r h => ?_⟩⟩
      · rw [hx 3 (by norm_num), hx 4 (by norm_num)]; norm_num [exApartP]
      · rw [hdof 4 (by norm_num) (by norm_num), hdof 5 (by norm_num) (by norm_num)]; simp only [Set.mem_ofPred_eq]; omega
    have := (hmem i).1 hi
    by_cases h3 : i ≤ 3
    · exact Or.inr ⟨1, (he12 1).2 (by simp), (hc1 i).2 (by omega), hp1⟩
    by_cases h6 : i ≤ 6
    · exact Or.inr ⟨2, (he12 2).2 (by simp), (hc2 i).2 (by omega), hp2⟩
    · refine Or.inl fun r h => ?_
      rw [hdof i (by omega) (by omega)]
      simp only [Set.mem_ofPred_eq]; omega
  · refine (C138_singular hr hg hK ((hmem 7).2 (by omega)) hu (r := 0) (by norm_num) ?_).1
    rw [hdof 7 (by norm_num) (by norm_num)]
    simp

end Meshless
