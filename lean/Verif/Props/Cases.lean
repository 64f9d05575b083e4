import Verif.Props.ShearMat
import Verif.Props.ShearEdgeMat
import Verif.Props.Sizes
import Verif.Props.Place
import Verif.Props.Workflow
import Verif.Props.Interp
import Verif.Props.Utils
import Verif.Props.SymPyFull
import Verif.Props.Reader
import Verif.Props.Compare
import Verif.Props.Stable

/-! Concrete cases for theorems that have none beside them. Each `example` applies the theorem named above it to a square of two triangles
(`exSq`, after calc_k0 `exAfter …`), a single triangle, control points of an interpolation, polygons, decks or small matrices; all hypotheses are met by the
arguments given. Theorems named neither here nor in an example of their own file have no hypotheses, are refutations (`_false`), or are stated under the
hypotheses of another theorem of the same section that has an example there. No claims here. -/

set_option autoImplicit false

namespace Meshless
open Spec Finset SymPy

section
private theorem sq_dim {K : Mat} (h : K.dim = 20) : K.dim = 5 * (exAfter exIso exIso exIso exIso exIso exIso).nids.length := by rw [exAfter_nids, h]; rfl
private theorem sq_zero : (Mat.zeros 20).dim = 5 * (exAfter exIso exIso exIso exIso exIso exIso).nids.length := sq_dim rfl
private theorem sq_num : Numbered (exAfter exIso exIso exIso exIso exIso exIso) := exAfter_numbered ..
private theorem sq_flat : FlatMesh (exAfter exIso exIso exIso exIso exIso exIso) := exAfter_flat ..
private theorem sq_after : AfterK0 (exAfter exIso exIso exIso exIso exIso exIso) := exAfter_after ..
private theorem sq_proper : Proper (exAfter exIso exIso exIso exIso exIso exIso) := exAfter_proper ..
private theorem sq_planar : Planar (exAfter exIso exIso exIso exIso exIso exIso) := exAfter_planar ..
private theorem sq_props (pn : Bool) : HasProps (exAfter exIso exIso exIso exIso exIso exIso) pn := exAfter_props ..
private theorem sq_thick (pn : Bool) : Thick (exAfter exIso exIso exIso exIso exIso exIso) pn := exAfter_thick exIso (by norm_num [exIso, exLam]) pn
private theorem sq_nonneg (pn : Bool) : ShearNonneg (exAfter exIso exIso exIso exIso exIso exIso) pn := exAfter_nonneg exIso (by norm_num [exIso, exLam]) pn
private theorem sq_ethick (pn : Bool) : EdgeThick (exAfter exIso exIso exIso exIso exIso exIso) pn :=
  edgeThick_homog sq_after.wf sq_proper sq_planar (exAfter_Homog exIso pn) (by norm_num [exIso, exLam])

/-! ### add_k0s, cell methods -/

/-- C36_additive: the zero matrix and any other one of its size -/
example (K : Mat) (hK : K.dim = 20) := C36_additive (exAfter exIso exIso exIso exIso exIso exIso) true "cell-based" 0.1 true (K := K) (K' := Mat.zeros 20) hK

/-- some entry is changed -/
private theorem sq_changed (pn fa : Bool) : ∃ i j, (addK0s (Mat.zeros 20) (exAfter exIso exIso exIso exIso exIso exIso) pn "cell-based-no-smoothing" 0 fa).1.get i j ≠
    (Mat.zeros 20).get i j := by
  by_contra h
  push Not at h
  have h52 := exShear_energy pn fa
  simp only [h, sub_self] at h52
  simp [form] at h52

/-- C37_dofs -/
example (pn fa : Bool) : ∃ i j, (addK0s (Mat.zeros 20) (exAfter exIso exIso exIso exIso exIso exIso) pn "cell-based-no-smoothing" 0 fa).1.get i j ≠ (Mat.zeros 20).get i j ∧
    (i % 5 = 2 ∨ i % 5 = 3 ∨ i % 5 = 4) ∧ (j % 5 = 2 ∨ j % 5 = 3 ∨ j % 5 = 4) := by
  obtain ⟨i, j, h⟩ := sq_changed pn fa
  exact ⟨i, j, h, C37_dofs h⟩

/-- C37_local_cell, C37_local -/
example (pn fa : Bool) : ∃ (i j p q : ℕ), (addK0s (Mat.zeros 20) (exAfter exIso exIso exIso exIso exIso exIso) pn "cell-based-no-smoothing" 0 fa).1.get i j ≠ (Mat.zeros 20).get i j ∧
    Near (exAfter exIso exIso exIso exIso exIso exIso) "cell-based-no-smoothing" p q := by
  obtain ⟨i, j, h⟩ := sq_changed pn fa
  obtain ⟨p, q, hn, _⟩ := C37_local_cell sq_num (by decide) h
  obtain ⟨p', q', hn', _⟩ := C37_local sq_after sq_proper h
  exact ⟨i, j, p, q, h, hn⟩

/-- C38_symmetric, C39_symmetric -/
example (pn fa : Bool) (al : ℝ) := C38_symmetric (m := exAfter exIso exIso exIso exIso exIso exIso) (pn := pn) (al := al) (fa := fa) (K := Mat.zeros 20)
  (by obtain ⟨K', h, _⟩ := C38_energy sq_num sq_flat (sq_props pn) (sq_thick pn) al fa sq_zero; rw [h])
example (pn fa : Bool) (al : ℝ) := C39_symmetric sq_num sq_flat (pn := pn) (al := al) (fa := fa) (K := Mat.zeros 20)
  (by obtain ⟨K', h, _⟩ := C39_energy sq_num sq_flat (sq_props pn) (sq_thick pn) al fa sq_zero; rw [h])

/-- C39_psd -/
example (pn fa : Bool) := C39_psd sq_num sq_flat (sq_props pn) (sq_thick pn) (sq_nonneg pn) (al := 0.1) (by norm_num) fa sq_zero

/-- C44_energy -/
example (pn fa : Bool) := C44_energy sq_num sq_flat (sq_props pn) (sq_thick pn) (sq_nonneg pn) (al := 0.1) (al' := 0.3) (by norm_num) (by norm_num) fa sq_zero (Or.inl rfl)

/-- C42_energy -/
example (pn fa : Bool) := C42_energy sq_num sq_flat (sq_props pn) (sq_thick pn) 0.1 fa sq_zero (Or.inl rfl) exShear_patch exShear_patch

/-- C41_cell: the square turned about the y axis -/
example (pn fa : Bool) := C41_cell sq_num sq_flat (sq_props pn) (sq_thick pn) 0.1 fa sq_zero (z := exTilt) (exGeo0.tilt).1 (exGeo0.tilt).2.1 (exGeo0.tilt).2.2

/-- the triangle of `exOne (0, 1, 2)` with its first two corners listed the other way round -/
private noncomputable def exSwap : Mesh := run (match readDelaunay [.d2 0 0, .d2 1 0, .d2 0 1] (toInts [(1, 0, 2)]) with | .ok m => m | .error _ => emptyMesh)
  [.setTriaProp 1 (some exIso)]

private theorem exSwap_tria : exSwap.tria 1 = ⟨2, 1, 3, some exIso, [(1, 2), (1, 3), (2, 3)]⟩ := rfl

private theorem exSwap_eids : exSwap.eids = [1] := rfl
private theorem exSwap_nids : exSwap.nids = [1, 2, 3] := rfl
private theorem exSwap_x1 : (exSwap.node 1).xyz = ⟨0, 0, 0⟩ := rfl
private theorem exSwap_x2 : (exSwap.node 2).xyz = ⟨1, 0, 0⟩ := rfl
private theorem exSwap_x3 : (exSwap.node 3).xyz = ⟨0, 1, 0⟩ := rfl
private theorem exSwap_c1 : (exSwap.node 1).cp = id := rfl
private theorem exSwap_c2 : (exSwap.node 2).cp = id := rfl
private theorem exSwap_c3 : (exSwap.node 3).cp = id := rfl
private theorem exSwap_p1 : (exSwap.node 1).prop = none := rfl
private theorem exSwap_p2 : (exSwap.node 2).prop = none := rfl
private theorem exSwap_p3 : (exSwap.node 3).prop = none := rfl

private theorem exSwap_numbered : Numbered (calcK0 exSwap false).1 ∧ SameStatic exSwap (calcK0 exSwap false).1 := by
  have hr : Reachable exSwap := .delaunay [.d2 0 0, .d2 1 0, .d2 0 1] (toInts [(1, 0, 2)]) _ rfl _
  have he : exSwap.eids = [1] := rfl
  have hp : Proper exSwap := by
    refine ⟨fun e h => ?_, fun k hk => ?_, fun e h e' h' _ => ?_⟩
    · rw [he, List.mem_singleton] at h; rw [h, exSwap_tria]; simp
    · have hk' : k ∈ [((1 : ℕ), (2 : ℕ)), (1, 3), (2, 3)] := hk
      simp only [List.mem_cons, List.not_mem_nil, or_false] at hk'
      rcases hk' with rfl | rfl | rfl
      · exact le_of_eq_of_le (congrArg List.length (show (exSwap.edge (1, 2)).trias = [1] from rfl)) (by simp)
      · exact le_of_eq_of_le (congrArg List.length (show (exSwap.edge (1, 3)).trias = [1] from rfl)) (by simp)
      · exact le_of_eq_of_le (congrArg List.length (show (exSwap.edge (2, 3)).trias = [1] from rfl)) (by simp)
    · rw [he, List.mem_singleton] at h h'; rw [h, h']
  obtain ⟨K, hK, _⟩ := C11_success hr hp (show ([1, 2, 3] : List ℕ) ≠ [] by simp) (pn := false) (fun e h => by
    rw [he, List.mem_singleton] at h
    rw [h, exSwap_tria]; rfl)
  exact ⟨.intro _ hr false K hK [], calcK0_static _ _ hr.wf⟩

/-- C43_whole_partial: the first two corners swapped -/
example (K : Mat) (hK : K.dim = 15) (fa : Bool) : addK0s K (calcK0 exSwap false).1 false "cell-based-no-smoothing" 0.1 fa =
    addK0s K (calcK0 (exOne (0, 1, 2)) false).1 false "cell-based-no-smoothing" 0.1 fa := by
  have hs := (exOne_numbered (Or.inl rfl)).2
  have hs' := exSwap_numbered.2
  have e1 : ∀ e ∈ (calcK0 (exOne (0, 1, 2)) false).1.eids, e = 1 := fun e h => by rwa [hs.eids, exOne_eids (Or.inl rfl), List.mem_singleton] at h
  have hr : Reordered (calcK0 (exOne (0, 1, 2)) false).1 (calcK0 exSwap false).1 := by
    refine ⟨?_, ?_, fun i hi => ?_, fun e he => ?_, fun e he => ?_⟩
    · rw [hs.nids, hs'.nids, exOne_nids (Or.inl rfl), exSwap_nids]
    · rw [hs.eids, hs'.eids, exOne_eids (Or.inl rfl), exSwap_eids]
    · rw [hs.nids, exOne_nids (Or.inl rfl)] at hi
      simp only [List.mem_cons, List.not_mem_nil, or_false] at hi
      rw [hs.xyz, hs'.xyz, hs.cp, hs'.cp, hs.prop, hs'.prop]
      rcases hi with rfl | rfl | rfl
      · rw [exOne_x1 (Or.inl rfl), exOne_c (Or.inl rfl) 1 (by simp), exOne_p (Or.inl rfl) 1 (by simp), exSwap_x1, exSwap_c1, exSwap_p1]; exact ⟨rfl, rfl, rfl⟩
      · rw [exOne_x2 (Or.inl rfl), exOne_c (Or.inl rfl) 2 (by simp), exOne_p (Or.inl rfl) 2 (by simp), exSwap_x2, exSwap_c2, exSwap_p2]; exact ⟨rfl, rfl, rfl⟩
      · rw [exOne_x3 (Or.inl rfl), exOne_c (Or.inl rfl) 3 (by simp), exOne_p (Or.inl rfl) 3 (by simp), exSwap_x3, exSwap_c3, exSwap_p3]; exact ⟨rfl, rfl, rfl⟩
    · obtain rfl := e1 e he
      unfold corners
      rw [hs.tria, hs'.tria, exOne_a, exSwap_tria]
      decide
    · obtain rfl := e1 e he
      rw [hs.tria, hs'.tria, exOne_a, exSwap_tria]
  exact C43_whole_partial (exOne_numbered (Or.inl rfl)).1 exSwap_numbered.1 hr exOne_flat (hs.hasProps (exOne_has (Or.inl rfl))) exOne_thick
    (fun e he => Or.inr (by obtain rfl := e1 e he; unfold corners; rw [hs.tria, hs'.tria, exOne_a, exSwap_tria])) 0.1 fa
    (by rw [hK, hs.nids, exOne_nids (Or.inl rfl)]; rfl)

/-! ### add_k0s, edge-based -/

/-- C48_defect_partial -/
example (pn fa : Bool) := C48_defect_partial sq_after sq_proper sq_planar (sq_props pn) (sq_ethick pn) 0.1 fa sq_zero (i := 8) (j := 17) (by decide) (by decide)

/-- C44_edge -/
example (pn fa : Bool) := C44_edge sq_after sq_proper sq_planar (sq_props pn) (sq_ethick pn) fa sq_zero

/-- C71_boundary_partial: a single triangle turned about the y axis -/
example (fa : Bool) (v : ℕ → ℝ) : ∃ (m : Mesh) (K : Mat) (z : ℕ → ℝ) (r : ℝ), m.nids = [1, 2, 3] ∧ RigidRotation m z 0 1 0 ∧
    form K.dim (fun i j => (addK0s K m false "edge-based" 0.1 fa).1.get i j - K.get i j) v z = r := by
  obtain ⟨K, hK, -⟩ := C11_success (exPlace_reachable 0 id) (exPlace_proper 0 id) (by rw [exPlace_nids]; simp) (exPlace_has 0 id)
  have ha : AfterK0 (calcK0 (exPlace 0 id) false).1 := .intro _ (exPlace_reachable 0 id) false K hK [] (by simp)
  have hs := calcK0_static (exPlace 0 id) false (exPlace_reachable 0 id).wf
  have hn : (calcK0 (exPlace 0 id) false).1.nids = [1, 2, 3] := by rw [hs.nids, exPlace_nids]
  have hp := hs.proper (exPlace_proper 0 id)
  have hg := hs.planar (exPlace_planar 0)
  have ht : EdgeThick (calcK0 (exPlace 0 id) false).1 false := edgeThick_homog ha.wf hp hg (l := exIso) (by
    intro e he
    rw [hs.eids, exPlace_eids, List.mem_singleton] at he
    rw [he, hs.tria, exPlace_tria]) (by norm_num [exIso, exLam])
  have hz : RigidRotation (calcK0 (exPlace 0 id) false).1 (fun j => [0, 0, 0, -1, 0, 0, 0, 1, -1, 0, 0, 0, 0, -1, 0].getD j 0) 0 1 0 := by
    refine ⟨fun i hi => ?_, fun i hi => ?_, fun i hi => ?_⟩ <;> rw [hn] at hi <;> simp only [List.mem_cons, List.not_mem_nil, or_false] at hi <;>
      rcases hi with rfl | rfl | rfl <;> simp [disp, hn, nx, ny, hs.xyz, exPlace_x1, exPlace_x2, exPlace_x3]
  exact ⟨_, Mat.zeros 15, _, _, hn, hz, C71_boundary_partial ha hp hg (hs.hasProps (exPlace_has 0 id)) ht 0.1 fa (by rw [hn]; rfl) (fun k hk => by
    rw [hs.ekeys, exPlace_ekeys] at hk
    simp only [List.mem_cons, List.not_mem_nil, or_false] at hk
    rcases hk with rfl | rfl | rfl
    · rw [hs.trias, exPlace_e1]; rfl
    · rw [hs.trias, exPlace_e2]; rfl
    · rw [hs.trias, exPlace_e3]; rfl) hz v⟩

/-- C116_large: a matrix with room for one more node -/
example (pn fa : Bool) := C116_large sq_after sq_proper pn "edge-based" 0.1 fa sq_zero (K' := Mat.zeros 25) (by rw [← sq_zero]; decide)

/-! ### calc_k0, calc_kG -/

/-- C31_zero -/
example (pn : Bool) : ∃ K, calcKG (exAfter exIso exIso exIso exIso exIso exIso) (List.replicate 20 0) pn = .ok K ∧ ∀ i j, K.get i j = 0 := by
  obtain ⟨K, hK, _⟩ := C49_kG sq_after sq_proper (sq_props pn) (d := List.replicate 20 0) (by rw [exAfter_nids]; rfl)
  exact ⟨K, hK, C31_zero hK⟩

/-- C08_no_matrix -/
example (p : Lam) := C08_no_matrix (exDeg_reachable p) (e := 1) (show 1 ∈ [1] by simp) (Or.inl rfl) true

/-- C16_normals, C17_midpoints: side 1-2 of the square has integration points -/
example (pn : Bool) : ∃ K, (calcK0 exSq pn).2 = .ok K ∧ ∀ p ∈ ((calcK0 exSq pn).1.edge (1, 2)).ipts, p.nx ^ 2 + p.ny ^ 2 = 1 ∧ p.f1 + p.f2 + p.f3 = 1 := by
  obtain ⟨K, hK, _⟩ := exMesh_k0 exIso exIso exIso exIso exIso exIso pn
  have hk : (1, 2) ∈ exSq.ekeys := by rw [exMesh_ekeys]; simp
  exact ⟨K, hK, fun p hp => ⟨(C16_normals (exMesh_reachable ..) (exMesh_proper ..) (exMesh_planar ..) hK hk hp).1,
    (C17_midpoints (exMesh_reachable ..) (exMesh_proper ..) (exMesh_planar ..) hK hk hp).2.1⟩⟩

/-- C22_patch: u = 2x + 3y, v = x, phix = y, phiy = 1 on the square -/
example (pn : Bool) : ∃ (K : Mat) (d : ℕ → ℝ), (calcK0 exSq pn).2 = .ok K ∧ ∀ k ∈ exSq.ekeys, eps exSq k d = ![2, 0, 3 + 1, 0, 0, 1 + 0] := by
  obtain ⟨K, hK, _⟩ := exMesh_k0 exIso exIso exIso exIso exIso exIso pn
  refine ⟨K, fun j => [0, 0, 0, 0, 1, 2, 1, 0, 0, 1, 5, 1, 0, 1, 1, 3, 0, 0, 1, 1].getD j 0, hK, (C22_patch (exMesh_reachable ..) (exMesh_proper ..) (exMesh_planar ..) hK
    (c := fun r => if r = 4 then 1 else 0) (p := fun r => if r = 0 then 2 else if r = 1 then 1 else 0) (q := fun r => if r = 0 then 3 else if r = 3 then 1 else 0) ?_).1⟩
  intro r hr i hi
  rw [exMesh_nids] at hi
  simp only [List.mem_cons, List.not_mem_nil, or_false] at hi hr
  unfold disp nx ny
  rw [exMesh_nids]
  rcases hi with rfl | rfl | rfl | rfl <;> simp only [exMesh_node1, exMesh_node2, exMesh_node3, exMesh_node4] <;>
    rcases hr with rfl | rfl | rfl | rfl <;> norm_num [List.idxOf_cons]

/-- C131_strain -/
example (pn : Bool) (d : ℕ → ℝ) : ∃ K, (calcK0 exSq pn).2 = .ok K ∧ 1 * strainSize exSq d ≤ 81 * 4 ^ 4 * form K.dim K.get d d := by
  obtain ⟨K, hK, _⟩ := exMesh_k0 exIso exIso exIso exIso exIso exIso pn
  exact ⟨K, hK, C131_strain (exMesh_reachable ..) (exMesh_proper ..) (exMesh_planar ..) hK zero_le_one
    (fun l hl => by rw [exSq_inUse hl]; exact exLam_least (by norm_num) (by norm_num)) (exMesh_shape _ _ _ _ _ _) d⟩

/-! ### supports and stiffness -/

/-- C80_energy, C80_point: alpha 0.1 and 0.3, the side through nodes 1 and 4 held, a unit force on the deflection of node 2 -/
example (pn fa : Bool) : ∃ (K K' : Mat) (d d' : ℕ → ℝ), Stiffness exSq pn "cell-based" 0.1 fa K ∧ Stiffness exSq pn "cell-based" 0.3 fa K' ∧
    form K'.dim K'.get d d ≤ form K.dim K.get d d ∧ d 7 ≤ d' 7 := by
  obtain ⟨K, hK⟩ := exSq_stiffness (Or.inl rfl) pn 0.1 fa
  have hd : K.dim = 20 := by
    obtain ⟨-, K0, h1, h2⟩ := hK
    obtain ⟨K1, h3, h4⟩ := exMesh_k0 exIso exIso exIso exIso exIso exIso pn
    rw [h1] at h3; cases h3
    rw [← h4]
    have := congrArg (fun p => p.1.dim) h2
    exact this.symm.trans (C36_additive _ _ _ _ _ (K' := K0) rfl).1
  obtain ⟨K', hK'⟩ := exSq_stiffness (Or.inl rfl) pn 0.3 fa
  obtain ⟨d, ⟨h1, h2⟩, _⟩ := C76_static (exMesh_reachable ..) (exSq_good pn) (al := 0.1) (by norm_num) hK exSq_held (fun i => if i = 7 then 1 else 0)
  obtain ⟨d', ⟨h1', h2'⟩, _⟩ := C76_static (exMesh_reachable ..) (exSq_good pn) (al := 0.3) (by norm_num) hK' exSq_held (fun i => if i = 7 then 1 else 0)
  exact ⟨K, K', d, d', hK, hK', C80_energy (exMesh_reachable ..) (exSq_good pn) (by norm_num) (by norm_num) hK hK' d,
    C80_point (exMesh_reachable ..) (exSq_good pn) (by norm_num) (by norm_num) hK hK' (by rw [hd]; norm_num) h1 h2 h1' h2'⟩
end

section
/-! ### read_mesh, read_delaunay -/

/-- C90_mesh -/
example : ∃ m, readDelaunay exPts (toInts exTris) = .ok m ∧ Proper m ∧ Planar m := by
  obtain ⟨m, hm⟩ := C08_accepted exPts exTris exInput.range
  exact ⟨m, hm, C90_mesh (m := run m []) (.delaunay _ _ _ hm []) (exInput.mesh exInput_given hm)⟩

/-- C06_sides_mesh, C07_deck_incidence: nodes 7, 3, 9 and element 20 -/
example : ∃ m, readMesh ⟨[(7, ⟨0, 0, 0⟩, fun v => ⟨v.x + 5, v.y, v.z⟩), (3, ⟨1, 0, 0⟩, id), (9, ⟨0, 1, 0⟩, id)], [(20, some (9, 7, 3))]⟩ = .ok m ∧
    (m.ekeys.map fun k => (m.edge k).trias.length).sum = 3 ∧ m.ekeys.Nodup := by
  obtain ⟨m, hm⟩ := (C07_deck_outcome ⟨[(7, ⟨0, 0, 0⟩, fun v => ⟨v.x + 5, v.y, v.z⟩), (3, ⟨1, 0, 0⟩, id), (9, ⟨0, 1, 0⟩, id)],
    [(20, some (9, 7, 3))]⟩ (by simp) (by simp)).1 (by
      intro q hq a b c h i hi
      obtain rfl : q = (20, some (9, 7, 3)) := by simpa using hq
      obtain ⟨rfl, rfl, rfl⟩ : 9 = a ∧ 7 = b ∧ 3 = c := by simpa using h
      simp at hi ⊢; omega)
  obtain ⟨-, h2, -, h4⟩ := C07_deck_preserved _ (by simp) (by simp) m hm
  refine ⟨m, hm, (C06_sides_mesh _ (by simp) (by simp) m hm).1, (C07_deck_incidence _ (by simp) (by simp) m hm fun e he => ?_).1⟩
  have he' : e ∈ [20] := by simpa [h2] using he
  rw [List.mem_singleton] at he'
  subst he'
  obtain ⟨a, b, c, g, g1, g2, g3, _⟩ := h4 (20, some (9, 7, 3)) (by simp)
  obtain ⟨rfl, rfl, rfl⟩ : 9 = a ∧ 7 = b ∧ 3 = c := by simpa using g
  simp only at g1 g2 g3
  unfold Tria.Distinct
  rw [g1, g2, g3]
  decide

/-! ### interpolation -/

/-- C51_constant -/
example (k x y : ℝ) := C51_constant [0, 1, 3] [2, 5] (by norm_num) (by norm_num) (by simp) (by simp) k x y

/-- C52_linear_3D, C52_linear_array: a field, another one and twice the first minus the second -/
example (x y z : ℝ) (u w : List ℕ → ℝ) := C52_linear_3D 2 (-1) x y z [0, 1, 3] [2, 5] [4, 6] ⟨[3, 2, 2], u⟩ ⟨[3, 2, 2], w⟩ ⟨[3, 2, 2], fun l => 2 * u l + -1 * w l⟩ rfl rfl rfl
  (fun _ _ _ => rfl)
example (u w : List ℕ → ℝ) := C52_linear_array 2 (-1) [(1 / 2, 3), (2, 4)] (by simp) [0, 1, 3] [2, 5] ⟨[3, 2], u⟩ ⟨[3, 2], w⟩ ⟨[3, 2], fun l => 2 * u l + -1 * w l⟩ rfl rfl rfl
  (fun _ _ => rfl)

/-! ### utils -/

/-- C57_area_translate, C57_area_rotate, C57_area_reverse, C57_area_swap, C57_area_scale: a polygon with four corners -/
example := C57_area_translate [0, 3, 4, 1] [0, 0, 2, 5] rfl (by simp) 7 (-1)
example := C57_area_rotate [0, 3, 4, 1] [0, 0, 2, 5] rfl (by simp) 3
example := C57_area_reverse [0, 3, 4, 1] [0, 0, 2, 5] rfl (by simp)
example := C57_area_swap [0, 3, 4, 1] [0, 0, 2, 5] rfl (by simp)
example := C57_area_scale [0, 3, 4, 1] [0, 0, 2, 5] rfl (by simp) (-2)

/-- C58_unitvec -/
example := C58_unitvec ⟨3, -4, 12⟩ (by intro h; injection h with h; norm_num at h)

/-! ### dev.sympytools -/

/-- C61_value_partial: `b**2 + ab**2-b** 3` -/
example (ρ : Str → ℝ) (φ : Str → ℝ → ℝ) (h : PieceReads ρ φ .sum exPieces (ρ "b".toList ^ 2 + ρ "ab".toList ^ 2 - ρ "b".toList ^ 3)) :=
  C61_value_partial ρ φ exPieces _ exPieces_cut (calls_free (by decide) (by
    intro P hP
    simp only [exPieces, List.mem_cons, List.not_mem_nil, or_false] at hP
    rcases hP with rfl | rfl | rfl | rfl | rfl | rfl | rfl <;> first | exact Or.inl ⟨_, rfl⟩ | exact Or.inr ⟨_, _, _, rfl⟩)) h

private def exText (ij : ℕ × ℕ) : Str := if ij.1 < ij.2 then "x**2".toList else "y".toList

private theorem exText_ok (i j : ℕ) (v : Str) (h : exMat.entry i j = some v) : valueText false v = .ok (exText (i, j)) := by
  have h' : (if i = j then none else if i < j then some "x**2".toList else some "y".toList) = some v := h
  unfold exText
  split_ifs at h' ⊢ <;> (cases h'; rfl)

/-- C62_dense, C62_full, C63_plain_partial, C63_local_partial, C63_full_partial -/
example := C62_dense exMat "k".toList none false (some 2) exText fun i j v _ _ h => exText_ok i j v h
example := C62_full exMat "k".toList (some "top".toList) true false (some 2) exText fun i j v _ _ h => exText_ok i j v h
example := C63_plain_partial exMat "k".toList none none false true exText fun i j v _ _ h => exText_ok i j v h
example := C63_local_partial exMat "k".toList none none false true 2 (by decide) exText fun i j v _ _ h => exText_ok i j v h
example := C63_full_partial exMat "k".toList none none true false true (some 2) exText fun i j v _ _ h => exText_ok i j v h

/-- C72_array, by rows -/
example := C72_array exMat "k".toList none none false false "+=".toList (fun k => exText (k / 3, k % 3)) fun k v _ h => by
  have h' : exMat.entry (k / 3) (k % 3) = some v := h
  have := exText_ok _ _ _ h'
  exact this

/-- C100_dense, C101_dense, C100_sparse, C101_sparse: a matrix printed by rows with the substitution `y` for `beta` -/
example : ∃ out, printDense exMat "k".toList [] none true none false (some 2) = .ok out ∧ out.files = [("print_k.txt".toList, out.text)] ∧
    ∃ out', printDense exMat "k".toList [("beta".toList, "y".toList)] none true none false (some 2) = .ok out' := by
  obtain ⟨ps, -, -, out, h, -⟩ := C62_full exMat "k".toList none true false (some 2) exText fun i j v _ _ h => exText_ok i j v h
  obtain ⟨items, out', -, h', -⟩ := C101_dense h [("beta".toList, "y".toList)]
  exact ⟨out, h, by rw [C100_dense h]; rfl, out', h'⟩
example (c : ℕ → ℕ → List (Str × Str)) : ∃ out, printSparse exMat "k".toList none [] none true (some c) false true none = .ok out ∧
    out.files = [("print_k.txt".toList, out.text)] ∧ ∃ out', printSparse exMat "k".toList none [("beta".toList, "y".toList)] none true (some c) false true none = .ok out' := by
  obtain ⟨ps, -, -, out, h, -⟩ := C99_sparse exMat "k".toList none none true false true c none
  obtain ⟨items, out', -, h', -⟩ := C101_sparse h [("beta".toList, "y".toList)]
  exact ⟨out, h, by rw [C100_sparse h]; rfl, out', h'⟩

/-- C100_array, C102_cse, C104_op_partial -/
example (c : ℕ → ℕ → List (Str × Str)) : ∃ out, printArray cseAfter "k".toList none none none true (some c) false "C".toList "+=".toList = (.ok out, cseAfter) ∧
    out.files = [("print_k.txt".toList, out.text)] ∧
    ∃ out', (printArray cseBefore "k".toList none (some ([("x0".toList, "a + b".toList)], cseAfter)) none true (some c) false "C".toList "+=".toList).1 = .ok out' := by
  obtain ⟨ks, -, -, out, h, -⟩ := C99_array cseAfter "k".toList none none true false false c "+=".toList
  simp only [Bool.false_eq_true, if_false] at h
  obtain ⟨g, out', -, -, h', -⟩ := C102_cse (m := cseBefore) (header := none) (subs := [("x0".toList, "a + b".toList)]) h
  exact ⟨out, h, by rw [C100_array h]; rfl, out', h'⟩
end

end Meshless
