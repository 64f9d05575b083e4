import Verif.Lemmas.KGLin
import Verif.Lemmas.After
import Verif.Props.K0Energy

/-! C29–C33, C68 and the `calc_kG` halves of C24, C34, C49: the matrix returned by `calc_kG`. -/

set_option autoImplicit false

namespace Meshless
open Spec Finset

/-- C49 for `calc_kG`: after a successful `calc_k0`, whatever calls and property changes followed, `calc_kG` returns a `5n × 5n` matrix for
every vector of length `5n`, as long as all properties it reads are assigned -/
theorem C49_kG {m : Mesh} (ha : AfterK0 m) (hp : Proper m) {pn : Bool} (hh : HasProps m pn) {d : List ℝ} (hd : d.length = 5 * m.nids.length) :
    ∃ K, calcKG m d pn = .ok K ∧ K.dim = 5 * m.nids.length := by
  obtain ⟨K, hK⟩ := calcKG_proper ha.wf hp ha.prepared ha.nids_ne hh (d := d) (by omega)
  exact ⟨K, hK, by rw [(calcKG_sum hK).1]; omega⟩

/-- the example mesh after `calc_k0` -/
noncomputable def exAfter (p1 p2 p3 p4 q1 q2 : Lam) : Mesh := (calcK0 (exMesh p1 p2 p3 p4 q1 q2) true).1

section
variable (p1 p2 p3 p4 q1 q2 : Lam)

theorem exAfter_after : AfterK0 (exAfter p1 p2 p3 p4 q1 q2) := by
  obtain ⟨K, hK, _⟩ := exMesh_k0 p1 p2 p3 p4 q1 q2 true
  exact AfterK0.intro _ (exMesh_reachable ..) true K hK [] (by simp)

theorem exAfter_static : SameStatic (exMesh p1 p2 p3 p4 q1 q2) (exAfter p1 p2 p3 p4 q1 q2) := calcK0_static _ _ (exMesh_reachable ..).wf

theorem exAfter_nids : (exAfter p1 p2 p3 p4 q1 q2).nids = [1, 2, 3, 4] := by rw [(exAfter_static ..).nids, exMesh_nids]
theorem exAfter_proper : Proper (exAfter p1 p2 p3 p4 q1 q2) := (exAfter_static ..).proper (exMesh_proper ..)
theorem exAfter_planar : Planar (exAfter p1 p2 p3 p4 q1 q2) := (exAfter_static ..).planar (exMesh_planar ..)
theorem exAfter_props (pn : Bool) : HasProps (exAfter p1 p2 p3 p4 q1 q2) pn := (exAfter_static ..).hasProps (exMesh_props ..)
end

example (p1 p2 p3 p4 q1 q2 : Lam) (d : List ℝ) (hd : d.length = 20) : ∃ K, calcKG (exAfter p1 p2 p3 p4 q1 q2) d false = .ok K ∧ K.dim = 20 := by
  have := C49_kG (exAfter_after p1 p2 p3 p4 q1 q2) (exAfter_proper ..) (exAfter_props p1 p2 p3 p4 q1 q2 false) (d := d) (by rw [exAfter_nids]; exact hd)
  rwa [exAfter_nids] at this

/-- C29: `v^T kG u` is the work of the smoothed membrane forces of `d` on the slopes of `v` and `u` -/
theorem C29_energy {m : Mesh} (ha : AfterK0 m) (hp : Proper m) (hg : Planar m) {pn : Bool} (hh : HasProps m pn) {d : List ℝ}
    (hd : d.length = 5 * m.nids.length) {K : Mat} (hK : calcKG m d pn = .ok K) (v u : ℕ → ℝ) :
    form K.dim K.get v u = geometric m pn (vec d) v u :=
  calcKG_form ha.wf hp hg ha.prepared hh (by omega) hK v u

example (p1 p2 p3 p4 q1 q2 : Lam) (d : List ℝ) (hd : d.length = 20) : ∃ K, calcKG (exAfter p1 p2 p3 p4 q1 q2) d false = .ok K ∧
    ∀ v u, form 20 K.get v u = geometric (exAfter p1 p2 p3 p4 q1 q2) false (vec d) v u := by
  obtain ⟨K, hK, hdim⟩ := C49_kG (exAfter_after p1 p2 p3 p4 q1 q2) (exAfter_proper ..) (exAfter_props p1 p2 p3 p4 q1 q2 false) (d := d)
    (by rw [exAfter_nids]; exact hd)
  rw [exAfter_nids] at hdim
  refine ⟨K, hK, fun v u => ?_⟩
  have := C29_energy (exAfter_after p1 p2 p3 p4 q1 q2) (exAfter_proper ..) (exAfter_planar ..) (exAfter_props p1 p2 p3 p4 q1 q2 false) (d := d)
    (by rw [exAfter_nids]; exact hd) hK v u
  rwa [hdim] at this

/-- C30: whenever `calc_kG` returns, on any mesh and for any vector, the matrix is symmetric and acts on transverse displacements only -/
theorem C30_symmetric {m : Mesh} {d : List ℝ} {pn : Bool} {K : Mat} (hK : calcKG m d pn = .ok K) :
    (∀ i j, K.get i j = K.get j i) ∧ ∀ i j, (i % 5 ≠ 2 ∨ j % 5 ≠ 2) → K.get i j = 0 := by
  obtain ⟨_, _, h⟩ := calcKG_sum hK
  constructor
  · intro i j
    rw [h, h]
    congr 1
    refine List.map_congr_left fun k _ => ?_
    cases kGEnv m d pn (m.edge k) with
    | error e => simp [Except.map, okEntries, entrySum]
    | ok e =>
      simp only [Except.map, okEntries, kGEntries_eq]
      exact entrySum_symm_outer (fun p q => by fin_cases p <;> fin_cases q <;> rfl) _ _ _
  · intro i j hij
    rw [h]
    apply List.sum_eq_zero
    intro x hx
    obtain ⟨k, _, rfl⟩ := List.mem_map.1 hx
    apply entrySum_zero
    intro e he ⟨h1, h2⟩
    cases hk : kGEnv m d pn (m.edge k) with
    | error _ => rw [hk] at he; simp [Except.map, okEntries] at he
    | ok env =>
      rw [hk] at he
      have := kGEntries_pos he h1 h2
      omega

example (p1 p2 p3 p4 q1 q2 : Lam) (d : List ℝ) (hd : d.length = 20) : ∃ K, calcKG (exAfter p1 p2 p3 p4 q1 q2) d true = .ok K ∧
    K.get 2 17 = K.get 17 2 ∧ K.get 3 17 = 0 := by
  obtain ⟨K, hK, _⟩ := C49_kG (exAfter_after p1 p2 p3 p4 q1 q2) (exAfter_proper ..) (exAfter_props p1 p2 p3 p4 q1 q2 true) (d := d)
    (by rw [exAfter_nids]; exact hd)
  exact ⟨K, hK, (C30_symmetric hK).1 2 17, (C30_symmetric hK).2 3 17 (by norm_num)⟩

/-- C31: `calc_kG(a*d1 + b*d2) = a*calc_kG(d1) + b*calc_kG(d2)` on any mesh in any state; one of the three raises iff all do, with the
same exception -/
theorem C31_linear (m : Mesh) (pn : Bool) (a b : ℝ) {d1 d2 : List ℝ} (h : d1.length = d2.length) :
    (∃ e, calcKG m d1 pn = .error e ∧ calcKG m d2 pn = .error e ∧ calcKG m (List.zipWith (fun x y => a * x + b * y) d1 d2) pn = .error e) ∨
    ∃ K1 K2 K, calcKG m d1 pn = .ok K1 ∧ calcKG m d2 pn = .ok K2 ∧ calcKG m (List.zipWith (fun x y => a * x + b * y) d1 d2) pn = .ok K ∧
      K1.dim = K2.dim ∧ K.dim = K1.dim ∧ ∀ i j, K.get i j = a * K1.get i j + b * K2.get i j :=
  calcKG_lin a b h

/-- C31: the zero vector gives the zero matrix -/
theorem C31_zero {m : Mesh} {pn : Bool} {n : ℕ} {K : Mat} (hK : calcKG m (List.replicate n 0) pn = .ok K) : ∀ i j, K.get i j = 0 := by
  have h0 : List.zipWith (fun x y : ℝ => 0 * x + 0 * y) (List.replicate n 0) (List.replicate n 0) = List.replicate n 0 := by
    rw [List.zipWith_replicate]; simp
  rcases C31_linear m pn 0 0 (d1 := List.replicate n (0 : ℝ)) (d2 := List.replicate n 0) rfl with ⟨e, e1, _⟩ | ⟨K1, K2, K', e1, e2, e3, _, _, e6⟩
  · rw [hK] at e1; cases e1
  · rw [h0, hK] at e3
    cases e3
    intro i j; rw [e6]; ring

example (p1 p2 p3 p4 q1 q2 : Lam) (d1 d2 : List ℝ) (h1 : d1.length = 20) (h2 : d2.length = 20) : ∃ K1 K2 K,
    calcKG (exAfter p1 p2 p3 p4 q1 q2) d1 true = .ok K1 ∧ calcKG (exAfter p1 p2 p3 p4 q1 q2) d2 true = .ok K2 ∧
    calcKG (exAfter p1 p2 p3 p4 q1 q2) (List.zipWith (fun x y => 3 * x + (-2) * y) d1 d2) true = .ok K ∧
    K.get 2 7 = 3 * K1.get 2 7 + (-2) * K2.get 2 7 := by
  obtain ⟨K, hK, _⟩ := C49_kG (exAfter_after p1 p2 p3 p4 q1 q2) (exAfter_proper ..) (exAfter_props p1 p2 p3 p4 q1 q2 true) (d := d1)
    (by rw [exAfter_nids]; exact h1)
  rcases C31_linear (exAfter p1 p2 p3 p4 q1 q2) true 3 (-2) (h1.trans h2.symm) with ⟨e, e1, _⟩ | ⟨K1, K2, K', e1, e2, e3, _, _, e6⟩
  · rw [hK] at e1; cases e1
  · exact ⟨K1, K2, K', e1, e2, e3, e6 2 7⟩

theorem geometric_zero {m : Mesh} {pn : Bool} {d v u : ℕ → ℝ} (h : ∀ k ∈ m.ekeys, eps m k d = fun _ => 0) : geometric m pn d v u = 0 := by
  unfold geometric
  apply List.sum_eq_zero
  intro x hx
  obtain ⟨k, hk, rfl⟩ := List.mem_map.1 hx
  simp [membrane, h k hk]

/-- entries from the form -/
theorem get_of_form {K : Mat} {n : ℕ} (hd : K.dim = n) (hout : ∀ i j, (n ≤ i ∨ n ≤ j) → K.get i j = 0) {g : (ℕ → ℝ) → (ℕ → ℝ) → ℝ}
    (hf : ∀ v u, form K.dim K.get v u = g v u) (i j : ℕ) : K.get i j = if i < n ∧ j < n then g (single i) (single j) else 0 := by
  split
  · rename_i h
    rw [← form_single K.get h.1 h.2, ← hd, hf]
  · exact hout i j (by omega)

/-- C32: rigid in-plane motions with uniform rotations and any transverse displacement give `kG = 0` -/
theorem C32_rigid {m : Mesh} (ha : AfterK0 m) (hp : Proper m) (hg : Planar m) {pn : Bool} (hh : HasProps m pn) {d : List ℝ}
    (hd : d.length = 5 * m.nids.length) {K : Mat} (hK : calcKG m d pn = .ok K) {a b c p q : ℝ}
    (hu : ∀ i ∈ m.nids, disp m (vec d) 0 i = a - c * ny m i) (hv : ∀ i ∈ m.nids, disp m (vec d) 1 i = b + c * nx m i)
    (hphix : ∀ i ∈ m.nids, disp m (vec d) 3 i = p) (hphiy : ∀ i ∈ m.nids, disp m (vec d) 4 i = q) : ∀ i j, K.get i j = 0 := by
  have he : ∀ k ∈ m.ekeys, eps m k (vec d) = fun _ => 0 := by
    intro k hk
    have := eps_linear ha.wf hp hg hk (d := vec d) (c := fun r => if r = 0 then a else if r = 1 then b else if r = 3 then p else q)
      (p := fun r => if r = 1 then c else 0) (q := fun r => if r = 0 then -c else 0) (by
        intro r hr' i hi
        simp only [List.mem_cons, List.not_mem_nil, or_false] at hr'
        rcases hr' with rfl | rfl | rfl | rfl
        · rw [hu i hi]; simp; ring
        · rw [hv i hi]; simp
        · rw [hphix i hi]; simp
        · rw [hphiy i hi]; simp)
    rw [this]
    funext r
    fin_cases r <;> simp
  intro i j
  rw [get_of_form (calcKG_sum hK).1 (fun i j h => calcKG_out hK h) (fun v u => C29_energy ha hp hg hh hd hK v u) i j]
  split
  · exact geometric_zero he
  · rfl

/-- the rigid motion of the example square as a list -/
noncomputable def exRigidL : List ℝ := [1, 2, 5, 7, 8, 1, 5, 6, 7, 8, -2, 5, 0, 7, 8, -2, 2, 9, 7, 8]

example (p1 p2 p3 p4 q1 q2 : Lam) : ∃ K, calcKG (exAfter p1 p2 p3 p4 q1 q2) exRigidL true = .ok K ∧ ∀ i j, K.get i j = 0 := by
  have hl : exRigidL.length = 5 * (exAfter p1 p2 p3 p4 q1 q2).nids.length := by rw [exAfter_nids]; rfl
  obtain ⟨K, hK, _⟩ := C49_kG (exAfter_after p1 p2 p3 p4 q1 q2) (exAfter_proper ..) (exAfter_props p1 p2 p3 p4 q1 q2 true) hl
  refine ⟨K, hK, ?_⟩
  refine C32_rigid (exAfter_after p1 p2 p3 p4 q1 q2) (exAfter_proper ..) (exAfter_planar ..) (exAfter_props p1 p2 p3 p4 q1 q2 true) hl hK
    (a := 1) (b := 2) (c := 3) (p := 7) (q := 8) ?_ ?_ ?_ ?_ <;>
    intro i hi <;> rw [exAfter_nids] at hi <;> simp only [List.mem_cons, List.not_mem_nil, or_false] at hi <;> rcases hi with rfl | rfl | rfl | rfl <;>
    simp only [disp, vec, exAfter_nids, nx, ny, (exAfter_static p1 p2 p3 p4 q1 q2).xyz, exMesh_node1, exMesh_node2, exMesh_node3, exMesh_node4] <;>
    norm_num [exRigidL, List.idxOf_cons]

/-- C33: `kG @ d' = 0` for a uniform transverse translation, whatever the pre-stress -/
theorem C33_translation {m : Mesh} (ha : AfterK0 m) (hp : Proper m) (hg : Planar m) {pn : Bool} (hh : HasProps m pn) {d : List ℝ}
    (hd : d.length = 5 * m.nids.length) {K : Mat} (hK : calcKG m d pn = .ok K) {z : ℕ → ℝ} {c : ℝ} (hz : ∀ i ∈ m.nids, disp m z 2 i = c) :
    ∀ i < K.dim, ∑ j ∈ range K.dim, K.get i j * z j = 0 := by
  intro i hi
  rw [← form_row K.get hi, C29_energy ha hp hg hh hd hK]
  unfold geometric
  apply List.sum_eq_zero
  intro x hx
  obtain ⟨k, hk, rfl⟩ := List.mem_map.1 hx
  obtain ⟨gx, gy⟩ := grad_linear ha.wf hp hg hk (f := disp m z 2) (c := c) (p := 0) (q := 0) (fun i hi => by rw [hz i hi]; ring)
  simp [gx, gy]

example (p1 p2 p3 p4 q1 q2 : Lam) (d : List ℝ) (hd : d.length = 20) : ∃ K, calcKG (exAfter p1 p2 p3 p4 q1 q2) d true = .ok K ∧
    ∀ i < 20, ∑ j ∈ range 20, K.get i j * (if j % 5 = 2 then 3 else j) = 0 := by
  have hl : d.length = 5 * (exAfter p1 p2 p3 p4 q1 q2).nids.length := by rw [exAfter_nids]; exact hd
  obtain ⟨K, hK, hdim⟩ := C49_kG (exAfter_after p1 p2 p3 p4 q1 q2) (exAfter_proper ..) (exAfter_props p1 p2 p3 p4 q1 q2 true) hl
  rw [exAfter_nids] at hdim
  refine ⟨K, hK, ?_⟩
  have := C33_translation (exAfter_after p1 p2 p3 p4 q1 q2) (exAfter_proper ..) (exAfter_planar ..) (exAfter_props p1 p2 p3 p4 q1 q2 true) hl hK
    (z := fun j => if j % 5 = 2 then 3 else (j : ℝ)) (c := 3) (fun i _ => by unfold disp; dsimp only; rw [if_pos (by omega)])
  rwa [hdim] at this

/-- C68: linear patch test of `kG`. For a pre-stress state sampled from a linear displacement field and transverse displacements
`w = c + px*x + py*y` the geometric energy is `Σ_edges area * (px, py) N (px, py)` with the exact constant strains -/
theorem C68_patch {m : Mesh} (ha : AfterK0 m) (hp : Proper m) (hg : Planar m) {pn : Bool} (hh : HasProps m pn) {l : Lam} (hl : Homog m pn l)
    {d : List ℝ} (hd : d.length = 5 * m.nids.length) {K : Mat} (hK : calcKG m d pn = .ok K) {c p q : ℕ → ℝ}
    (hdl : ∀ r ∈ [0, 1, 3, 4], ∀ i ∈ m.nids, disp m (vec d) r i = c r + p r * nx m i + q r * ny m i)
    {z : ℕ → ℝ} {cz px py : ℝ} (hz : ∀ i ∈ m.nids, disp m z 2 i = cz + px * nx m i + py * ny m i) :
    let e : Fin 3 → ℝ := ![p 0, q 1, q 0 + p 1]
    let κ : Fin 3 → ℝ := ![p 3, q 4, q 3 + p 4]
    let N : Fin 3 → ℝ := fun i => ∑ j, (l.A i j * e j + l.B i j * κ j)
    form K.dim K.get z z = (m.eids.map (triArea m)).sum * (N 0 * px ^ 2 + 2 * N 2 * px * py + N 1 * py ^ 2) := by
  intro e κ N
  rw [C29_energy ha hp hg hh hd hK, ← sum_domains ha.wf hp hg, ← List.sum_map_mul_right]
  unfold geometric
  congr 1
  refine List.map_congr_left fun k hk => ?_
  obtain ⟨gx, gy⟩ := grad_linear ha.wf hp hg hk hz
  have he := eps_linear ha.wf hp hg hk hdl
  have hN : ∀ i, membrane m pn k (vec d) i = N i := by
    intro i
    unfold membrane
    rw [he]
    refine Finset.sum_congr rfl fun j _ => ?_
    simp only [avg_const ha.wf hp hg hk (Homog_slot ha.wf hp hl)]
    fin_cases j <;> rfl
  simp only [hN, gx, gy]
  ring

/-- concrete case: the square stretched by 2 in x with unit stiffness has N = (2, 0, 0); with w = x the geometric energy is 2 -/
theorem exAfter_kG_two (pn : Bool) : ∃ K, calcKG (exAfter exIso exIso exIso exIso exIso exIso) [0, 0, 0, 0, 0, 2, 0, 0, 0, 0, 2, 0, 0, 0, 0, 0, 0, 0, 0, 0] pn = .ok K ∧
    form 20 K.get (fun j => if j = 7 ∨ j = 12 then 1 else 0) (fun j => if j = 7 ∨ j = 12 then 1 else 0) = 2 := by
  have hs := exAfter_static exIso exIso exIso exIso exIso exIso
  have hl : ([0, 0, 0, 0, 0, 2, 0, 0, 0, 0, 2, 0, 0, 0, 0, 0, 0, 0, 0, 0] : List ℝ).length = 5 * (exAfter exIso exIso exIso exIso exIso exIso).nids.length := by
    rw [exAfter_nids]; rfl
  obtain ⟨K, hK, hdim⟩ := C49_kG (exAfter_after exIso exIso exIso exIso exIso exIso) (exAfter_proper ..) (exAfter_props _ _ _ _ _ _ pn) hl
  rw [exAfter_nids] at hdim
  refine ⟨K, hK, ?_⟩
  have hH : Homog (exAfter exIso exIso exIso exIso exIso exIso) pn exIso := by
    have := exMesh_Homog exIso pn
    unfold Homog at this ⊢
    simpa only [hs.nids, hs.eids, hs.prop, hs.tria] using this
  have h := C68_patch (exAfter_after exIso exIso exIso exIso exIso exIso) (exAfter_proper ..) (exAfter_planar ..) (exAfter_props _ _ _ _ _ _ pn) hH hl hK
    (c := fun _ => 0) (p := fun r => if r = 0 then 2 else 0) (q := fun _ => 0) (by
      intro r hr i hi
      rw [exAfter_nids] at hi
      simp only [List.mem_cons, List.not_mem_nil, or_false] at hr hi
      rcases hr with rfl | rfl | rfl | rfl <;> rcases hi with rfl | rfl | rfl | rfl <;>
        simp only [disp, vec, exAfter_nids, nx, ny, hs.xyz, exMesh_node1, exMesh_node2, exMesh_node3, exMesh_node4] <;>
        norm_num [List.idxOf_cons])
    (z := fun j => if j = 7 ∨ j = 12 then 1 else 0) (cz := 0) (px := 1) (py := 0) (by
      intro i hi
      rw [exAfter_nids] at hi
      simp only [List.mem_cons, List.not_mem_nil, or_false] at hi
      rcases hi with rfl | rfl | rfl | rfl <;>
        simp only [disp, exAfter_nids, nx, ny, hs.xyz, exMesh_node1, exMesh_node2, exMesh_node3, exMesh_node4] <;>
        norm_num [List.idxOf_cons])
  have harea : ((exAfter exIso exIso exIso exIso exIso exIso).eids.map (triArea (exAfter exIso exIso exIso exIso exIso exIso))).sum = 1 := by
    rw [hs.eids, hs.striArea]; exact exMesh_area ..
  rw [hdim, harea] at h
  rw [show (20 : ℕ) = 5 * [1, 2, 3, 4].length from rfl, h]
  simp [exIso, exLam]

/-- C24 for `calc_kG`: with one laminate everywhere the two flags give the same matrix -/
theorem C24_kG {m : Mesh} (ha : AfterK0 m) (hp : Proper m) (hg : Planar m) (hh1 : HasProps m true) (hh2 : HasProps m false) {l : Lam}
    (h1 : Homog m true l) (h2 : Homog m false l) {d : List ℝ} (hd : d.length = 5 * m.nids.length)
    {K K' : Mat} (hK : calcKG m d true = .ok K) (hK' : calcKG m d false = .ok K') : K = K' := by
  have d1 := (calcKG_sum hK).1
  have d2 := (calcKG_sum hK').1
  have he : ∀ v u, geometric m true (vec d) v u = geometric m false (vec d) v u := by
    intro v u
    unfold geometric
    congr 1
    refine List.map_congr_left fun k hk => ?_
    simp only [membrane, avg_const ha.wf hp hg hk (Homog_slot ha.wf hp h1), avg_const ha.wf hp hg hk (Homog_slot ha.wf hp h2)]
  have hget : K.get = K'.get := by
    funext i j
    rw [get_of_form d1 (fun i j h => calcKG_out hK h) (fun v u => C29_energy ha hp hg hh1 hd hK v u) i j,
      get_of_form d2 (fun i j h => calcKG_out hK' h) (fun v u => C29_energy ha hp hg hh2 hd hK' v u) i j, he]
  obtain ⟨a, b⟩ := K
  obtain ⟨a', b'⟩ := K'
  simp only at d1 d2 hget
  rw [d1, d2, hget]

example (l : Lam) (d : List ℝ) (hd : d.length = 20) : ∃ K, calcKG (exAfter l l l l l l) d true = .ok K ∧ calcKG (exAfter l l l l l l) d false = .ok K := by
  have hl : d.length = 5 * (exAfter l l l l l l).nids.length := by rw [exAfter_nids]; exact hd
  obtain ⟨K, hK, _⟩ := C49_kG (exAfter_after l l l l l l) (exAfter_proper ..) (exAfter_props _ _ _ _ _ _ true) hl
  obtain ⟨K', hK', _⟩ := C49_kG (exAfter_after l l l l l l) (exAfter_proper ..) (exAfter_props _ _ _ _ _ _ false) hl
  have hs := exAfter_static l l l l l l
  have hH : ∀ pn, Homog (exAfter l l l l l l) pn l := by
    intro pn
    have := exMesh_Homog l pn
    unfold Homog at this ⊢
    simpa only [hs.nids, hs.eids, hs.prop, hs.tria] using this
  have := C24_kG (exAfter_after l l l l l l) (exAfter_proper ..) (exAfter_planar ..) (exAfter_props _ _ _ _ _ _ true) (exAfter_props _ _ _ _ _ _ false)
    (hH true) (hH false) hl hK hK'
  exact ⟨K, hK, this ▸ hK'⟩

/-- C34 for `calc_kG`: one iteration of the loop (plate2d_calc_kG.py:38-179) changes no entry in the row or column of a node that is not
a corner of the edge's triangles, although boundary edges also write at the dummy index 0 -/
theorem C34_kG {m : Mesh} (ha : AfterK0 m) (hp : Proper m) {pn : Bool} (hh : HasProps m pn) {d : List ℝ} (hd : d.length = 5 * m.nids.length)
    {k : Key} (hk : k ∈ m.ekeys) {M : Mat} (hM : M.dim = 5 * m.nids.length) :
    ∃ M', kGEdge m d pn M k = (M', none) ∧ ∀ i ∈ m.nids, ∀ j ∈ m.nids, ∀ r < 5, ∀ s < 5,
      (¬ (∃ t ∈ (m.edge k).trias, IsCorner m t i) ∨ ¬ (∃ t ∈ (m.edge k).trias, IsCorner m t j)) →
      M'.get (5 * m.nids.idxOf i + r) (5 * m.nids.idxOf j + s) = M.get (5 * m.nids.idxOf i + r) (5 * m.nids.idxOf j + s) := by
  obtain ⟨ns, Ac, pm, e, g1, g2, g3, g4⟩ := kgEdgeData ha.wf hp ha.prepared hh (d := d) (by omega) hk
  have hM' : M.dim = m.nids.length * 5 := by rw [hM]; ring
  obtain ⟨M', e1, e2, e3⟩ := Mat.addAll_ok (M := M) (es := kGEntries e) (by rw [hM']; exact entriesOk_kG ha.prepared le_rfl ha.nids_ne g1 g4)
  refine ⟨M', by simp only [kGEdge, g3, e1], ?_⟩
  intro i hi j hj r hr s hs hij
  rw [e3, hM']
  have li := List.idxOf_lt_length_iff.2 hi
  have lj := List.idxOf_lt_length_iff.2 hj
  have hb := bil_kG ha.prepared le_rfl g1 g4 (single (5 * m.nids.idxOf i + r)) (single (5 * m.nids.idxOf j + s))
  rw [← form_eq_bil, form_single _ (by omega) (by omega)] at hb
  have z : ∀ (i' : ℕ) (r' : ℕ), r' < 5 → i' ∉ ns → ∀ c : IPt → ℝ, wsum c (disp m (single (5 * m.nids.idxOf i' + r')) 2) (m.edge k).ipts = 0 := by
    intro i' r' hr' hi' c
    rw [wsum_congr g1.ipts (h' := fun _ => 0) fun a ha' => disp_single (j := i') (g1.ns_nids _ ha') (fun hh => hi' (hh ▸ ha')) _ _ (by norm_num) hr']
    simp [wsum]
  rw [hb]
  rcases hij with h | h
  · rw [show (∃ t ∈ (m.edge k).trias, IsCorner m t i) ↔ i ∈ ns from (g2 i).symm] at h
    simp [gX, gY, z i r hr h]
  · rw [show (∃ t ∈ (m.edge k).trias, IsCorner m t j) ↔ j ∈ ns from (g2 j).symm] at h
    simp [gX, gY, z j s hs h]

/-- C34 for the whole matrix of `calc_kG`: an entry can differ from zero only if some edge has both nodes among the corners of its
triangles; the dummy index adds no coupling -/
theorem C34_kG_local {m : Mesh} (ha : AfterK0 m) (hp : Proper m) {pn : Bool} (hh : HasProps m pn) {d : List ℝ} (hd : d.length = 5 * m.nids.length)
    {K : Mat} (hK : calcKG m d pn = .ok K) {i j : ℕ} (hi : i ∈ m.nids) (hj : j ∈ m.nids) {r s : ℕ} (hr : r < 5) (hs : s < 5)
    (h : K.get (5 * m.nids.idxOf i + r) (5 * m.nids.idxOf j + s) ≠ 0) :
    ∃ k ∈ m.ekeys, (∃ t ∈ (m.edge k).trias, IsCorner m t i) ∧ (∃ t ∈ (m.edge k).trias, IsCorner m t j) := by
  by_contra hcon
  apply h
  rw [(calcKG_sum hK).2.2, hd, show 5 * m.nids.length / 5 * 5 = m.nids.length * 5 by omega]
  apply List.sum_eq_zero
  intro x hx
  obtain ⟨k, hk, rfl⟩ := List.mem_map.1 hx
  obtain ⟨ns, Ac, pm, e, g1, g2, g3, g4⟩ := kgEdgeData ha.wf hp ha.prepared hh (d := d) (by omega) hk
  have hok := entriesOk_kG ha.prepared le_rfl ha.nids_ne g1 g4
  obtain ⟨M', e1, e2, e3⟩ := Mat.addAll_ok (M := Mat.zeros (m.nids.length * 5)) (es := kGEntries e) hok
  obtain ⟨M'', f1, f2⟩ := C34_kG ha hp hh hd hk (M := Mat.zeros (m.nids.length * 5)) (by simp [Mat.zeros]; ring)
  simp only [kGEdge, g3, e1, Prod.mk.injEq, and_true] at f1
  subst f1
  have hz := f2 i hi j hj r hr s hs (by
    by_contra hc
    push Not at hc
    exact hcon ⟨k, hk, hc.1, hc.2⟩)
  rw [e3] at hz
  simpa [g3, Except.map, okEntries, Mat.zeros] using hz

/-- concrete case: the square stretched in the x direction; two of the nodes 2 and 3 are coupled, and some edge joins them -/
example : ∃ K, calcKG (exAfter exIso exIso exIso exIso exIso exIso) [0, 0, 0, 0, 0, 2, 0, 0, 0, 0, 2, 0, 0, 0, 0, 0, 0, 0, 0, 0] true = .ok K ∧
    ∃ i ∈ [2, 3], ∃ j ∈ [2, 3], K.get (5 * i - 3) (5 * j - 3) ≠ 0 ∧ ∃ k ∈ (exAfter exIso exIso exIso exIso exIso exIso).ekeys,
      (∃ t ∈ ((exAfter exIso exIso exIso exIso exIso exIso).edge k).trias, IsCorner (exAfter exIso exIso exIso exIso exIso exIso) t i) ∧
      (∃ t ∈ ((exAfter exIso exIso exIso exIso exIso exIso).edge k).trias, IsCorner (exAfter exIso exIso exIso exIso exIso exIso) t j) := by
  obtain ⟨K, hK, h2⟩ := exAfter_kG_two true
  refine ⟨K, hK, ?_⟩
  have : ∃ i ∈ [2, 3], ∃ j ∈ [2, 3], K.get (5 * i - 3) (5 * j - 3) ≠ 0 := by
    by_contra hc
    push Not at hc
    have a1 := hc 2 (by simp) 2 (by simp)
    have a2 := hc 2 (by simp) 3 (by simp)
    have a3 := hc 3 (by simp) 2 (by simp)
    have a4 := hc 3 (by simp) 3 (by simp)
    norm_num at a1 a2 a3 a4
    simp [form, Finset.sum_range_succ, a1, a2, a3, a4] at h2
  obtain ⟨i, hi, j, hj, hij⟩ := this
  refine ⟨i, hi, j, hj, hij, ?_⟩
  have hn := exAfter_nids exIso exIso exIso exIso exIso exIso
  have hm : ∀ i ∈ [2, 3], i ∈ (exAfter exIso exIso exIso exIso exIso exIso).nids ∧ 5 * (exAfter exIso exIso exIso exIso exIso exIso).nids.idxOf i + 2 = 5 * i - 3 := by
    intro i hi
    rw [hn]
    simp only [List.mem_cons, List.not_mem_nil, or_false] at hi
    rcases hi with rfl | rfl <;> simp
  exact C34_kG_local (exAfter_after ..) (exAfter_proper ..) (exAfter_props _ _ _ _ _ _ true) (by rw [hn]; rfl) hK (hm i hi).1 (hm j hj).1
    (r := 2) (s := 2) (by norm_num) (by norm_num) (by rw [(hm i hi).2, (hm j hj).2]; exact hij)

/-- concrete case: the boundary edge (3, 4) of the square writes at the dummy index of node 1, here also a corner of
its triangle; node 2 is untouched -/
example (l : Lam) (d : List ℝ) (hd : d.length = 20) : ∃ M', kGEdge (exAfter l l l l l l) d true (Mat.zeros 20) (3, 4) = (M', none) ∧ M'.get 7 7 = 0 := by
  have hl : d.length = 5 * (exAfter l l l l l l).nids.length := by rw [exAfter_nids]; exact hd
  have hs := exAfter_static l l l l l l
  obtain ⟨M', h1, h2⟩ := C34_kG (exAfter_after l l l l l l) (exAfter_proper ..) (exAfter_props _ _ _ _ _ _ true) hl (k := (3, 4))
    (by rw [hs.ekeys, exMesh_ekeys]; simp) (M := Mat.zeros 20) (by rw [exAfter_nids]; rfl)
  refine ⟨M', h1, ?_⟩
  have := h2 2 (by rw [exAfter_nids]; simp) 2 (by rw [exAfter_nids]; simp) 2 (by norm_num) 2 (by norm_num) (Or.inl (by
    rintro ⟨t, ht, hc⟩
    rw [hs.trias, exMesh_e34] at ht
    simp only [List.mem_cons, List.not_mem_nil, or_false] at ht
    subst ht
    unfold IsCorner at hc
    rw [hs.tria, exMesh_tria2] at hc
    simp at hc))
  rw [exAfter_nids] at this
  exact this

end Meshless
