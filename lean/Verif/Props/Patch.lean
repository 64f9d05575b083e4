import Verif.Props.Static
import Verif.Lemmas.Divergence

/-! The patch test: constant stress resultants are in equilibrium at the interior nodes, and a supported plate reproduces linear membrane fields. -/

set_option autoImplicit false

namespace Meshless
open Spec Finset

theorem edge_ends {m : Mesh} (w : WF m) (hp : Proper m) {k : Key} (hk : k ∈ m.ekeys) : k.1 ∈ m.nids ∧ k.2 ∈ m.nids := by
  rcases edge_shape w hp hk with ⟨t, o, _, hs, _⟩ | ⟨t1, t2, o1, o2, _, hs, _⟩ <;> exact ⟨hs.ina, hs.inb⟩

theorem disp_single_other {m : Mesh} {i j r s : ℕ} (hi : i ∈ m.nids) (hij : i ≠ j) (hr : r < 5) (hs : s < 5) : disp m (single (dofNo m i r)) s j = 0 := by
  unfold disp single dofNo
  rw [if_neg]
  intro h
  have h' : m.nids.idxOf j = m.nids.idxOf i := by omega
  exact hij ((List.idxOf_inj hi).1 h'.symm)

/-- mean strains of a displacement that vanishes on the boundary -/
theorem mean_eps {m : Mesh} (w : WF m) (hp : Proper m) (hg : Planar m) {v : ℕ → ℝ} (hv : ∀ s < 5, ∀ i, OnBoundary m i → disp m v s i = 0) (a : Fin 6) :
    (m.ekeys.map fun k => |sarea m (dom m k)| * eps m k v a).sum = 0 := by
  have h : ∀ s < 5, (m.ekeys.map fun k => |sarea m (dom m k)| * gradX m (dom m k) (disp m v s)).sum = 0 ∧
      (m.ekeys.map fun k => |sarea m (dom m k)| * gradY m (dom m k) (disp m v s)).sum = 0 := fun s hs =>
    divergence_interior w hp hg fun k hk t ht =>
      ⟨hv s hs k.1 ⟨k, hk, by rw [ht]; rfl, Or.inl rfl⟩, hv s hs k.2 ⟨k, hk, by rw [ht]; rfl, Or.inr rfl⟩⟩
  have hadd : ∀ s < 5, ∀ s' < 5, (m.ekeys.map fun k => |sarea m (dom m k)| * (gradY m (dom m k) (disp m v s) + gradX m (dom m k) (disp m v s'))).sum = 0 := by
    intro s hs s' hs'
    simp only [mul_add, List.sum_map_add]
    rw [(h s hs).2, (h s' hs').1, add_zero]
  fin_cases a
  · exact (h 0 (by omega)).1
  · exact (h 1 (by omega)).2
  · exact hadd 0 (by omega) 1 (by omega)
  · exact (h 3 (by omega)).1
  · exact (h 4 (by omega)).2
  · exact hadd 3 (by omega) 4 (by omega)

/-- energy product of a displacement that vanishes on the boundary with a linear field, homogeneous properties -/
theorem energy_patch {m : Mesh} (w : WF m) (hp : Proper m) (hg : Planar m) {pn : Bool} {l : Lam} (hl : Homog m pn l) {v d : ℕ → ℝ} {c p q : ℕ → ℝ}
    (hd : ∀ r ∈ [0, 1, 3, 4], ∀ i ∈ m.nids, disp m d r i = c r + p r * nx m i + q r * ny m i) (hv : ∀ s < 5, ∀ i, OnBoundary m i → disp m v s i = 0) :
    energy m pn v d = 0 := by
  unfold energy
  have h : m.ekeys.map (fun k => |sarea m (dom m k)| * ∑ a, ∑ b, eps m k v a * avg m pn k (fun l => abd l a b) * eps m k d b) =
      m.ekeys.map fun k => ∑ a, |sarea m (dom m k)| * eps m k v a * ∑ b, abd l a b * (![p 0, q 1, q 0 + p 1, p 3, q 4, q 3 + p 4] : Fin 6 → ℝ) b := by
    refine List.map_congr_left fun k hk => ?_
    rw [eps_linear w hp hg hk hd, Finset.mul_sum]
    refine Finset.sum_congr rfl fun a _ => ?_
    rw [Finset.mul_sum, Finset.mul_sum]
    refine Finset.sum_congr rfl fun b _ => ?_
    rw [avg_const w hp hg hk (Homog_slot w hp hl)]
    change _ * (_ * abd l a b * _) = _
    ring
  rw [h]
  have h2 : ∀ (L : List Key) (F : Key → Fin 6 → ℝ) (G : Fin 6 → ℝ), (L.map fun k => ∑ a, F k a * G a).sum = ∑ a, (L.map fun k => F k a).sum * G a := by
    intro L F G
    induction L with
    | nil => simp
    | cons x L ih => simp only [List.map_cons, List.sum_cons, ih, add_mul, Finset.sum_add_distrib]
  rw [h2 m.ekeys (fun k a => |sarea m (dom m k)| * eps m k v a)]
  refine Finset.sum_eq_zero fun a _ => ?_
  rw [mean_eps w hp hg hv, zero_mul]

/-- C81: constant stress resultants are in equilibrium. For homogeneous properties and displacements sampled from fields linear in `x` and `y`, the nodal
forces `k0 d` vanish at every node that is not on the boundary. -/
theorem C81_equilibrium {m : Mesh} (hr : Reachable m) (hp : Proper m) (hg : Planar m) {pn : Bool} {K : Mat} (hK : (calcK0 m pn).2 = .ok K)
    {l : Lam} (hl : Homog m pn l) {d : ℕ → ℝ} {c p q : ℕ → ℝ} (hd : ∀ r ∈ [0, 1, 3, 4], ∀ i ∈ m.nids, disp m d r i = c r + p r * nx m i + q r * ny m i)
    {i : ℕ} (hi : i ∈ m.nids) (hin : ¬OnBoundary m i) {r : ℕ} (hr5 : r < 5) : ∑ j ∈ range K.dim, K.get (dofNo m i r) j * d j = 0 := by
  have hlt := List.idxOf_lt_length_of_mem hi
  have hdim := (calcK0_sum hr.wf hK).1
  have hx : dofNo m i r < K.dim := by unfold dofNo; omega
  rw [← form_row K.get hx, C18_energy hr hp hg hK]
  refine energy_patch hr.wf hp hg hl hd fun s hs j hj => disp_single_other hi ?_ hr5 hs
  rintro rfl
  exact hin hj

/-- the boundary of a plate has two ends of an edge, at different places -/
theorem boundary_nodes {m : Mesh} (hr : Reachable m) (hp : Proper m) (hg : Planar m) (hne : m.eids ≠ []) :
    ∃ i ∈ m.nids, ∃ j ∈ m.nids, OnBoundary m i ∧ OnBoundary m j ∧ (nx m i ≠ nx m j ∨ ny m i ≠ ny m j) := by
  obtain ⟨e, he⟩ := List.exists_mem_of_ne_nil _ hne
  obtain ⟨k, hk, t, htr, _⟩ := boundary_exists hr.wf hp hg (fun _ => True) (fun _ _ _ _ => trivial) he trivial
  obtain ⟨h1, h2⟩ := edge_ends hr.wf hp hk
  refine ⟨k.1, h1, k.2, h2, ⟨k, hk, by rw [htr]; rfl, Or.inl rfl⟩, ⟨k, hk, by rw [htr]; rfl, Or.inr rfl⟩, ?_⟩
  obtain ⟨o, hs, _⟩ := side_of hr.wf hp.distinct hk (t := t) (by rw [htr]; simp)
  by_contra hcon
  push Not at hcon
  apply cr_ne hg hs
  unfold cr
  rw [hcon.1, hcon.2]; ring

/-- C82: the patch test. A homogeneous one-piece plate whose boundary nodes are given the displacements of a field with linear `u` and `v` (together with any
transverse rigid motion) and which carries no load has this field, at all nodes, as its only solution. -/
theorem C82_patch {m : Mesh} (hr : Reachable m) {pn : Bool} (hg : GoodPlate m pn) (hne : m.eids ≠ []) {method : String} {al : ℝ} (ha : 0 ≤ al) {fa : Bool} {K : Mat}
    (hK : Stiffness m pn method al fa K) {l : Lam} (hl : Homog m pn l) {S : Set ℕ} (hS : ∀ i ∈ m.nids, OnBoundary m i → ∀ r < 5, dofNo m i r ∈ S)
    {g : ℕ → ℝ} {c0 c1 p0 p1 q0 q1 p q s : ℝ} (hu : ∀ i ∈ m.nids, disp m g 0 i = c0 + p0 * nx m i + q0 * ny m i)
    (hv : ∀ i ∈ m.nids, disp m g 1 i = c1 + p1 * nx m i + q1 * ny m i) (hw : ∀ i ∈ m.nids, disp m g 2 i = s - rotFactor method * (p * nx m i + q * ny m i))
    (hx : ∀ i ∈ m.nids, disp m g 3 i = p) (hy : ∀ i ∈ m.nids, disp m g 4 i = q) (d : ℕ → ℝ) :
    ((∀ i < K.dim, i ∈ S → d i = g i) ∧ ∀ i < K.dim, i ∉ S → ∑ j ∈ range K.dim, K.get i j * d j = 0) ↔ ∀ i < K.dim, d i = g i := by
  obtain ⟨hdim, K0, hK0, hd0, hform⟩ := stiffness_energy hr hg hK
  obtain ⟨hs, _, hh, _⟩ := calcK0_ok hr.wf hK0
  have hm : Numbered (calcK0 m pn).1 := .intro m hr pn K0 hK0 []
  have hnid := hs.nids
  -- the field itself is in equilibrium
  have hrow : ∀ i < K.dim, i ∉ S → ∑ j ∈ range K.dim, K.get i j * g j = 0 := by
    intro x hx' hxS
    obtain ⟨i, hi, r, hr5, rfl⟩ := dof_exists hr (x := x) (by omega)
    have hib : ¬OnBoundary m i := fun h => hxS (hS i hi h r hr5)
    rw [← form_row K.get hx', hform, form_row K0.get (by omega)]
    have h1 := C81_equilibrium hr hg.proper hg.planar hK0 hl (d := g) (c := fun r => if r = 0 then c0 else if r = 1 then c1 else if r = 3 then p else q)
      (p := fun r => if r = 0 then p0 else if r = 1 then p1 else 0) (q := fun r => if r = 0 then q0 else if r = 1 then q1 else 0)
      (by
        intro r hr4 i hi
        simp only [List.mem_cons, List.not_mem_nil, or_false] at hr4
        rcases hr4 with rfl | rfl | rfl | rfl
        · simpa using hu i hi
        · simpa using hv i hi
        · simpa using hx i hi
        · simpa using hy i hi) hi hib hr5
    rw [h1, zero_add]
    have hsh : ∀ e ∈ (calcK0 m pn).1.eids, (if method = "cell-based" then cellStrain (calcK0 m pn).1 else wholeGamma (calcK0 m pn).1) e g 0 = 0 ∧
        (if method = "cell-based" then cellStrain (calcK0 m pn).1 else wholeGamma (calcK0 m pn).1) e g 1 = 0 := by
      intro e he
      rcases hK.cell with rfl | rfl
      · rw [if_pos rfl]
        obtain ⟨g0, g1⟩ := patch_cell hm (hs.flatMesh hg.planar) (z := g) (c := s) (p := -((1 + 1 / 10 ^ 15) * p)) (q := -((1 + 1 / 10 ^ 15) * q)) (r := p) (s := q)
          (fun i hi => by rw [hs.sdisp, hs.snx, hs.sny, hw i (hnid ▸ hi)]; unfold rotFactor; rw [if_pos rfl]; ring)
          (fun i hi => by rw [hs.sdisp]; exact hx i (hnid ▸ hi)) (fun i hi => by rw [hs.sdisp]; exact hy i (hnid ▸ hi)) he
        rw [g0, g1]
        constructor <;> ring
      · rw [if_neg (by decide)]
        obtain ⟨g0, g1⟩ := patch_whole hm (hs.flatMesh hg.planar) (z := g) (c := s) (p := -p) (q := -q) (r := p) (s := q)
          (fun i hi => by rw [hs.sdisp, hs.snx, hs.sny, hw i (hnid ▸ hi)]; unfold rotFactor; rw [if_neg (by decide)]; ring)
          (fun i hi => by rw [hs.sdisp]; exact hx i (hnid ▸ hi)) (fun i hi => by rw [hs.sdisp]; exact hy i (hnid ▸ hi)) he
        rw [g0, g1]
        constructor <;> ring
    unfold shearEnergy
    apply List.sum_eq_zero
    intro x hx'
    obtain ⟨e, he, rfl⟩ := List.mem_map.1 hx'
    rw [(hsh e he).1, (hsh e he).2]; ring
  constructor
  · rintro ⟨hd1, hd2⟩
    obtain ⟨i, hi, j, hj, bi, bj, hij⟩ := boundary_nodes hr hg.proper hg.planar hne
    have hH : Held m S := ⟨i, hi, j, hj, Or.inl ⟨hij, fun r hr5 => ⟨hS i hi bi r hr5, hS j hj bj r hr5⟩⟩⟩
    by_contra hcon
    push Not at hcon
    obtain ⟨x, hx', hne'⟩ := hcon
    have hpos := C75_positive hr hg ha hK hH (d := fun i => 1 * d i + -1 * g i) (fun i hi hiS => by rw [hd1 i hi hiS]; ring)
      ⟨x, hx', fun h => hne' (by linarith)⟩
    rw [form_eq_sum] at hpos
    rw [Finset.sum_eq_zero] at hpos
    · exact lt_irrefl _ hpos
    · intro i hi
      rw [Finset.mem_range] at hi
      by_cases hiS : i ∈ S
      · rw [hd1 i hi hiS]; ring
      · have : ∑ j ∈ range K.dim, K.get i j * (1 * d j + -1 * g j) = (∑ j ∈ range K.dim, K.get i j * d j) - ∑ j ∈ range K.dim, K.get i j * g j := by
          rw [← Finset.sum_sub_distrib]
          exact Finset.sum_congr rfl fun j _ => by ring
        rw [this, hd2 i hi hiS, hrow i hi hiS]; ring
  · intro h
    refine ⟨fun i hi _ => h i hi, fun i hi hiS => ?_⟩
    rw [← hrow i hi hiS]
    refine Finset.sum_congr rfl fun j hj => ?_
    rw [h j (Finset.mem_range.1 hj)]

/-! ### concrete case: a triangle divided at its centroid -/

/-- three triangles around an interior node -/
noncomputable def exStar : Mesh :=
  run (match readDelaunay [.d2 0 0, .d2 3 0, .d2 0 3, .d2 1 1] (toInts [(0, 1, 3), (1, 2, 3), (2, 0, 3)]) with | .ok m => m | .error _ => emptyMesh)
    [.setTriaProp 1 (some exIso), .setTriaProp 2 (some exIso), .setTriaProp 3 (some exIso)]

theorem exStar_reachable : Reachable exStar := .delaunay [.d2 0 0, .d2 3 0, .d2 0 3, .d2 1 1] (toInts [(0, 1, 3), (1, 2, 3), (2, 0, 3)]) _ rfl _

theorem exStar_nids : exStar.nids = [1, 2, 3, 4] := rfl
theorem exStar_eids : exStar.eids = [1, 2, 3] := rfl
theorem exStar_ekeys : exStar.ekeys = [(1, 2), (2, 4), (1, 4), (2, 3), (3, 4), (1, 3)] := rfl
theorem exStar_tria1 : exStar.tria 1 = ⟨1, 2, 4, some exIso, [(1, 2), (2, 4), (1, 4)]⟩ := rfl
theorem exStar_tria2 : exStar.tria 2 = ⟨2, 3, 4, some exIso, [(2, 4), (2, 3), (3, 4)]⟩ := rfl
theorem exStar_tria3 : exStar.tria 3 = ⟨3, 1, 4, some exIso, [(1, 4), (3, 4), (1, 3)]⟩ := rfl
theorem exStar_node1 : (exStar.node 1).xyz = ⟨0, 0, 0⟩ := rfl
theorem exStar_node2 : (exStar.node 2).xyz = ⟨3, 0, 0⟩ := rfl
theorem exStar_node3 : (exStar.node 3).xyz = ⟨0, 3, 0⟩ := rfl
theorem exStar_node4 : (exStar.node 4).xyz = ⟨1, 1, 0⟩ := rfl
theorem exStar_e12 : (exStar.edge (1, 2)).trias = [1] := rfl
theorem exStar_e24 : (exStar.edge (2, 4)).trias = [1, 2] := rfl
theorem exStar_e14 : (exStar.edge (1, 4)).trias = [1, 3] := rfl
theorem exStar_e23 : (exStar.edge (2, 3)).trias = [2] := rfl
theorem exStar_e34 : (exStar.edge (3, 4)).trias = [2, 3] := rfl
theorem exStar_e13 : (exStar.edge (1, 3)).trias = [3] := rfl

theorem exStar_proper : Proper exStar := by
  refine ⟨?_, ?_, ?_⟩
  · intro e he
    rw [exStar_eids] at he
    simp only [List.mem_cons, List.not_mem_nil, or_false] at he
    rcases he with rfl | rfl | rfl
    · rw [exStar_tria1]; simp
    · rw [exStar_tria2]; simp
    · rw [exStar_tria3]; simp
  · intro k hk
    rw [exStar_ekeys] at hk
    simp only [List.mem_cons, List.not_mem_nil, or_false] at hk
    rcases hk with rfl | rfl | rfl | rfl | rfl | rfl
    · rw [exStar_e12]; simp
    · rw [exStar_e24]; simp
    · rw [exStar_e14]; simp
    · rw [exStar_e23]; simp
    · rw [exStar_e34]; simp
    · rw [exStar_e13]; simp
  · intro e he e' he' h
    rw [exStar_eids] at he he'
    simp only [List.mem_cons, List.not_mem_nil, or_false] at he he'
    have h1 := h 1
    have h2 := h 2
    have h3 := h 3
    simp only [IsCorner] at h1 h2 h3
    rcases he with rfl | rfl | rfl <;> rcases he' with rfl | rfl | rfl <;> simp [exStar_tria1, exStar_tria2, exStar_tria3] at h1 h2 h3 ⊢

theorem exStar_planar : Planar exStar := by
  refine ⟨?_, ?_, ?_, ?_⟩
  · intro i hi
    rw [exStar_nids] at hi
    simp only [List.mem_cons, List.not_mem_nil, or_false] at hi
    rcases hi with rfl | rfl | rfl | rfl <;> rfl
  · have : ∀ i ∈ exStar.nids, (exStar.node i).xyz.z = 0 := by
      intro i hi
      rw [exStar_nids] at hi
      simp only [List.mem_cons, List.not_mem_nil, or_false] at hi
      rcases hi with rfl | rfl | rfl | rfl <;> rfl
    intro i hi j hj
    rw [this i hi, this j hj]
  · intro e he
    rw [exStar_eids] at he
    simp only [List.mem_cons, List.not_mem_nil, or_false] at he
    rcases he with rfl | rfl | rfl
    · rw [exStar_tria1, sarea3]
      simp only [mean_single, nx, ny, exStar_node1, exStar_node2, exStar_node4]
      norm_num
    · rw [exStar_tria2, sarea3]
      simp only [mean_single, nx, ny, exStar_node2, exStar_node3, exStar_node4]
      norm_num
    · rw [exStar_tria3, sarea3]
      simp only [mean_single, nx, ny, exStar_node1, exStar_node3, exStar_node4]
      norm_num
  · intro k hk t1 t2 ht
    rw [exStar_ekeys] at hk
    simp only [List.mem_cons, List.not_mem_nil, or_false] at hk
    rcases hk with rfl | rfl | rfl | rfl | rfl | rfl
    · rw [exStar_e12] at ht; simp at ht
    · rw [exStar_e24] at ht
      simp only [List.cons.injEq, and_true] at ht
      obtain ⟨rfl, rfl⟩ := ht
      rw [sarea3, sarea3]
      simp only [mean, corners, exStar_tria1, exStar_tria2, List.map_cons, List.map_nil, List.sum_cons, List.sum_nil,
        nx, ny, exStar_node1, exStar_node2, exStar_node3, exStar_node4, List.length_cons, List.length_nil]
      norm_num
    · rw [exStar_e14] at ht
      simp only [List.cons.injEq, and_true] at ht
      obtain ⟨rfl, rfl⟩ := ht
      rw [sarea3, sarea3]
      simp only [mean, corners, exStar_tria1, exStar_tria3, List.map_cons, List.map_nil, List.sum_cons, List.sum_nil,
        nx, ny, exStar_node1, exStar_node2, exStar_node3, exStar_node4, List.length_cons, List.length_nil]
      norm_num
    · rw [exStar_e23] at ht; simp at ht
    · rw [exStar_e34] at ht
      simp only [List.cons.injEq, and_true] at ht
      obtain ⟨rfl, rfl⟩ := ht
      rw [sarea3, sarea3]
      simp only [mean, corners, exStar_tria2, exStar_tria3, List.map_cons, List.map_nil, List.sum_cons, List.sum_nil,
        nx, ny, exStar_node1, exStar_node2, exStar_node3, exStar_node4, List.length_cons, List.length_nil]
      norm_num
    · rw [exStar_e13] at ht; simp at ht

theorem exStar_props : HasProps exStar false := by
  intro e he
  rw [exStar_eids] at he
  simp only [List.mem_cons, List.not_mem_nil, or_false] at he
  rcases he with rfl | rfl | rfl <;> rfl

theorem exStar_homog : Homog exStar false exIso := by
  intro e he
  rw [exStar_eids] at he
  simp only [List.mem_cons, List.not_mem_nil, or_false] at he
  rcases he with rfl | rfl | rfl <;> rfl

theorem exStar_inUse {l : Lam} (h : InUse exStar false l) : l = exIso := by
  obtain ⟨e, he, h⟩ := h
  rw [exStar_homog e he] at h
  exact (Option.some.inj h).symm

theorem exStar_piece : OnePiece exStar := by
  have h12 : Adjacent exStar 1 2 := ⟨(2, 4), by rw [exStar_ekeys]; simp, by rw [exStar_e24]; simp, by rw [exStar_e24]; simp⟩
  have h13 : Adjacent exStar 1 3 := ⟨(1, 4), by rw [exStar_ekeys]; simp, by rw [exStar_e14]; simp, by rw [exStar_e14]; simp⟩
  have h1 : ∀ e ∈ exStar.eids, Relation.ReflTransGen (Adjacent exStar) 1 e := by
    intro e he
    rw [exStar_eids] at he
    simp only [List.mem_cons, List.not_mem_nil, or_false] at he
    rcases he with rfl | rfl | rfl
    · exact .refl
    · exact .single h12
    · exact .single h13
  refine ⟨fun e he e' he' => (walk_symm (h1 e he)).trans (h1 e' he'), ?_⟩
  intro i hi
  rw [exStar_nids] at hi
  simp only [List.mem_cons, List.not_mem_nil, or_false] at hi
  rw [exStar_eids]
  rcases hi with rfl | rfl | rfl | rfl
  · exact ⟨1, by simp, by unfold IsCorner; rw [exStar_tria1]; simp⟩
  · exact ⟨1, by simp, by unfold IsCorner; rw [exStar_tria1]; simp⟩
  · exact ⟨2, by simp, by unfold IsCorner; rw [exStar_tria2]; simp⟩
  · exact ⟨1, by simp, by unfold IsCorner; rw [exStar_tria1]; simp⟩

theorem exStar_good : GoodPlate exStar false :=
  ⟨exStar_proper, exStar_planar, exStar_piece, fun _ h => exStar_inUse h ▸ exIso_stiff, fun _ h => exStar_inUse h ▸ exIso_shear⟩

theorem exStar_inside : ¬OnBoundary exStar 4 := by
  rintro ⟨k, hk, h1, h2⟩
  rw [exStar_ekeys] at hk
  simp only [List.mem_cons, List.not_mem_nil, or_false] at hk
  rcases hk with rfl | rfl | rfl | rfl | rfl | rfl
  · simp at h2
  · rw [exStar_e24] at h1; simp at h1
  · rw [exStar_e14] at h1; simp at h1
  · simp at h2
  · rw [exStar_e34] at h1; simp at h1
  · simp at h2

/-- stretching in `x`: `u = x`; the nodal values at nodes 1 to 4 are 0, 3, 0, 1 -/
noncomputable def exPull : ℕ → ℝ := fun x => if x = 5 then 3 else if x = 15 then 1 else 0

/-- C82 there: with the corners moved as in `u = x`, the interior node follows -/
example (d : ℕ → ℝ) : ∃ K, Stiffness exStar false "cell-based" (1 / 5) true K ∧
    (((∀ i < K.dim, i ∈ {x : ℕ | x < 15} → d i = exPull i) ∧ ∀ i < K.dim, i ∉ {x : ℕ | x < 15} → ∑ j ∈ range K.dim, K.get i j * d j = 0) → d 15 = 1) := by
  obtain ⟨K, hK⟩ := stiffness_exists exStar_reachable exStar_good exStar_props (by rw [exStar_nids]; simp) (Or.inl rfl) (1 / 5) true
  refine ⟨K, hK, fun h => ?_⟩
  have hall : ∀ i ∈ exStar.nids, disp exStar exPull 0 i = 0 + 1 * nx exStar i + 0 * ny exStar i ∧ disp exStar exPull 1 i = 0 + 0 * nx exStar i + 0 * ny exStar i ∧
      disp exStar exPull 2 i = 0 - rotFactor "cell-based" * (0 * nx exStar i + 0 * ny exStar i) ∧ disp exStar exPull 3 i = 0 ∧ disp exStar exPull 4 i = 0 := by
    intro i hi
    rw [exStar_nids] at hi
    simp only [List.mem_cons, List.not_mem_nil, or_false] at hi
    rcases hi with rfl | rfl | rfl | rfl <;>
    simp only [disp, exStar_nids, nx, ny, exStar_node1, exStar_node2, exStar_node3, exStar_node4] <;>
    norm_num [exPull, List.idxOf_cons]
  have := (C82_patch exStar_reachable exStar_good (by rw [exStar_eids]; simp) (by norm_num) hK exStar_homog (S := {x : ℕ | x < 15}) (g := exPull)
    (by
      intro i hi hb r hr5
      rw [exStar_nids] at hi
      simp only [List.mem_cons, List.not_mem_nil, or_false] at hi
      rcases hi with rfl | rfl | rfl | rfl
      · simp only [dofNo, exStar_nids, Set.mem_ofPred_eq]; norm_num [List.idxOf_cons]; omega
      · simp only [dofNo, exStar_nids, Set.mem_ofPred_eq]; norm_num [List.idxOf_cons]; omega
      · simp only [dofNo, exStar_nids, Set.mem_ofPred_eq]; norm_num [List.idxOf_cons]; omega
      · exact absurd hb exStar_inside)
    (fun i hi => (hall i hi).1) (fun i hi => (hall i hi).2.1) (fun i hi => (hall i hi).2.2.1) (fun i hi => (hall i hi).2.2.2.1) (fun i hi => (hall i hi).2.2.2.2) d).1 h 15
      (by
        obtain ⟨hdim, _⟩ := stiffness_energy exStar_reachable exStar_good hK
        rw [hdim, exStar_nids]; norm_num)
  rw [this]; norm_num [exPull]

/-- C81 there: bending with linear rotations and stretching; no forces at node 4 -/
example (c p q : ℕ → ℝ) (d : ℕ → ℝ) (hd : ∀ r ∈ [0, 1, 3, 4], ∀ i ∈ exStar.nids, disp exStar d r i = c r + p r * nx exStar i + q r * ny exStar i) :
    ∃ K, (calcK0 exStar false).2 = .ok K ∧ ∀ r < 5, ∑ j ∈ range K.dim, K.get (15 + r) j * d j = 0 := by
  obtain ⟨K, hK, _⟩ := C11_success exStar_reachable exStar_proper (by rw [exStar_nids]; simp) exStar_props
  refine ⟨K, hK, fun r hr5 => ?_⟩
  have := C81_equilibrium exStar_reachable exStar_proper exStar_planar hK exStar_homog hd (i := 4) (by rw [exStar_nids]; simp) exStar_inside hr5
  have h15 : dofNo exStar 4 r = 15 + r := by simp [dofNo, exStar_nids]
  rwa [h15] at this

end Meshless
