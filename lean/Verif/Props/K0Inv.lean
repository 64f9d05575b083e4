import Verif.Lemmas.Iso
import Verif.Props.History

/-! C25, C26, C66, C67: the stiffness matrix does not depend on how the plate is described. -/

set_option autoImplicit false

namespace Meshless
open Spec

/-- C67: for two meshes describing the same plate (nodes and elements renumbered and listed in any order, corners listed in any
order, coordinates shifted and uniformly scaled) the entries of `k0` are the same, at the positions of the corresponding nodes -/
theorem C67_renumber {m m' : Mesh} (hr : Reachable m) (hr' : Reachable m') (hp : Proper m) (hg : Planar m) {π σ : ℕ → ℕ} {s a b : ℝ}
    (h : SamePlate π σ s a b m m') (hs0 : s ≠ 0)
    (hbasic : ∀ i ∈ m'.nids, (m'.node i).cp (m'.node i).xyz = (m'.node i).xyz)
    (hflat : ∀ i ∈ m'.nids, ∀ j ∈ m'.nids, (m'.node i).xyz.z = (m'.node j).xyz.z) {pn : Bool} {K : Mat} (hK : (calcK0 m pn).2 = .ok K) :
    ∃ K', (calcK0 m' pn).2 = .ok K' ∧ K'.dim = K.dim ∧ ∀ i ∈ m.nids, ∀ j ∈ m.nids, ∀ r < 5, ∀ q < 5,
      K'.get (5 * m'.nids.idxOf (π i) + r) (5 * m'.nids.idxOf (π j) + q) = K.get (5 * m.nids.idxOf i + r) (5 * m.nids.idxOf j + q) := by
  obtain ⟨_, _, hh, hne⟩ := calcK0_ok hr.wf hK
  have hp' := h.proper hr.wf hr'.wf hp
  have hg' := h.planar hr.wf hr'.wf hp hg hs0 hbasic hflat
  have hlen : m'.nids.length = m.nids.length := by rw [h.nids.length_eq, List.length_map]
  have hne' : m'.nids ≠ [] := by
    intro h0; apply hne; apply List.eq_nil_of_length_eq_zero; rw [← hlen, h0]; rfl
  obtain ⟨K', hK', hd'⟩ := C11_success hr' hp' hne' (h.hasProps hr.wf hp hh)
  have hd := (calcK0_sum hr.wf hK).1
  refine ⟨K', hK', by rw [hd', hd, hlen, mul_comm], ?_⟩
  intro i hi j hj r hr5 q hq5
  have li := List.idxOf_lt_length_iff.2 hi
  have lj := List.idxOf_lt_length_iff.2 hj
  have li' := List.idxOf_lt_length_iff.2 (h.mem_nids hi)
  have lj' := List.idxOf_lt_length_iff.2 (h.mem_nids hj)
  have e1 := C18_energy hr hp hg hK (single (5 * m.nids.idxOf i + r)) (single (5 * m.nids.idxOf j + q))
  have e2 := C18_energy hr' hp' hg' hK' (single (5 * m'.nids.idxOf (π i) + r)) (single (5 * m'.nids.idxOf (π j) + q))
  rw [form_single _ (by omega) (by omega)] at e1 e2
  rw [e1, e2]
  have hsingle : ∀ x ∈ m.nids, ∀ r < 5, ∀ q < 5, ∀ y ∈ m.nids, disp m' (single (5 * m'.nids.idxOf (π x) + r)) q (π y) =
      disp m (single (5 * m.nids.idxOf x + r)) q y := by
    intro x hx r hr q hq y hy
    by_cases hxy : y = x
    · subst hxy
      simp only [disp, single]
      by_cases hrq : q = r
      · subst hrq; simp
      · rw [if_neg (by omega), if_neg (by omega)]
    · rw [disp_single hy hxy q r hq hr, disp_single (h.mem_nids hy) (fun e => hxy (h.inj hr'.wf hy hx e)) q r hq hr]
  exact h.energy hr.wf hr'.wf hp hg hs0 pn (fun t ht y hy => hsingle i hi r hr5 t ht y hy) (fun t ht y hy => hsingle j hj q hq5 t ht y hy)

/-- same matrix when the node order is the same -/
theorem same_matrix {m m' : Mesh} (hr : Reachable m) (hr' : Reachable m') (hp : Proper m) (hg : Planar m) {σ : ℕ → ℕ} {s a b : ℝ}
    (h : SamePlate id σ s a b m m') (hn : m'.nids = m.nids) (hs0 : s ≠ 0)
    (hbasic : ∀ i ∈ m'.nids, (m'.node i).cp (m'.node i).xyz = (m'.node i).xyz)
    (hflat : ∀ i ∈ m'.nids, ∀ j ∈ m'.nids, (m'.node i).xyz.z = (m'.node j).xyz.z) {pn : Bool} {K : Mat} (hK : (calcK0 m pn).2 = .ok K) :
    (calcK0 m' pn).2 = .ok K := by
  obtain ⟨K', hK', hd, he⟩ := C67_renumber hr hr' hp hg h hs0 hbasic hflat hK
  rw [hK']
  congr 1
  have hget : K'.get = K.get := by
    funext i j
    by_cases hij : i < m.nids.length * 5 ∧ j < m.nids.length * 5
    · have hi := List.getElem_mem (show i / 5 < m.nids.length by omega)
      have hj := List.getElem_mem (show j / 5 < m.nids.length by omega)
      have := he _ hi _ hj (i % 5) (by omega) (j % 5) (by omega)
      simp only [id, hn, hr.wf.nids_nodup.idxOf_getElem] at this
      rw [show 5 * (i / 5) + i % 5 = i by omega, show 5 * (j / 5) + j % 5 = j by omega] at this
      exact this
    · rw [calcK0_out hr.wf hK (by omega), calcK0_out hr'.wf hK' (by rw [hn]; omega)]
  cases K; cases K'; simp only at hd hget; rw [hd, hget]

/-! ### C25 -/

/-- two meshes that differ in nothing but the order of corners of the triangles (and what follows from it) -/
structure SameButOrder (m m' : Mesh) : Prop where
  nids : m'.nids = m.nids
  eids : m'.eids = m.eids
  tri : ∀ e ∈ m.eids, (corners m' e).Perm (corners m e)
  tprop : ∀ e ∈ m.eids, (m'.tria e).prop = (m.tria e).prop
  node : ∀ i ∈ m.nids, (m'.node i).xyz = (m.node i).xyz ∧ (m'.node i).cp = (m.node i).cp ∧ (m'.node i).prop = (m.node i).prop

theorem SameButOrder.static {m m' n n' : Mesh} (h : SameButOrder m m') (s : SameStatic m n) (s' : SameStatic m' n') : SameButOrder n n' := by
  refine ⟨by rw [s'.nids, s.nids, h.nids], by rw [s'.eids, s.eids, h.eids], ?_, ?_, ?_⟩
  · intro e he
    unfold corners
    rw [s'.tria, s.tria]
    exact h.tri e (s.eids ▸ he)
  · intro e he
    rw [s'.tria, s.tria]
    exact h.tprop e (s.eids ▸ he)
  · intro i hi
    rw [s'.xyz, s.xyz, s'.cp, s.cp, s'.prop, s.prop]
    exact h.node i (s.nids ▸ hi)

theorem SameButOrder.step {m m' : Mesh} (h : SameButOrder m m') (w : WF m) (w' : WF m') (op : Op) :
    SameButOrder (Meshless.step m op) (Meshless.step m' op) := by
  cases op with
  | setNodeProp i p =>
    simp only [Meshless.step, h.nids]
    split
    · refine ⟨h.nids, h.eids, h.tri, h.tprop, ?_⟩
      intro j hj
      by_cases hji : j = i
      · subst hji; simpa [Mesh.updNode] using ⟨(h.node j hj).1, (h.node j hj).2.1⟩
      · simpa [Mesh.updNode, Function.update_of_ne hji] using h.node j hj
    · exact h
  | setTriaProp e p =>
    simp only [Meshless.step, h.eids]
    split
    · refine ⟨h.nids, h.eids, ?_, ?_, h.node⟩ <;>
      · intro j hj
        by_cases hji : j = e
        · subst hji; first | simp [Mesh.updTria]; done | simpa [Mesh.updTria, corners] using h.tri j hj
        · first
          | simpa [Mesh.updTria, corners, Function.update_of_ne hji] using h.tri j hj
          | simpa [Mesh.updTria, corners, Function.update_of_ne hji] using h.tprop j hj
    · exact h
  | moveNode i x =>
    simp only [Meshless.step, h.nids]
    split
    · refine ⟨h.nids, h.eids, h.tri, h.tprop, ?_⟩
      intro j hj
      by_cases hji : j = i
      · subst hji; simpa [Mesh.updNode] using (h.node j hj).2
      · simpa [Mesh.updNode, Function.update_of_ne hji] using h.node j hj
    · exact h
  | calcK0 pn => exact h.static (calcK0_static m pn w) (calcK0_static m' pn w')
  | addK0s => exact h
  | calcKG => exact h

theorem SameButOrder.run (ops : List Op) : ∀ {m m' : Mesh}, SameButOrder m m' → WF m → WF m' → SameButOrder (Meshless.run m ops) (Meshless.run m' ops) := by
  induction ops with
  | nil => intro m m' h _ _; exact h
  | cons op ops ih => intro m m' h w w'; exact ih (h.step w w' op) (wf_step m w op) (wf_step m' w' op)

/-- the triangles of two inputs have the same corners, each in any order -/
def SameCorners (tris tris' : List (ℕ × ℕ × ℕ)) : Prop :=
  List.Forall₂ (fun t t' => [t'.1, t'.2.1, t'.2.2].Perm [t.1, t.2.1, t.2.2]) tris tris'

theorem SameCorners.get {tris tris' : List (ℕ × ℕ × ℕ)} (h : SameCorners tris tris') : tris'.length = tris.length ∧
    ∀ j (h1 : j < tris.length) (h2 : j < tris'.length), [tris'[j].1, tris'[j].2.1, tris'[j].2.2].Perm [tris[j].1, tris[j].2.1, tris[j].2.2] := by
  refine ⟨h.length_eq.symm, fun j h1 h2 => ?_⟩
  exact List.Forall₂.get h h1 h2

theorem sameButOrder_read {pts : List Pt} {tris tris' : List (ℕ × ℕ × ℕ)} (hv : ∀ t ∈ tris, ValidTri pts.length t)
    (hv' : ∀ t ∈ tris', ValidTri pts.length t) (h : SameCorners tris tris') {m m' : Mesh} (hm : readDelaunay pts (toInts tris) = .ok m)
    (hm' : readDelaunay pts (toInts tris') = .ok m') : SameButOrder m m' := by
  obtain ⟨hl, hg⟩ := h.get
  have inr : ∀ tr : List (ℕ × ℕ × ℕ), (∀ t ∈ tr, ValidTri pts.length t) → ∀ t ∈ toInts tr, ∀ i ∈ [t.1, t.2.1, t.2.2], -(pts.length : ℤ) ≤ i ∧ i < pts.length := by
    intro tr hv t ht i hi
    simp only [toInts, List.mem_map] at ht
    obtain ⟨u, hu, rfl⟩ := ht
    obtain ⟨a1, a2, a3, _⟩ := hv u hu
    simp only [List.mem_cons, List.not_mem_nil, or_false] at hi
    rcases hi with rfl | rfl | rfl <;> omega
  obtain ⟨n, hn, n1, n2, n3, n4⟩ := (C05_preserved pts (toInts tris)).2 (inr tris hv)
  obtain ⟨n', hn', n1', n2', n3', n4'⟩ := (C05_preserved pts (toInts tris')).2 (inr tris' hv')
  obtain rfl : m = n := by rw [hm] at hn; exact Except.ok.inj hn
  obtain rfl : m' = n' := by rw [hm'] at hn'; exact Except.ok.inj hn'
  have cpid : ∀ {tr : List (ℤ × ℤ × ℤ)} {m : Mesh}, readDelaunay pts tr = .ok m → ∀ i < pts.length, (m.node (i + 1)).cp = id := by
    intro tr m h i hi
    obtain ⟨m0, h1, h2, h3, h4, h5, h6⟩ := readDelaunay_parts h
    obtain ⟨b1, b2, b3, b4, b5, b6, b7⟩ := buildEdges_spec m0 m h4 h1
    rw [b7 (i + 1), h5 i hi]
    rfl
  refine ⟨n1'.trans n1.symm, ?_, ?_, ?_, ?_⟩
  · rw [n2', n2]; simp only [toInts, List.length_map, hl]
  · intro e he
    obtain ⟨j, hj, rfl⟩ := (mem_eids_input hm e).1 he
    obtain ⟨a1, a2, a3⟩ := tria_of_input hv hm j hj
    obtain ⟨b1, b2, b3⟩ := tria_of_input hv' hm' j (hl ▸ hj)
    unfold corners
    rw [a1, a2, a3, b1, b2, b3]
    exact (hg j hj (hl ▸ hj)).map (· + 1)
  · intro e he
    obtain ⟨j, hj, rfl⟩ := (mem_eids_input hm e).1 he
    have p1 := (n4 j (by simpa [toInts] using hj)).2.2.2
    have p2 := (n4' j (by simpa [toInts, hl] using hj)).2.2.2
    rw [p1, p2]
  · intro i hi
    rw [n1, List.mem_range'_1] at hi
    obtain ⟨j, rfl⟩ : ∃ j, i = j + 1 := ⟨i - 1, by omega⟩
    have hj : j < pts.length := by omega
    obtain ⟨x1, _, x3⟩ := n3 j hj
    obtain ⟨y1, _, y3⟩ := n3' j hj
    refine ⟨?_, by rw [cpid hm j hj, cpid hm' j hj], by rw [x3, y3]⟩
    have := y1.trans x1.symm
    simp only [Prod.mk.injEq] at this
    ext
    exacts [this.1, this.2.1, this.2.2]

/-- C25: listing the corners of the triangles in another order (each triangle in its own way, also reversing the sense) changes
neither success nor the matrix of `calc_k0`, whatever the script did in between -/
theorem C25_corner_order {pts : List Pt} {tris tris' : List (ℕ × ℕ × ℕ)} (hv : ∀ t ∈ tris, ValidTri pts.length t) (h : SameCorners tris tris')
    {m m' : Mesh} (hm : readDelaunay pts (toInts tris) = .ok m) (hm' : readDelaunay pts (toInts tris') = .ok m') (ops : List Op)
    (hp : Proper (run m ops)) (hg : Planar (run m ops)) {pn : Bool} {K : Mat} (hK : (calcK0 (run m ops) pn).2 = .ok K) :
    (calcK0 (run m' ops) pn).2 = .ok K := by
  obtain ⟨hl, hget⟩ := h.get
  have hv' : ∀ t ∈ tris', ValidTri pts.length t := by
    intro t ht
    obtain ⟨j, hj, rfl⟩ := List.getElem_of_mem ht
    have hvj := hv _ (List.getElem_mem (hl ▸ hj))
    have := perm3_cases (hget j (hl ▸ hj) hj).symm
    unfold ValidTri at *
    rcases this with ⟨a, b, c⟩ | ⟨a, b, c⟩ | ⟨a, b, c⟩ | ⟨a, b, c⟩ | ⟨a, b, c⟩ | ⟨a, b, c⟩ <;> rw [a, b, c] <;> omega
  have hs := (sameButOrder_read hv hv' h hm hm').run ops (wf_readDelaunay hm) (wf_readDelaunay hm')
  refine same_matrix (σ := id) (s := 1) (a := 0) (b := 0) (.delaunay _ _ _ hm ops) (.delaunay _ _ _ hm' ops) hp hg ?_ hs.nids one_ne_zero ?_ ?_ hK
  · refine ⟨by rw [hs.nids, List.map_id], by rw [hs.eids, List.map_id], ?_, hs.tprop, ?_, ?_, fun i hi => (hs.node i hi).2.2⟩
    · intro e he; rw [List.map_id]; exact hs.tri e he
    · intro i hi; simp only [nx, id, (hs.node i hi).1]; ring
    · intro i hi; simp only [ny, id, (hs.node i hi).1]; ring
  · intro i hi
    rw [hs.nids] at hi
    rw [(hs.node i hi).1, (hs.node i hi).2.1]
    exact hg.basic i hi
  · intro i hi j hj
    rw [hs.nids] at hi hj
    rw [(hs.node i hi).1, (hs.node j hj).1]
    exact hg.flat i hi j hj

/-! ### C26, C66 -/

theorem moves_spec (g : ℕ → Vec3) : ∀ (l : List ℕ) (m : Mesh), (∀ i ∈ l, i ∈ m.nids) →
    let m' := run m (l.map fun i => .moveNode i (g i))
    m'.nids = m.nids ∧ m'.eids = m.eids ∧ m'.tria = m.tria ∧
    ∀ i, (m'.node i).xyz = (if i ∈ l then g i else (m.node i).xyz) ∧ (m'.node i).cp = (m.node i).cp ∧ (m'.node i).prop = (m.node i).prop := by
  intro l
  induction l with
  | nil => intro m _; exact ⟨rfl, rfl, rfl, fun i => ⟨by simp [run], rfl, rfl⟩⟩
  | cons a l ih =>
    intro m hl
    have ha := hl a (by simp)
    obtain ⟨h1, h2, h3, h4⟩ := ih (m.updNode a fun n => { n with xyz := g a }) (fun i hi => hl i (List.mem_cons_of_mem _ hi))
    have hrun : run m ((a :: l).map fun i => .moveNode i (g i)) = run (m.updNode a fun n => { n with xyz := g a }) (l.map fun i => .moveNode i (g i)) := by
      simp only [run, List.map_cons, List.foldl_cons, step, if_pos ha]
    simp only [hrun]
    refine ⟨h1, h2, h3, fun i => ?_⟩
    obtain ⟨x1, x2, x3⟩ := h4 i
    rw [x1, x2, x3]
    by_cases hia : i = a
    · subst hia; simp [Mesh.updNode]
    · simp [Mesh.updNode, hia]

theorem Reachable.run {m : Mesh} (h : Reachable m) (ops : List Op) : Reachable (run m ops) := by
  induction ops generalizing m with
  | nil => exact h
  | cons op ops ih => exact ih (h.step op)

theorem moved_matrix {m : Mesh} (hr : Reachable m) (hp : Proper m) (hg : Planar m) (g : ℕ → Vec3) {s a b c : ℝ} (hs0 : s ≠ 0)
    (hgx : ∀ i ∈ m.nids, g i = ⟨s * (m.node i).xyz.x + a, s * (m.node i).xyz.y + b, s * (m.node i).xyz.z + c⟩)
    (hb : ∀ i ∈ m.nids, (m.node i).cp (g i) = g i) {pn : Bool} {K : Mat} (hK : (calcK0 m pn).2 = .ok K) :
    (calcK0 (run m (m.nids.map fun i => .moveNode i (g i))) pn).2 = .ok K := by
  obtain ⟨h1, h2, h3, h4⟩ := moves_spec g m.nids m (fun i hi => hi)
  refine same_matrix (σ := id) (s := s) (a := a) (b := b) hr (hr.run _) hp hg ?_ h1 hs0 ?_ ?_ hK
  · refine ⟨by rw [h1, List.map_id], by rw [h2, List.map_id], ?_, fun e he => by rw [h3]; rfl, ?_, ?_, fun i hi => (h4 i).2.2⟩
    · intro e he; rw [List.map_id]; unfold corners; rw [h3]; exact List.Perm.refl _
    · intro i hi; simp only [nx, id, (h4 i).1, if_pos hi, hgx i hi]
    · intro i hi; simp only [ny, id, (h4 i).1, if_pos hi, hgx i hi]
  · intro i hi
    rw [h1] at hi
    rw [(h4 i).1, (h4 i).2.1, if_pos hi]
    exact hb i hi
  · intro i hi j hj
    rw [h1] at hi hj
    rw [(h4 i).1, (h4 j).1, if_pos hi, if_pos hj, hgx i hi, hgx j hj, hg.flat i hi j hj]

/-- C26: moving all nodes by the same vector leaves the matrix of `calc_k0` unchanged -/
theorem C26_translation {m : Mesh} (hr : Reachable m) (hp : Proper m) (hg : Planar m) (c : Vec3)
    (hb : ∀ i ∈ m.nids, (m.node i).cp (Vec3.add (m.node i).xyz c) = Vec3.add (m.node i).xyz c) {pn : Bool} {K : Mat} (hK : (calcK0 m pn).2 = .ok K) :
    (calcK0 (run m (m.nids.map fun i => .moveNode i (Vec3.add (m.node i).xyz c))) pn).2 = .ok K :=
  moved_matrix hr hp hg _ (s := 1) (a := c.x) (b := c.y) (c := c.z) one_ne_zero (fun i _ => by simp only [one_mul]; rfl) hb hK

/-- C66: changing the unit of length of the coordinates (laminate stiffnesses kept) leaves the matrix of `calc_k0` unchanged -/
theorem C66_scaling {m : Mesh} (hr : Reachable m) (hp : Proper m) (hg : Planar m) {s : ℝ} (hs : s ≠ 0)
    (hb : ∀ i ∈ m.nids, (m.node i).cp (Vec3.smul s (m.node i).xyz) = Vec3.smul s (m.node i).xyz) {pn : Bool} {K : Mat} (hK : (calcK0 m pn).2 = .ok K) :
    (calcK0 (run m (m.nids.map fun i => .moveNode i (Vec3.smul s (m.node i).xyz))) pn).2 = .ok K :=
  moved_matrix hr hp hg _ (s := s) (a := 0) (b := 0) (c := 0) hs (fun i _ => by simp only [add_zero]; rfl) hb hK

theorem exMesh_cp (p1 p2 p3 p4 q1 q2 : Lam) : ∀ i ∈ (exMesh p1 p2 p3 p4 q1 q2).nids, ((exMesh p1 p2 p3 p4 q1 q2).node i).cp = id := by
  intro i hi
  rw [exMesh_nids] at hi
  simp only [List.mem_cons, List.not_mem_nil, or_false] at hi
  rcases hi with rfl | rfl | rfl | rfl <;> rfl

/-- concrete case: the square with one triangle listed clockwise and the other starting at another corner -/
example (p1 p2 p3 p4 q1 q2 : Lam) (pn : Bool) : ∃ m' K, readDelaunay exPts (toInts [(2, 1, 0), (2, 3, 0)]) = .ok m' ∧
    (calcK0 (exMesh p1 p2 p3 p4 q1 q2) pn).2 = .ok K ∧ (calcK0 (run m' (exOps p1 p2 p3 p4 q1 q2)) pn).2 = .ok K := by
  obtain ⟨K, hK, _⟩ := exMesh_k0 p1 p2 p3 p4 q1 q2 pn
  have hc : SameCorners exTris [(2, 1, 0), (2, 3, 0)] := by
    refine List.Forall₂.cons ?_ (List.Forall₂.cons ?_ List.Forall₂.nil) <;> decide
  obtain ⟨m', hm', _⟩ := C01_edges exPts [(2, 1, 0), (2, 3, 0)] (by
    intro t ht
    simp only [List.mem_cons, List.not_mem_nil, or_false] at ht
    rcases ht with rfl | rfl <;> simp [ValidTri, exPts])
  exact ⟨m', K, hm', hK, C25_corner_order exTris_valid hc exRead_ok hm' (exOps p1 p2 p3 p4 q1 q2) (exMesh_proper ..) (exMesh_planar ..) hK⟩

example (p1 p2 p3 p4 q1 q2 : Lam) (pn : Bool) : ∃ K, (calcK0 (exMesh p1 p2 p3 p4 q1 q2) pn).2 = .ok K ∧
    (calcK0 (run (exMesh p1 p2 p3 p4 q1 q2) [.moveNode 1 ⟨7, -3, 2⟩, .moveNode 2 ⟨8, -3, 2⟩, .moveNode 3 ⟨8, -2, 2⟩, .moveNode 4 ⟨7, -2, 2⟩]) pn).2 = .ok K := by
  obtain ⟨K, hK, _⟩ := exMesh_k0 p1 p2 p3 p4 q1 q2 pn
  refine ⟨K, hK, ?_⟩
  have := C26_translation (exMesh_reachable ..) (exMesh_proper ..) (exMesh_planar ..) ⟨7, -3, 2⟩ (fun i hi => by rw [exMesh_cp _ _ _ _ _ _ i hi]; rfl) hK
  rw [exMesh_nids] at this
  simp only [List.map_cons, List.map_nil, exMesh_node1, exMesh_node2, exMesh_node3, exMesh_node4, Vec3.add] at this
  norm_num at this
  exact this

example (p1 p2 p3 p4 q1 q2 : Lam) (pn : Bool) : ∃ K, (calcK0 (exMesh p1 p2 p3 p4 q1 q2) pn).2 = .ok K ∧
    (calcK0 (run (exMesh p1 p2 p3 p4 q1 q2) [.moveNode 1 ⟨0, 0, 0⟩, .moveNode 2 ⟨1000, 0, 0⟩, .moveNode 3 ⟨1000, 1000, 0⟩, .moveNode 4 ⟨0, 1000, 0⟩]) pn).2 = .ok K := by
  obtain ⟨K, hK, _⟩ := exMesh_k0 p1 p2 p3 p4 q1 q2 pn
  refine ⟨K, hK, ?_⟩
  have := C66_scaling (exMesh_reachable ..) (exMesh_proper ..) (exMesh_planar ..) (s := 1000) (by norm_num) (fun i hi => by rw [exMesh_cp _ _ _ _ _ _ i hi]; rfl) hK
  rw [exMesh_nids] at this
  simp only [List.map_cons, List.map_nil, exMesh_node1, exMesh_node2, exMesh_node3, exMesh_node4, Vec3.smul] at this
  norm_num at this
  exact this

/-- the square given with its points in the opposite order and the triangles exchanged -/
noncomputable def exPts' : List Pt := [.d2 0 1, .d3 1 1 0, .d2 1 0, .d2 0 0]
/-- the mesh read from it -/
noncomputable def exRead' : Mesh := match readDelaunay exPts' (toInts [(1, 0, 3), (3, 2, 1)]) with | .ok m => m | .error _ => emptyMesh
theorem exRead'_ok : readDelaunay exPts' (toInts [(1, 0, 3), (3, 2, 1)]) = .ok exRead' := rfl

section
variable (p1 p2 p3 p4 q1 q2 : Lam)

/-- with the laminates -/
noncomputable def exMesh' : Mesh := run exRead' (exOps p4 p3 p2 p1 q2 q1)
theorem exMesh'_nids : (exMesh' p1 p2 p3 p4 q1 q2).nids = [1, 2, 3, 4] := rfl
theorem exMesh'_eids : (exMesh' p1 p2 p3 p4 q1 q2).eids = [1, 2] := rfl
theorem exMesh'_tria2 : (exMesh' p1 p2 p3 p4 q1 q2).tria 2 = ⟨4, 3, 2, some q1, [(2, 4), (3, 4), (2, 3)]⟩ := rfl
theorem exMesh'_tria1 : (exMesh' p1 p2 p3 p4 q1 q2).tria 1 = ⟨2, 1, 4, some q2, [(1, 2), (1, 4), (2, 4)]⟩ := rfl
theorem exMesh'_node1 : ((exMesh' p1 p2 p3 p4 q1 q2).node 1).xyz = ⟨0, 1, 0⟩ ∧ ((exMesh' p1 p2 p3 p4 q1 q2).node 1).prop = some p4 := ⟨rfl, rfl⟩
theorem exMesh'_node2 : ((exMesh' p1 p2 p3 p4 q1 q2).node 2).xyz = ⟨1, 1, 0⟩ ∧ ((exMesh' p1 p2 p3 p4 q1 q2).node 2).prop = some p3 := ⟨rfl, rfl⟩
theorem exMesh'_node3 : ((exMesh' p1 p2 p3 p4 q1 q2).node 3).xyz = ⟨1, 0, 0⟩ ∧ ((exMesh' p1 p2 p3 p4 q1 q2).node 3).prop = some p2 := ⟨rfl, rfl⟩
theorem exMesh'_node4 : ((exMesh' p1 p2 p3 p4 q1 q2).node 4).xyz = ⟨0, 0, 0⟩ ∧ ((exMesh' p1 p2 p3 p4 q1 q2).node 4).prop = some p1 := ⟨rfl, rfl⟩
theorem exMesh_nprop : ((exMesh p1 p2 p3 p4 q1 q2).node 1).prop = some p1 ∧ ((exMesh p1 p2 p3 p4 q1 q2).node 2).prop = some p2 ∧
    ((exMesh p1 p2 p3 p4 q1 q2).node 3).prop = some p3 ∧ ((exMesh p1 p2 p3 p4 q1 q2).node 4).prop = some p4 := ⟨rfl, rfl, rfl, rfl⟩

theorem exSame : SamePlate (fun i => 5 - i) (fun e => 3 - e) 1 0 0 (exMesh p1 p2 p3 p4 q1 q2) (exMesh' p1 p2 p3 p4 q1 q2) := by
  refine ⟨?_, ?_, ?_, ?_, ?_, ?_, ?_⟩
  · rw [exMesh'_nids, exMesh_nids]; decide
  · rw [exMesh'_eids, exMesh_eids]; decide
  · intro e he
    rw [exMesh_eids] at he
    simp only [List.mem_cons, List.not_mem_nil, or_false] at he
    rcases he with rfl | rfl
    · simp only [corners, Nat.reduceSub, exMesh_tria1, exMesh'_tria2]; decide
    · simp only [corners, Nat.reduceSub, exMesh_tria2, exMesh'_tria1]; decide
  · intro e he
    rw [exMesh_eids] at he
    simp only [List.mem_cons, List.not_mem_nil, or_false] at he
    rcases he with rfl | rfl <;> simp only [Nat.reduceSub, exMesh_tria1, exMesh_tria2, exMesh'_tria1, exMesh'_tria2]
  · intro e he
    rw [exMesh_nids] at he
    simp only [List.mem_cons, List.not_mem_nil, or_false] at he
    rcases he with rfl | rfl | rfl | rfl <;> simp [nx, exMesh'_node1, exMesh'_node2, exMesh'_node3, exMesh'_node4, exMesh_node1, exMesh_node2,
      exMesh_node3, exMesh_node4]
  · intro e he
    rw [exMesh_nids] at he
    simp only [List.mem_cons, List.not_mem_nil, or_false] at he
    rcases he with rfl | rfl | rfl | rfl <;> simp [ny, exMesh'_node1, exMesh'_node2, exMesh'_node3, exMesh'_node4, exMesh_node1, exMesh_node2,
      exMesh_node3, exMesh_node4]
  · intro e he
    rw [exMesh_nids] at he
    simp only [List.mem_cons, List.not_mem_nil, or_false] at he
    rcases he with rfl | rfl | rfl | rfl <;> simp [exMesh'_node1, exMesh'_node2, exMesh'_node3, exMesh'_node4, exMesh_nprop]

end

/-- concrete case for C67: nodes `i -> 5 - i`, triangles exchanged -/
example (p1 p2 p3 p4 q1 q2 : Lam) (pn : Bool) : ∃ K K', (calcK0 (exMesh p1 p2 p3 p4 q1 q2) pn).2 = .ok K ∧
    (calcK0 (exMesh' p1 p2 p3 p4 q1 q2) pn).2 = .ok K' ∧ K'.get 16 13 = K.get 1 8 := by
  obtain ⟨K, hK, _⟩ := exMesh_k0 p1 p2 p3 p4 q1 q2 pn
  have hn : (exMesh' p1 p2 p3 p4 q1 q2).nids = [1, 2, 3, 4] := rfl
  obtain ⟨K', hK', _, he⟩ := C67_renumber (m' := exMesh' p1 p2 p3 p4 q1 q2) (exMesh_reachable p1 p2 p3 p4 q1 q2) (.delaunay _ _ _ exRead'_ok (exOps p4 p3 p2 p1 q2 q1)) (exMesh_proper ..)
    (exMesh_planar ..) (exSame p1 p2 p3 p4 q1 q2) one_ne_zero (fun i hi => by
      rw [hn] at hi
      simp only [List.mem_cons, List.not_mem_nil, or_false] at hi
      rcases hi with rfl | rfl | rfl | rfl <;> rfl) (fun i hi j hj => by
      have h0 : ∀ x ∈ [1, 2, 3, 4], ((exMesh' p1 p2 p3 p4 q1 q2).node x).xyz.z = 0 := by
        intro x hx
        simp only [List.mem_cons, List.not_mem_nil, or_false] at hx
        rcases hx with rfl | rfl | rfl | rfl <;> rfl
      rw [hn] at hi hj
      rw [h0 i hi, h0 j hj]) hK
  refine ⟨K, K', hK, hK', ?_⟩
  have := he 1 (by rw [exMesh_nids]; simp) 2 (by rw [exMesh_nids]; simp) 1 (by norm_num) 3 (by norm_num)
  rw [exMesh_nids, hn] at this
  exact this

end Meshless
