import Verif.Lemmas.K0sLoop
import Verif.Lemmas.EdgeShape
import Verif.Lemmas.After

/-! Moving all nodes by one vector: what `add_k0s` sees of the moved mesh. -/

set_option autoImplicit false

namespace Meshless
open Spec

/-- `m'` is `m` with every node moved by `c` -/
structure Shift (c : Vec3) (m m' : Mesh) : Prop where
  nids : m'.nids = m.nids
  eids : m'.eids = m.eids
  ekeys : m'.ekeys = m.ekeys
  tria : m'.tria = m.tria
  xyz : ∀ i ∈ m.nids, (m'.node i).xyz = Vec3.add (m.node i).xyz c
  pos : ∀ i ∈ m.nids, m'.pos i = Vec3.add (m.pos i) c
  prop : ∀ i, (m'.node i).prop = (m.node i).prop
  n1 : ∀ k, (m'.edge k).n1 = (m.edge k).n1
  n2 : ∀ k, (m'.edge k).n2 = (m.edge k).n2
  trias : ∀ k, (m'.edge k).trias = (m.edge k).trias

theorem Vec3.add_sub_add (x y c : Vec3) : (x.add c).sub (y.add c) = x.sub y := by
  simp [Vec3.add, Vec3.sub]

theorem polyArea3_shift (x y z c : Vec3) : polyArea [x.add c, y.add c, z.add c] = polyArea [x, y, z] := by
  rw [polyArea3, polyArea3]; simp [Vec3.add]

theorem polyArea4_shift (x y z c : Vec3) : polyArea [x.add c, y.add c, z.add c, x.add c] = polyArea [x, y, z, x] := by
  rw [polyArea4, polyArea4]; simp [Vec3.add]

theorem polyArea5_shift (x y z w c : Vec3) : polyArea [x.add c, y.add c, z.add c, w.add c, x.add c] = polyArea [x, y, z, w, x] := by
  rw [polyArea5, polyArea5]; simp [Vec3.add]

section
variable {c : Vec3} {m m' : Mesh}

theorem Shift.triaNodes (h : Shift c m m') (e : ℕ) : m'.triaNodes e = m.triaNodes e := by unfold Mesh.triaNodes; rw [h.tria]

theorem Shift.mid (h : Shift c m m') {e : ℕ} (hc : ∀ i, IsCorner m e i → i ∈ m.nids) : m'.mid e = Vec3.add (m.mid e) c := by
  unfold Mesh.mid
  dsimp only
  rw [h.tria, h.pos _ (hc _ (Or.inl rfl)), h.pos _ (hc _ (Or.inr (Or.inl rfl))), h.pos _ (hc _ (Or.inr (Or.inr rfl)))]
  simp only [Vec3.add, Vec3.mk.injEq]
  refine ⟨?_, ?_, ?_⟩ <;> ring

theorem Shift.orient (h : Shift c m m') {x : Vec3} {a b : ℕ} (ha : a ∈ m.nids) (hb : b ∈ m.nids) :
    Meshless.orient m' (x.add c) a b = Meshless.orient m x a b := by
  unfold Meshless.orient
  rw [h.xyz a ha, h.xyz b hb, Vec3.add_sub_add, Vec3.add_sub_add]

theorem Shift.edgeOrient (h : Shift c m m') {ed ed' : Edge} (h1 : ed'.n1 = ed.n1) (h2 : ed'.n2 = ed.n2) {t : ℕ} (hc : ∀ i, IsCorner m t i → i ∈ m.nids)
    (i1 : ed.n1 ∈ m.nids) (i2 : ed.n2 ∈ m.nids) : Meshless.edgeOrient m' ed' t = Meshless.edgeOrient m ed t := by
  unfold Meshless.edgeOrient
  rw [h1, h2, h.xyz _ i1, h.xyz _ i2, h.mid hc, Vec3.add_sub_add, Vec3.add_sub_add]

/-- what `add_k0s` reads of an edge object -/
structure EdgeLike (ed ed' : Edge) : Prop where
  n1 : ed'.n1 = ed.n1
  n2 : ed'.n2 = ed.n2
  trias : ed'.trias = ed.trias
  o1 : ed'.other1 = ed.other1
  o2 : ed'.other2 = ed.other2
  Ac : ed'.Ac = ed.Ac
  le : ed'.ipts.map (·.le) = ed.ipts.map (·.le)

theorem Shift.edge (h : Shift c m m') (w : WF m) (w' : WF m') (hp : Proper m) (hq : Prepared m) (hq' : Prepared m') {k : Key} (hk : k ∈ m.ekeys) :
    EdgeLike (m.edge k) (m'.edge k) := by
  have hcor : ∀ t, t ∈ m.eids → ∀ i, IsCorner m t i → i ∈ m.nids := fun t ht i hi => corner_mem w hp.distinct ht hi
  have hk' : k ∈ m'.ekeys := by rw [h.ekeys]; exact hk
  have hon : ∀ t, otherNode m' t (m'.edge k) = otherNode m t (m.edge k) := by
    intro t; unfold otherNode; rw [h.triaNodes, h.n1, h.n2]
  rcases edge_shape w hp hk with ⟨t, o, h1, h2, h3⟩ | ⟨t1, t2, o1, o2, h1, h2, h3, h4, h5, h6, h7⟩
  · have e1 : m.edge k = bEdge m k t o := congrArg Prod.fst ((hq.geom k hk).symm.trans (geomEdge_boundary w hk h1 h3 h2.ino))
    have e2 : m'.edge k = bEdge m' k t o := congrArg Prod.fst ((hq'.geom k hk').symm.trans
      (geomEdge_boundary w' hk' ((h.trias k).trans h1) ((hon t).trans h3) (by rw [h.nids]; exact h2.ino)))
    have hm := h.mid (hcor t h2.mem)
    have hor := h.orient (x := m.mid t) h2.ina h2.inb
    have hab : (Meshless.orient m (m.mid t) k.1 k.2).1 ∈ m.nids ∧ (Meshless.orient m (m.mid t) k.1 k.2).2 ∈ m.nids := by
      rcases orient_cases m (m.mid t) k.1 k.2 with e | e <;> rw [e]
      exacts [⟨h2.ina, h2.inb⟩, ⟨h2.inb, h2.ina⟩]
    refine ⟨h.n1 k, h.n2 k, h.trias k, by rw [e1, e2]; rfl, by rw [e1, e2]; rfl, ?_, ?_⟩
    · rw [e1, e2]
      simp only [bEdge]
      rw [hm, hor, h.xyz _ hab.1, h.xyz _ hab.2, polyArea4_shift]
    · rw [e1, e2]
      simp only [bEdge, iptsA, iptsB, mkIPt, List.cons_append, List.nil_append, List.map_cons, List.map_nil]
      rw [hm, hor, h.xyz _ hab.1, h.xyz _ hab.2, Vec3.add_sub_add, Vec3.add_sub_add, Vec3.add_sub_add]
  · have e1 : m.edge k = iEdge m k t1 t2 o1 o2 := congrArg Prod.fst ((hq.geom k hk).symm.trans (geomEdge_interior w hk h1 h6 h2.ino h7 h3.ino))
    have e2 : m'.edge k = iEdge m' k t1 t2 o1 o2 := congrArg Prod.fst ((hq'.geom k hk').symm.trans
      (geomEdge_interior w' hk' ((h.trias k).trans h1) ((hon t1).trans h6) (by rw [h.nids]; exact h2.ino) ((hon t2).trans h7) (by rw [h.nids]; exact h3.ino)))
    have hm1 := h.mid (hcor t1 h2.mem)
    have hm2 := h.mid (hcor t2 h3.mem)
    have hor := h.orient (x := m.mid t1) h2.ina h2.inb
    have hab : (Meshless.orient m (m.mid t1) k.1 k.2).1 ∈ m.nids ∧ (Meshless.orient m (m.mid t1) k.1 k.2).2 ∈ m.nids := by
      rcases orient_cases m (m.mid t1) k.1 k.2 with e | e <;> rw [e]
      exacts [⟨h2.ina, h2.inb⟩, ⟨h2.inb, h2.ina⟩]
    refine ⟨h.n1 k, h.n2 k, h.trias k, by rw [e1, e2]; rfl, by rw [e1, e2]; rfl, ?_, ?_⟩
    · rw [e1, e2]
      simp only [iEdge]
      rw [hm1, hm2, hor, h.xyz _ hab.1, h.xyz _ hab.2, polyArea5_shift]
    · rw [e1, e2]
      simp only [iEdge, iptsA, iptsI, mkIPt, List.cons_append, List.nil_append, List.map_cons, List.map_nil]
      rw [hm1, hm2, hor, h.xyz _ hab.1, h.xyz _ hab.2, Vec3.add_sub_add, Vec3.add_sub_add, Vec3.add_sub_add, Vec3.add_sub_add]

theorem Prepared.index_eq (hq : Prepared m) (hq' : Prepared m') (hn : m'.nids = m.nids) {i : ℕ} (hi : i ∈ m.nids) :
    (m'.node i).index = (m.node i).index := by
  obtain ⟨j, hj, rfl⟩ := List.getElem_of_mem hi
  rw [hq.index j hj]
  have := hq'.index j (by rw [hn]; exact hj)
  simpa only [hn] using this

/-- The increment of an edge does not change, unless the edge is interior and `c.y ≠ c.z` -/
theorem Shift.edgeSG (h : Shift c m m') (w : WF m) (w' : WF m') (hp : Proper m) (hq : Prepared m) (hq' : Prepared m') {k : Key} (hk : k ∈ m.ekeys)
    (hc : c.y = c.z ∨ (m.edge k).trias.length = 1) (pn : Bool) (al : ℝ) (fa : Bool) :
    Meshless.edgeSG m' pn al fa k = Meshless.edgeSG m pn al fa k := by
  have hcor : ∀ t, t ∈ m.eids → ∀ i, IsCorner m t i → i ∈ m.nids := fun t ht i hi => corner_mem w hp.distinct ht hi
  have he := h.edge w w' hp hq hq' hk
  have hix : ∀ {i}, i ∈ m.nids → (m'.node i).index = (m.node i).index := fun hi => hq.index_eq hq' h.nids hi
  have hends := w.ends k hk
  have hen := w.en k hk
  have hor : ∀ t, t ∈ m.eids → Meshless.edgeOrient m' (m'.edge k) t = Meshless.edgeOrient m (m.edge k) t := fun t ht =>
    h.edgeOrient he.n1 he.n2 (hcor t ht) (by rw [hen.1]; exact hends.1) (by rw [hen.2]; exact hends.2)
  have hab : ∀ t, (Meshless.edgeOrient m (m.edge k) t).1 ∈ m.nids ∧ (Meshless.edgeOrient m (m.edge k) t).2 ∈ m.nids := by
    intro t; unfold Meshless.edgeOrient
    split <;> rw [hen.1, hen.2]
    exacts [⟨hends.2, hends.1⟩, hends]
  unfold Meshless.edgeSG
  rw [he.trias]
  rcases prepared_shape w hp hq hk with ⟨t, o, e1, hs⟩ | ⟨t1, t2, o1, o2, e1, hs1, hs2, -, -⟩
  · have htr : (m.edge k).trias = [t] := by rw [e1]; rfl
    have ho : (m.edge k).other1 = some o := by rw [e1]; rfl
    rw [htr]
    dsimp only
    rw [hor t hs.mem]
    obtain ⟨ha, hb⟩ := hab t
    generalize (Meshless.edgeOrient m (m.edge k) t).1 = a at *
    generalize (Meshless.edgeOrient m (m.edge k) t).2 = b at *
    congr 1
    unfold edgeBEnv
    rw [he.o1, he.Ac, ho]
    rcases (m.edge k).Ac with _ | Ac
    · rfl
    dsimp only
    have h1 : edgeBShear m' pn t a b o = edgeBShear m pn t a b o := by unfold edgeBShear; simp only [h.prop, h.tria]
    have h2 : edgeBMaxl (m'.edge k) Ac fa = edgeBMaxl (m.edge k) Ac fa := by unfold edgeBMaxl; rw [he.le]
    rw [h1, h2, hix ha, hix hb, hix hs.ino, h.xyz a ha, h.xyz b hb, h.mid (hcor t hs.mem)]
    simp only [Vec3.add, add_sub_add_right_eq_sub]
  · have htr : (m.edge k).trias = [t1, t2] := by rw [e1]; rfl
    have hcc : c.y = c.z := hc.resolve_right (by rw [htr]; simp)
    have ho1 : (m.edge k).other1 = some o1 := by rw [e1]; rfl
    have ho2 : (m.edge k).other2 = some o2 := by rw [e1]; rfl
    rw [htr]
    dsimp only
    rw [hor t1 hs1.mem]
    obtain ⟨ha, hb⟩ := hab t1
    generalize (Meshless.edgeOrient m (m.edge k) t1).1 = a at *
    generalize (Meshless.edgeOrient m (m.edge k) t1).2 = b at *
    congr 1
    unfold edgeIEnv
    rw [he.o1, he.o2, he.Ac, ho1, ho2]
    rcases (m.edge k).Ac with _ | Ac
    · rfl
    dsimp only
    have h1 : ∀ A1 A2, edgeIShear m' pn A1 A2 Ac t1 t2 a b o1 o2 = edgeIShear m pn A1 A2 Ac t1 t2 a b o1 o2 := by
      intro A1 A2; unfold edgeIShear; simp only [h.prop, h.tria]
    have h2 : edgeIMaxl m' (m'.edge k) Ac fa = edgeIMaxl m (m.edge k) Ac fa := by
      unfold edgeIMaxl
      rw [he.le, he.n1, he.n2, h.xyz _ (by rw [hen.1]; exact hends.1), h.xyz _ (by rw [hen.2]; exact hends.2), Vec3.add_sub_add]
    rw [h2, hix ha, hix hb, hix hs1.ino, hix hs2.ino, h.xyz a ha, h.xyz b hb, h.mid (hcor t1 hs1.mem), h.mid (hcor t2 hs2.mem),
      polyArea3_shift, polyArea3_shift, h1]
    simp only [Vec3.add, ← hcc, add_sub_add_right_eq_sub]

/-! ### cell based methods -/

theorem Shift.cellMaxl (h : Shift c m m') (w : WF m) {e : ℕ} (he : e ∈ m.eids) (A : ℝ) (fa : Bool) :
    Meshless.cellMaxl m' e A fa = Meshless.cellMaxl m e A fa := by
  unfold Meshless.cellMaxl
  have : (m'.tria e).edges.map (edgeLen m') = (m.tria e).edges.map (edgeLen m) := by
    rw [h.tria]
    refine List.map_congr_left fun k hk => ?_
    have hk' : k ∈ m.ekeys := (w.mem_ekeys k).2 ⟨e, he, (w.tedges e he).subset hk⟩
    unfold edgeLen
    rw [h.n1, h.n2, h.xyz _ (by rw [(w.en k hk').1]; exact (w.ends k hk').1), h.xyz _ (by rw [(w.en k hk').2]; exact (w.ends k hk').2), Vec3.add_sub_add]
  rw [this]

theorem Shift.triaArea (h : Shift c m m') {e : ℕ} (hc : ∀ i, IsCorner m e i → i ∈ m.nids) : m'.triaArea e = m.triaArea e := by
  unfold Mesh.triaArea
  dsimp only
  rw [h.tria, h.pos _ (hc _ (Or.inl rfl)), h.pos _ (hc _ (Or.inr (Or.inl rfl))), h.pos _ (hc _ (Or.inr (Or.inr rfl)))]
  simp only [Vec3.add_sub_add]

theorem Shift.cellSEnv (h : Shift c m m') (w : WF m) (w' : WF m') (hp : Proper m) (hq : Prepared m) (hq' : Prepared m') {e : ℕ} (he : e ∈ m.eids)
    (pn : Bool) (al : ℝ) (fa : Bool) : Meshless.cellSEnv m' pn al fa e = Meshless.cellSEnv m pn al fa e := by
  have hcor := fun i hi => corner_mem w hp.distinct (e := e) (i := i) he hi
  have hor : cellOrient m' e = cellOrient m e := by
    unfold cellOrient
    dsimp only
    rw [h.tria, h.xyz _ (hcor _ (Or.inl rfl)), h.xyz _ (hcor _ (Or.inr (Or.inl rfl))), h.mid hcor, Vec3.add_sub_add, Vec3.add_sub_add]
  have hmem : (cellOrient m e).1 ∈ m.nids ∧ (cellOrient m e).2.1 ∈ m.nids ∧ (cellOrient m e).2.2 ∈ m.nids := by
    unfold cellOrient
    dsimp only
    split
    · exact ⟨hcor _ (Or.inr (Or.inl rfl)), hcor _ (Or.inl rfl), hcor _ (Or.inr (Or.inr rfl))⟩
    · exact ⟨hcor _ (Or.inl rfl), hcor _ (Or.inr (Or.inl rfl)), hcor _ (Or.inr (Or.inr rfl))⟩
  unfold Meshless.cellSEnv
  rw [hor]
  revert hmem
  rcases cellOrient m e with ⟨n1, n2, n3⟩
  rintro ⟨i1, i2, i3⟩
  dsimp only at i1 i2 i3 ⊢
  have h1 : cellShear m' pn e n1 n2 n3 = cellShear m pn e n1 n2 n3 := by unfold cellShear; simp only [h.prop, h.tria]
  rw [h1, h.triaArea hcor, h.cellMaxl w he, hq.index_eq hq' h.nids i1, hq.index_eq hq' h.nids i2, hq.index_eq hq' h.nids i3, h.xyz n1 i1, h.xyz n2 i2,
    h.xyz n3 i3, h.mid hcor, polyArea3_shift, polyArea3_shift, polyArea3_shift]
  simp only [Vec3.add, add_sub_add_right_eq_sub]

theorem Shift.cellNSEnv (h : Shift c m m') (w : WF m) (w' : WF m') (hp : Proper m) (hq : Prepared m) (hq' : Prepared m') {e : ℕ} (he : e ∈ m.eids)
    (pn : Bool) (al : ℝ) (fa : Bool) : Meshless.cellNSEnv m' pn al fa e = Meshless.cellNSEnv m pn al fa e := by
  have hcor := fun i hi => corner_mem w hp.distinct (e := e) (i := i) he hi
  have hor : cellNSOrient m' e = cellNSOrient m e := by
    unfold cellNSOrient
    dsimp only
    rw [h.tria, h.xyz _ (hcor _ (Or.inl rfl)), h.xyz _ (hcor _ (Or.inr (Or.inl rfl))), h.xyz _ (hcor _ (Or.inr (Or.inr rfl))), Vec3.add_sub_add, Vec3.add_sub_add]
  have hmem : (cellNSOrient m e).1 ∈ m.nids ∧ (cellNSOrient m e).2.1 ∈ m.nids ∧ (cellNSOrient m e).2.2 ∈ m.nids := by
    unfold cellNSOrient
    dsimp only
    split
    · exact ⟨hcor _ (Or.inr (Or.inl rfl)), hcor _ (Or.inl rfl), hcor _ (Or.inr (Or.inr rfl))⟩
    · exact ⟨hcor _ (Or.inl rfl), hcor _ (Or.inr (Or.inl rfl)), hcor _ (Or.inr (Or.inr rfl))⟩
  unfold Meshless.cellNSEnv
  rw [hor]
  revert hmem
  rcases cellNSOrient m e with ⟨n1, n2, n3⟩
  rintro ⟨i1, i2, i3⟩
  dsimp only at i1 i2 i3 ⊢
  have h1 : cellShear m' pn e n1 n2 n3 = cellShear m pn e n1 n2 n3 := by unfold cellShear; simp only [h.prop, h.tria]
  rw [h1, h.triaArea hcor, h.cellMaxl w he, hq.index_eq hq' h.nids i1, hq.index_eq hq' h.nids i2, hq.index_eq hq' h.nids i3, h.xyz n1 i1, h.xyz n2 i2,
    h.xyz n3 i3]
  simp only [Vec3.add, add_sub_add_right_eq_sub]

/-- the increments of `add_k0s` under a common motion of the nodes -/
theorem Shift.k0sIncr (h : Shift c m m') (w : WF m) (w' : WF m') (hp : Proper m) (hq : Prepared m) (hq' : Prepared m') {method : String}
    (hc : method = "edge-based" → c.y = c.z ∨ ∀ k ∈ m.ekeys, (m.edge k).trias.length = 1) (pn : Bool) (al : ℝ) (fa : Bool) :
    Meshless.k0sIncr m' pn method al fa = Meshless.k0sIncr m pn method al fa := by
  unfold Meshless.k0sIncr
  split
  · rw [h.eids]; exact List.map_congr_left fun e he => by rw [h.cellSEnv w w' hp hq hq' he]
  split
  · rw [h.eids]; exact List.map_congr_left fun e he => by rw [h.cellNSEnv w w' hp hq hq' he]
  split
  · rename_i hm
    rw [h.ekeys]; exact List.map_congr_left fun k hk => h.edgeSG w w' hp hq hq' hk ((hc hm).imp_right fun f => f k hk) pn al fa
  · rfl

end

end Meshless
