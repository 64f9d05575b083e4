import Verif.Model.Session
import Verif.Lemmas.WF

set_option autoImplicit false

namespace Meshless

/-- Same nodes, coordinates, properties, triangles, edges and incidence data; only derived attributes may differ. -/
structure SameStatic (m m' : Mesh) : Prop where
  nids : m'.nids = m.nids
  eids : m'.eids = m.eids
  ekeys : m'.ekeys = m.ekeys
  tria : m'.tria = m.tria
  xyz : ∀ i, (m'.node i).xyz = (m.node i).xyz
  cp : ∀ i, (m'.node i).cp = (m.node i).cp
  prop : ∀ i, (m'.node i).prop = (m.node i).prop
  ntrias : ∀ i, (m'.node i).trias = (m.node i).trias
  nedges : ∀ i, (m'.node i).edges = (m.node i).edges
  n1 : ∀ k, (m'.edge k).n1 = (m.edge k).n1
  n2 : ∀ k, (m'.edge k).n2 = (m.edge k).n2
  trias : ∀ k, (m'.edge k).trias = (m.edge k).trias

theorem SameStatic.refl (m : Mesh) : SameStatic m m :=
  ⟨rfl, rfl, rfl, rfl, fun _ => rfl, fun _ => rfl, fun _ => rfl, fun _ => rfl, fun _ => rfl, fun _ => rfl, fun _ => rfl, fun _ => rfl⟩

theorem SameStatic.symm {m m' : Mesh} (h : SameStatic m m') : SameStatic m' m :=
  ⟨h.nids.symm, h.eids.symm, h.ekeys.symm, h.tria.symm, fun i => (h.xyz i).symm, fun i => (h.cp i).symm, fun i => (h.prop i).symm,
   fun i => (h.ntrias i).symm, fun i => (h.nedges i).symm, fun i => (h.n1 i).symm, fun i => (h.n2 i).symm, fun i => (h.trias i).symm⟩

theorem SameStatic.trans {m m' m'' : Mesh} (h : SameStatic m m') (g : SameStatic m' m'') : SameStatic m m'' :=
  ⟨g.nids.trans h.nids, g.eids.trans h.eids, g.ekeys.trans h.ekeys, g.tria.trans h.tria, fun i => (g.xyz i).trans (h.xyz i),
   fun i => (g.cp i).trans (h.cp i), fun i => (g.prop i).trans (h.prop i),
   fun i => (g.ntrias i).trans (h.ntrias i), fun i => (g.nedges i).trans (h.nedges i), fun i => (g.n1 i).trans (h.n1 i),
   fun i => (g.n2 i).trans (h.n2 i), fun i => (g.trias i).trans (h.trias i)⟩

theorem SameStatic.pos {m m' : Mesh} (h : SameStatic m m') (i : ℕ) : m'.pos i = m.pos i := by
  unfold Mesh.pos; rw [h.xyz, h.cp]

theorem SameStatic.mid {m m' : Mesh} (h : SameStatic m m') (e : ℕ) : m'.mid e = m.mid e := by
  unfold Mesh.mid; simp only [h.tria, h.pos]

theorem SameStatic.triaNodes {m m' : Mesh} (h : SameStatic m m') (e : ℕ) : m'.triaNodes e = m.triaNodes e := by
  unfold Mesh.triaNodes; rw [h.tria]

theorem SameStatic.wf {m m' : Mesh} (h : SameStatic m m') (w : WF m) : WF m' := by
  refine ⟨h.nids ▸ w.nids_nodup, h.eids ▸ w.eids_nodup, h.ekeys ▸ w.ekeys_nodup, ?_, ?_, ?_, ?_, ?_⟩
  · intro k; rw [h.ekeys, h.eids, h.tria]; exact w.mem_ekeys k
  · intro k hk; rw [h.nids]; exact w.ends k (h.ekeys ▸ hk)
  · intro k hk; rw [h.n1, h.n2]; exact w.en k (h.ekeys ▸ hk)
  · intro k hk; rw [h.trias, h.tria, h.eids]; exact w.etrias k (h.ekeys ▸ hk)
  · intro e he; rw [h.tria]; exact w.tedges e (h.eids ▸ he)

/-- two edge objects with the same ends and triangles -/
def SameEdge (a b : Edge) : Prop := b.n1 = a.n1 ∧ b.n2 = a.n2 ∧ b.trias = a.trias

theorem mkIPt_congr {m m' : Mesh} (h : SameStatic m m') (t a b c : ℕ) (f1 f2 f3 : ℝ) (n : Vec3) (le : ℝ) :
    mkIPt m' t a b c f1 f2 f3 n le = mkIPt m t a b c f1 f2 f3 n le := by
  unfold mkIPt; simp only [h.xyz]

theorem otherNode_congr {m m' : Mesh} (h : SameStatic m m') {a b : Edge} (he : SameEdge a b) (t : ℕ) :
    otherNode m' t b = otherNode m t a := by
  unfold otherNode; rw [h.triaNodes, he.1, he.2.1]

theorem orient_congr {m m' : Mesh} (h : SameStatic m m') (c : Vec3) (a b : ℕ) : orient m' c a b = orient m c a b := by
  unfold orient; simp only [h.xyz]

/-- the outcome of the geometry step depends on static data only -/
theorem geomEdge_congr {m m' : Mesh} (h : SameStatic m m') {a b : Edge} (he : SameEdge a b) :
    (geomEdge m' b).2 = (geomEdge m a).2 ∧ ((geomEdge m a).2 = none → (geomEdge m' b).1 = (geomEdge m a).1) ∧
    SameEdge a (geomEdge m a).1 := by
  obtain ⟨e1, e2, e3⟩ := he
  have ho := fun t => otherNode_congr h ⟨e1, e2, e3⟩ t
  obtain ⟨an1, an2, at', asd, aip, aAc, ao1, ao2⟩ := a
  obtain ⟨bn1, bn2, bt', bsd, bip, bAc, bo1, bo2⟩ := b
  dsimp only at e1 e2 e3
  subst e1 e2 e3
  rcases bt' with _ | ⟨t1, _ | ⟨t2, _ | ⟨t3, l⟩⟩⟩
  · simp [geomEdge, SameEdge]
  · simp only [geomEdge, ho]
    rcases otherNode m t1 _ with _ | o1
    · simp [SameEdge]
    · by_cases hc : o1 ∈ m.nids
      · simp only [h.nids, if_pos hc, orient_congr h, h.mid, h.xyz, iptsA, iptsB, mkIPt_congr h, finishEdge]
        exact ⟨trivial, fun _ => trivial, rfl, rfl, rfl⟩
      · simp [h.nids, if_neg hc, SameEdge]
  · simp only [geomEdge, ho]
    rcases otherNode m t1 _ with _ | o1
    · simp [SameEdge]
    rcases otherNode m t2 _ with _ | o2
    · simp [SameEdge]
    by_cases hc : o1 ∈ m.nids
    · by_cases hc2 : o2 ∈ m.nids
      · simp only [h.nids, if_pos hc, if_pos hc2, orient_congr h, h.mid, h.xyz, iptsA, iptsI, mkIPt_congr h, finishEdge]
        exact ⟨trivial, fun _ => trivial, rfl, rfl, rfl⟩
      · simp [h.nids, if_pos hc, if_neg hc2, SameEdge]
    · simp [h.nids, if_neg hc, SameEdge]
  · simp [geomEdge, SameEdge]

theorem sameStatic_setEdge (m : Mesh) (k : Key) (ed : Edge) (h : SameEdge (m.edge k) ed) :
    SameStatic m { m with edge := Function.update m.edge k ed } := by
  refine ⟨rfl, rfl, rfl, rfl, fun _ => rfl, fun _ => rfl, fun _ => rfl, fun _ => rfl, fun _ => rfl, ?_, ?_, ?_⟩ <;>
  · intro k'
    by_cases hk : k' = k
    · subst hk; simp [h.1, h.2.1, h.2.2]
    · simp [Function.update_of_ne hk]

/-- the geometry loop: static data kept, and on success every visited edge holds the outcome of its step -/
theorem geomPass_spec : ∀ (ks : List Key) (m : Mesh), ks.Nodup →
    SameStatic m (geomPass m ks).1 ∧ (∀ i, (geomPass m ks).1.node i = m.node i) ∧
    (∀ k, k ∉ ks → (geomPass m ks).1.edge k = m.edge k) ∧
    ((geomPass m ks).2 = none → ∀ k ∈ ks, (geomEdge m (m.edge k)).2 = none ∧ (geomPass m ks).1.edge k = (geomEdge m (m.edge k)).1) ∧
    ((geomPass m ks).2 = none ↔ ∀ k ∈ ks, (geomEdge m (m.edge k)).2 = none) ∧
    (∀ e, (geomPass m ks).2 = some e → ∃ k ∈ ks, (geomEdge m (m.edge k)).2 = some e) := by
  intro ks
  induction ks with
  | nil => intro m _; exact ⟨SameStatic.refl m, fun _ => rfl, fun _ _ => rfl, fun _ k hk => by simp at hk, by simp [geomPass], by simp [geomPass]⟩
  | cons k ks ih =>
    intro m hnd
    obtain ⟨hk, hnd'⟩ := List.nodup_cons.1 hnd
    have hse := (geomEdge_congr (SameStatic.refl m) (⟨rfl, rfl, rfl⟩ : SameEdge (m.edge k) (m.edge k))).2.2
    have hss := sameStatic_setEdge m k _ hse
    unfold geomPass
    rcases hg : geomEdge m (m.edge k) with ⟨ed, err⟩
    rw [hg] at hse hss
    simp only at hse hss
    cases err with
    | some e =>
      refine ⟨hss, fun _ => rfl, ?_, by simp, ?_, ?_⟩
      · intro k' hk'
        have : k' ≠ k := fun h => hk' (h ▸ List.mem_cons_self)
        simp [Function.update_of_ne this]
      · simp only [reduceCtorEq, List.mem_cons, false_iff, not_forall]
        exact ⟨k, Or.inl rfl, by rw [hg]; simp⟩
      · intro e' he'
        exact ⟨k, by simp, by rw [hg]; exact he'⟩
    | none =>
      dsimp only
      set m1 : Mesh := { m with edge := Function.update m.edge k ed } with hm1
      obtain ⟨i1, i2, i3, i4, i5, i6⟩ := ih m1 hnd'
      have hk1 : ∀ k' ∈ ks, (geomEdge m1 (m1.edge k')).2 = (geomEdge m (m.edge k')).2 ∧
          ((geomEdge m (m.edge k')).2 = none → (geomEdge m1 (m1.edge k')).1 = (geomEdge m (m.edge k')).1) := by
        intro k' hk'
        have : k' ≠ k := fun h => hk (h ▸ hk')
        have he : m1.edge k' = m.edge k' := by simp [hm1, Function.update_of_ne this]
        rw [he]
        have := geomEdge_congr hss (⟨rfl, rfl, rfl⟩ : SameEdge (m.edge k') (m.edge k'))
        exact ⟨this.1, this.2.1⟩
      refine ⟨hss.trans i1, fun i => by rw [i2], ?_, ?_, ?_, ?_⟩
      · intro k' hk'
        simp only [List.mem_cons, not_or] at hk'
        rw [i3 k' hk'.2]
        simp [hm1, Function.update_of_ne hk'.1]
      · intro hn k' hk'
        rcases List.mem_cons.1 hk' with rfl | hk''
        · rw [hg]
          refine ⟨rfl, ?_⟩
          rw [i3 k' hk]; simp [hm1]
        · obtain ⟨j1, j2⟩ := i4 hn k' hk''
          have h1 := (hk1 k' hk'').1
          rw [j1] at h1
          exact ⟨h1.symm, by rw [j2]; exact (hk1 k' hk'').2 h1.symm⟩
      · rw [i5]
        constructor
        · intro h k' hk'
          rcases List.mem_cons.1 hk' with rfl | hk''
          · rw [hg]
          · rw [← (hk1 k' hk'').1]; exact h k' hk''
        · intro h k' hk'
          rw [(hk1 k' hk').1]; exact h k' (List.mem_cons_of_mem _ hk')
      · intro e he
        obtain ⟨k', hk', h'⟩ := i6 e he
        exact ⟨k', List.mem_cons_of_mem _ hk', by rw [← (hk1 k' hk').1]; exact h'⟩

/-- the numbering loop -/
theorem numberNodes_spec : ∀ (is : List ℕ) (m : Mesh) (c : ℕ), is.Nodup →
    SameStatic m (numberNodes m is c) ∧ (numberNodes m is c).edge = m.edge ∧
    (∀ i, i ∉ is → (numberNodes m is c).node i = m.node i) ∧
    ∀ j (hj : j < is.length), (numberNodes m is c).node is[j] = { m.node is[j] with index := some (c + j) } := by
  intro is
  induction is with
  | nil => intro m c _; exact ⟨SameStatic.refl m, rfl, fun _ _ => rfl, fun j hj => by simp at hj⟩
  | cons i is ih =>
    intro m c hnd
    obtain ⟨hi, hnd'⟩ := List.nodup_cons.1 hnd
    unfold numberNodes
    set m1 := m.updNode i fun n => { n with index := some c } with hm1
    obtain ⟨h1, h2, h3, h4⟩ := ih m1 (c + 1) hnd'
    have hss : SameStatic m m1 := by
      refine ⟨rfl, rfl, rfl, rfl, ?_, ?_, ?_, ?_, ?_, fun _ => rfl, fun _ => rfl, fun _ => rfl⟩ <;>
      · intro j
        by_cases hj : j = i
        · subst hj; simp [hm1, Mesh.updNode]
        · simp [hm1, Mesh.updNode, Function.update_of_ne hj]
    refine ⟨hss.trans h1, by rw [h2]; rfl, ?_, ?_⟩
    · intro j hj
      simp only [List.mem_cons, not_or] at hj
      rw [h3 j hj.2]; simp [hm1, Mesh.updNode, Function.update_of_ne hj.1]
    · intro j hj
      cases j with
      | zero =>
        simp only [List.getElem_cons_zero, Nat.add_zero]
        rw [h3 i hi]; simp [hm1, Mesh.updNode]
      | succ j =>
        have hj' : j < is.length := by simpa using hj
        simp only [List.getElem_cons_succ]
        rw [h4 j hj']
        have hne : is[j] ≠ i := fun h => hi (h ▸ List.getElem_mem hj')
        simp only [hm1, Mesh.updNode, Function.update_of_ne hne]
        congr 2; omega

/-- a mesh prepared for an analysis: what a successful `calc_k0` leaves behind -/
structure Prepared (m : Mesh) : Prop where
  geom : ∀ k ∈ m.ekeys, geomEdge m (m.edge k) = (m.edge k, none)
  index : ∀ j (hj : j < m.nids.length), (m.node m.nids[j]).index = some j

/-- structure of a `calc_k0` run -/
theorem calcK0_cases (m : Mesh) (pn : Bool) (w : WF m) :
    SameStatic m (calcK0 m pn).1 ∧
    (∀ K, (calcK0 m pn).2 = .ok K → m.ekeys.any (edgeMissing m pn) = false ∧ Prepared (calcK0 m pn).1 ∧ m.nids ≠ [] ∧
      matLoop (k0Edge (calcK0 m pn).1 pn) (Mat.zeros (m.nids.length * 5)) m.ekeys = (K, none)) := by
  unfold calcK0
  split
  · exact ⟨SameStatic.refl m, fun K h => by cases h⟩
  · rename_i hmiss
    have g := geomPass_spec m.ekeys m w.ekeys_nodup
    rcases hg : geomPass m m.ekeys with ⟨m1, err⟩
    rw [hg] at g
    obtain ⟨g1, g2, g3, g4, g5, g6⟩ := g
    cases err with
    | some e => exact ⟨g1, fun K h => by cases h⟩
    | none =>
      dsimp only at *
      split
      · exact ⟨g1, fun K h => by cases h⟩
      · rename_i hne
        have hn := numberNodes_spec m1.nids m1 0 (g1.nids ▸ w.nids_nodup)
        set m2 := numberNodes m1 m1.nids 0 with hm2
        obtain ⟨n1, n2, n3, n4⟩ := hn
        have hss : SameStatic m m2 := g1.trans n1
        have hprep : Prepared m2 := by
          constructor
          · intro k hk
            rw [hss.ekeys] at hk
            obtain ⟨q1, q2⟩ := g4 rfl k hk
            have hse := (geomEdge_congr (SameStatic.refl m) (⟨rfl, rfl, rfl⟩ : SameEdge (m.edge k) (m.edge k))).2.2
            have := geomEdge_congr hss hse
            rw [n2, q2]
            exact Prod.ext (this.2.1 q1) (this.1.trans q1)
          · intro j hj
            have : m2.nids = m1.nids := n1.nids
            simp only [this] at hj ⊢
            rw [n4 j hj]
            simp
        rcases hl : matLoop (k0Edge m2 pn) (Mat.zeros (m2.nids.length * 5)) m2.ekeys with ⟨K, err⟩
        cases err with
        | some e => exact ⟨hss, fun K h => by cases h⟩
        | none =>
          refine ⟨hss, fun K' h => ?_⟩
          have : K = K' := by injection h
          subst this
          refine ⟨by simpa using hmiss, hprep, ?_, ?_⟩
          · rw [← g1.nids]; exact hne
          · rw [hss.nids, hss.ekeys] at hl; exact hl

/-- static data are kept by every analysis call -/
theorem calcK0_static (m : Mesh) (pn : Bool) (w : WF m) : SameStatic m (calcK0 m pn).1 := (calcK0_cases m pn w).1

/-- connectivity: everything about a mesh except coordinates, properties and derived attributes -/
theorem wf_step (m : Mesh) (w : WF m) (op : Op) : WF (step m op) := by
  cases op with
  | setNodeProp i p =>
    simp only [step]; split
    · exact ⟨w.nids_nodup, w.eids_nodup, w.ekeys_nodup, w.mem_ekeys, w.ends, w.en, w.etrias, w.tedges⟩
    · exact w
  | moveNode i x =>
    simp only [step]; split
    · exact ⟨w.nids_nodup, w.eids_nodup, w.ekeys_nodup, w.mem_ekeys, w.ends, w.en, w.etrias, w.tedges⟩
    · exact w
  | setTriaProp e p =>
    simp only [step]; split
    · have hT : ∀ e', ((m.updTria e fun t => { t with prop := p }).tria e').edgeIds = (m.tria e').edgeIds ∧
          ((m.updTria e fun t => { t with prop := p }).tria e').edges = (m.tria e').edges := by
        intro e'
        by_cases he : e' = e
        · subst he; simp [Mesh.updTria, Tria.edgeIds]
        · simp [Mesh.updTria, Function.update_of_ne he]
      refine ⟨w.nids_nodup, w.eids_nodup, w.ekeys_nodup, ?_, w.ends, w.en, ?_, ?_⟩
      · intro k; simp only [hT]; exact w.mem_ekeys k
      · intro k hk
        rw [sideTrias_congr (fun e' _ => (hT e').1)]
        exact w.etrias k hk
      · intro e' he'; rw [(hT e').1, (hT e').2]; exact w.tedges e' he'
    · exact w
  | calcK0 pn => exact (calcK0_static m pn w).wf w
  | addK0s => exact w
  | calcKG => exact w

theorem wf_run (ops : List Op) : ∀ m : Mesh, WF m → WF (run m ops) := by
  induction ops with
  | nil => intro m w; exact w
  | cons op ops ih => intro m w; exact ih _ (wf_step m w op)

/-- meshes a user can hold: read by one of the readers, then any script -/
inductive Reachable : Mesh → Prop
  | delaunay (pts : List Pt) (tris : List (ℤ × ℤ × ℤ)) (m : Mesh) (h : readDelaunay pts tris = .ok m) (ops : List Op) :
      Reachable (run m ops)
  | deck (d : Deck) (hn : (d.nodes.map (·.1)).Nodup) (he : (d.elems.map (·.1)).Nodup) (m : Mesh) (h : readMesh d = .ok m)
      (ops : List Op) : Reachable (run m ops)

theorem Reachable.wf {m : Mesh} (h : Reachable m) : WF m := by
  cases h with
  | delaunay pts tris m h ops => exact wf_run ops m (wf_readDelaunay h)
  | deck d hn he m h ops => exact wf_run ops m (wf_readMesh hn he h)

theorem Reachable.step {m : Mesh} (h : Reachable m) (op : Op) : Reachable (step m op) := by
  have key : ∀ m0 ops, Meshless.step (run m0 ops) op = run m0 (ops ++ [op]) := by
    intro m0 ops; simp [run, List.foldl_append]
  cases h with
  | delaunay pts tris m h ops => rw [key]; exact .delaunay pts tris m h _
  | deck d hn he m h ops => rw [key]; exact .deck d hn he m h _

theorem Reachable.calcK0 {m : Mesh} (h : Reachable m) (pn : Bool) : Reachable (calcK0 m pn).1 := h.step (.calcK0 pn)

end Meshless
