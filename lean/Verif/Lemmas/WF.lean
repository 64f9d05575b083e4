import Verif.Lemmas.Reader
import Mathlib.Algebra.BigOperators.Group.List.Lemmas

set_option autoImplicit false

namespace Meshless

/-- the corners of the triangle are three different nodes -/
def Tria.Distinct (t : Tria) : Prop := t.n1 ≠ t.n2 ∧ t.n2 ≠ t.n3 ∧ t.n3 ≠ t.n1

/-- `i` is a corner -/
def Tria.HasCorner (t : Tria) (i : ℕ) : Prop := i = t.n1 ∨ i = t.n2 ∨ i = t.n3

theorem sortPair_cases (a b : ℕ) : (sortPair a b = (a, b) ∧ a ≤ b) ∨ (sortPair a b = (b, a) ∧ b < a) := by
  unfold sortPair
  split
  · left; exact ⟨rfl, by assumption⟩
  · right; exact ⟨rfl, by omega⟩

theorem mem_edgeIds {t : Tria} (h : t.Distinct) (k : Key) : k ∈ t.edgeIds ↔ k.1 < k.2 ∧ t.HasCorner k.1 ∧ t.HasCorner k.2 := by
  obtain ⟨a, b, c, p, ed⟩ := t
  obtain ⟨x, y⟩ := k
  obtain ⟨h1, h2, h3⟩ := h
  simp only [Tria.edgeIds, Tria.HasCorner, List.mem_cons, List.not_mem_nil, or_false] at *
  rcases sortPair_cases a b with ⟨e1, l1⟩ | ⟨e1, l1⟩ <;> rcases sortPair_cases b c with ⟨e2, l2⟩ | ⟨e2, l2⟩ <;>
    rcases sortPair_cases c a with ⟨e3, l3⟩ | ⟨e3, l3⟩ <;> rw [e1, e2, e3] <;> simp only [Prod.mk.injEq] <;> omega

theorem mem_edgeIds_corner {t : Tria} {k : Key} (h : k ∈ t.edgeIds) : t.HasCorner k.1 ∧ t.HasCorner k.2 ∧ k.1 ≤ k.2 := by
  obtain ⟨a, b, c, p, ed⟩ := t
  obtain ⟨x, y⟩ := k
  simp only [Tria.edgeIds, Tria.HasCorner, List.mem_cons, List.not_mem_nil, or_false] at *
  rcases sortPair_cases a b with ⟨e1, l1⟩ | ⟨e1, l1⟩ <;> rcases sortPair_cases b c with ⟨e2, l2⟩ | ⟨e2, l2⟩ <;>
    rcases sortPair_cases c a with ⟨e3, l3⟩ | ⟨e3, l3⟩ <;> rw [e1, e2, e3] at h <;> simp only [Prod.mk.injEq] at h <;> omega

theorem edgeIds_nodup {t : Tria} (h : t.Distinct) : t.edgeIds.Nodup := by
  obtain ⟨a, b, c, p, ed⟩ := t
  obtain ⟨h1, h2, h3⟩ := h
  simp only [Tria.edgeIds] at *
  rcases sortPair_cases a b with ⟨e1, l1⟩ | ⟨e1, l1⟩ <;> rcases sortPair_cases b c with ⟨e2, l2⟩ | ⟨e2, l2⟩ <;>
    rcases sortPair_cases c a with ⟨e3, l3⟩ | ⟨e3, l3⟩ <;> rw [e1, e2, e3] <;> simp <;> omega

/-- for triangles with distinct corners a side's triangles are listed once each -/
theorem sideTrias_distinct {tria : ℕ → Tria} {eids : List ℕ} (h : ∀ e ∈ eids, (tria e).Distinct) (k : Key) :
    sideTrias tria eids k = eids.filter fun e => k ∈ (tria e).edgeIds := by
  unfold sideTrias
  induction eids with
  | nil => rfl
  | cons e l ih =>
    rw [List.flatMap_cons, ih fun x hx => h x (List.mem_cons_of_mem _ hx)]
    by_cases hk : k ∈ (tria e).edgeIds
    · rw [List.filter_cons_of_pos (by simpa using hk), (edgeIds_nodup (h e (by simp))).count, if_pos hk]; rfl
    · rw [List.filter_cons_of_neg (by simpa using hk), List.count_eq_zero_of_not_mem hk]; rfl

theorem mem_sideTrias {tria : ℕ → Tria} {eids : List ℕ} {k : Key} {e : ℕ} :
    e ∈ sideTrias tria eids k ↔ e ∈ eids ∧ k ∈ (tria e).edgeIds := by
  unfold sideTrias
  simp only [List.mem_flatMap, List.mem_replicate]
  constructor
  · rintro ⟨e', he, h, rfl⟩
    exact ⟨he, List.count_pos_iff.1 (Nat.pos_of_ne_zero h)⟩
  · rintro ⟨h1, h2⟩
    exact ⟨e, h1, Nat.ne_of_gt (List.count_pos_iff.2 h2), rfl⟩

theorem count_sideTrias {tria : ℕ → Tria} {eids : List ℕ} (hnd : eids.Nodup) (k : Key) {e : ℕ} (he : e ∈ eids) :
    (sideTrias tria eids k).count e = (tria e).edgeIds.count k := by
  unfold sideTrias
  induction eids with
  | nil => simp at he
  | cons a l ih =>
    rw [List.flatMap_cons, List.count_append]
    obtain ⟨h1, h2⟩ := List.nodup_cons.1 hnd
    rcases List.mem_cons.1 he with rfl | he'
    · have : e ∉ l.flatMap fun e => List.replicate ((tria e).edgeIds.count k) e := by
        intro hc
        exact h1 (mem_sideTrias.1 hc).1
      rw [List.count_eq_zero_of_not_mem this, List.count_replicate_self]; rfl
    · rw [ih h2 he']
      have : a ≠ e := fun h => h1 (h ▸ he')
      rw [List.count_replicate]; simp [this]

/-- sum of the multiplicities of the members of `l` over a duplicate-free list containing all of them -/
theorem sum_count {α : Type} [BEq α] [LawfulBEq α] {ks : List α} (hnd : ks.Nodup) : ∀ {l : List α}, (∀ x ∈ l, x ∈ ks) →
    (ks.map fun k => l.count k).sum = l.length := by
  intro l
  induction l with
  | nil => intro _; simp
  | cons a l ih =>
    intro h
    have h1 := ih fun x hx => h x (List.mem_cons_of_mem _ hx)
    have h2 : (ks.map fun k => (a :: l).count k).sum = (ks.map fun k => l.count k + if a == k then 1 else 0).sum := by
      simp only [List.count_cons]
    have h3 : (ks.map fun k => if a == k then 1 else 0).sum = 1 := by
      have hm := h a (by simp)
      clear h1 h2 ih h
      induction ks with
      | nil => simp at hm
      | cons b ks ih =>
        obtain ⟨g1, g2⟩ := List.nodup_cons.1 hnd
        rcases List.mem_cons.1 hm with rfl | hm'
        · have : (ks.map fun k => if a == k then 1 else 0).sum = 0 := by
            apply List.sum_eq_zero
            intro x hx
            obtain ⟨k, hk, rfl⟩ := List.mem_map.1 hx
            have : a ≠ k := fun h => g1 (h ▸ hk)
            simp [this]
          simp [this]
        · have : a ≠ b := fun h => g1 (h ▸ hm')
          simpa [this] using ih g2 hm'
    rw [h2, List.sum_map_add, h1, h3, List.length_cons]

/-- The connectivity invariant of meshes built by the readers. -/
structure WF (m : Mesh) : Prop where
  nids_nodup : m.nids.Nodup
  eids_nodup : m.eids.Nodup
  ekeys_nodup : m.ekeys.Nodup
  mem_ekeys : ∀ k, k ∈ m.ekeys ↔ ∃ e ∈ m.eids, k ∈ (m.tria e).edgeIds
  ends : ∀ k ∈ m.ekeys, k.1 ∈ m.nids ∧ k.2 ∈ m.nids
  en : ∀ k ∈ m.ekeys, (m.edge k).n1 = k.1 ∧ (m.edge k).n2 = k.2
  etrias : ∀ k ∈ m.ekeys, (m.edge k).trias = sideTrias m.tria m.eids k
  tedges : ∀ e ∈ m.eids, (m.tria e).edges.Perm (m.tria e).edgeIds

theorem count_flatMap_replicate {α : Type} [BEq α] [LawfulBEq α] (ks : List α) (hnd : ks.Nodup) (f : α → ℕ) (k : α) :
    (ks.flatMap fun k => List.replicate (f k) k).count k = if k ∈ ks then f k else 0 := by
  induction ks with
  | nil => simp
  | cons a ks ih =>
    obtain ⟨g1, g2⟩ := List.nodup_cons.1 hnd
    rw [List.flatMap_cons, List.count_append, ih g2]
    by_cases h : a = k
    · subst h; simp [g1]
    · rw [List.count_replicate]; simp [h, Ne.symm h]

theorem edgeIds_congr {t t' : Tria} (h1 : t.n1 = t'.n1) (h2 : t.n2 = t'.n2) (h3 : t.n3 = t'.n3) : t.edgeIds = t'.edgeIds := by
  unfold Tria.edgeIds; rw [h1, h2, h3]

theorem sideTrias_congr {tria tria' : ℕ → Tria} {eids : List ℕ} (h : ∀ e ∈ eids, (tria e).edgeIds = (tria' e).edgeIds) (k : Key) :
    sideTrias tria eids k = sideTrias tria' eids k := by
  unfold sideTrias
  exact List.flatMap_congr fun e he => by rw [h e he]

theorem wf_buildEdges {m m' : Mesh} (hn : m.nids.Nodup) (he : m.eids.Nodup) (h0 : m.ekeys = [])
    (ht : ∀ e ∈ m.eids, (m.tria e).edges = []) (h : buildEdges m = .ok m') : WF m' := by
  obtain ⟨h1, h2, h3, h4, h5, h6, h7⟩ := buildEdges_spec m m' h0 h
  have hk := collect_keys m.tria m.eids
  have hids : ∀ e, (m'.tria e).edgeIds = (m.tria e).edgeIds := fun e => by rw [h6]; rfl
  refine ⟨h1 ▸ hn, h2 ▸ he, h3 ▸ hk.1, ?_, ?_, ?_, ?_, ?_⟩
  · intro k; rw [h3, hk.2, h2]; simp only [hids]
  · intro k hk'; rw [h1]; exact h4 k hk'
  · intro k hk'; rw [h5 k hk']; exact ⟨rfl, rfl⟩
  · intro k hk'; rw [h5 k hk', h2]
    exact sideTrias_congr (fun e _ => (hids e).symm) k
  · intro e he'
    rw [hids, h6, ht e (h2 ▸ he')]
    rw [List.nil_append]
    dsimp only
    refine List.perm_iff_count.2 fun k => ?_
    rw [count_flatMap_replicate _ (h3 ▸ hk.1)]
    by_cases hkm : k ∈ m'.ekeys
    · rw [if_pos hkm]; exact count_sideTrias he k (h2 ▸ he')
    · rw [if_neg hkm]
      symm
      refine List.count_eq_zero_of_not_mem fun hc => hkm ?_
      rw [h3, hk.2]; exact ⟨e, h2 ▸ he', hc⟩

theorem sum_trias_length {m : Mesh} (h : WF m) : (m.ekeys.map fun k => (m.edge k).trias.length).sum = 3 * m.eids.length := by
  have h1 : (m.ekeys.map fun k => (m.edge k).trias.length) = m.ekeys.map fun k => (sideTrias m.tria m.eids k).length :=
    List.map_congr_left fun k hk => by rw [h.etrias k hk]
  rw [h1]
  have h2 : ∀ es : List ℕ, (∀ e ∈ es, e ∈ m.eids) →
      (m.ekeys.map fun k => (sideTrias m.tria es k).length).sum = 3 * es.length := by
    intro es
    induction es with
    | nil => intro _; simp [sideTrias]
    | cons e es ih =>
      intro hes
      have g1 : ∀ k, (sideTrias m.tria (e :: es) k).length = (m.tria e).edgeIds.count k + (sideTrias m.tria es k).length := by
        intro k; simp [sideTrias]
      simp only [g1]
      rw [List.sum_map_add, ih fun x hx => hes x (List.mem_cons_of_mem _ hx), sum_count h.ekeys_nodup]
      · simp [Tria.edgeIds]; omega
      · intro k hk; exact (h.mem_ekeys k).2 ⟨e, hes e (by simp), hk⟩
  exact h2 m.eids fun e he => he

/-! ### readers -/

theorem readDelaunay_parts {pts : List Pt} {tris : List (ℤ × ℤ × ℤ)} {m' : Mesh} (h : readDelaunay pts tris = .ok m') :
    ∃ m, buildEdges m = .ok m' ∧ m.nids = List.range' 1 pts.length ∧ m.eids = List.range' 1 tris.length ∧ m.ekeys = [] ∧
      (∀ j (hj : j < pts.length), m.node (j + 1) = freshNode pts[j].toVec id) ∧
      ∀ j (hj : j < tris.length), ∃ a b d, pyIdx pts.length tris[j].1 = some a ∧ pyIdx pts.length tris[j].2.1 = some b ∧
        pyIdx pts.length tris[j].2.2 = some d ∧ m.tria (j + 1) = ⟨a + 1, b + 1, d + 1, none, []⟩ := by
  unfold readDelaunay at h
  split at h
  · rename_i m hm
    obtain ⟨p1, p2, p3, p4, p5, p6, p7⟩ := addPoints_spec pts emptyMesh 0
    obtain ⟨t1, t2, t3, t4, t5, t6, t7⟩ := addTrias_spec _ _ _ _ _ hm
    refine ⟨m, h, ?_, ?_, ?_, ?_, ?_⟩
    · rw [t2, p1]; simp [emptyMesh]
    · rw [t1, p2]; simp [emptyMesh]
    · rw [t4, p4]; rfl
    · intro j hj
      rw [t3, ← p7 j hj]
      congr 1; omega
    · intro j hj
      obtain ⟨a, b, d, e1, e2, e3, e4⟩ := t7 j hj
      refine ⟨a, b, d, e1, e2, e3, ?_⟩
      rw [← e4]
      congr 1; omega
  · cases h

theorem wf_readDelaunay {pts : List Pt} {tris : List (ℤ × ℤ × ℤ)} {m : Mesh} (h : readDelaunay pts tris = .ok m) : WF m := by
  obtain ⟨m0, h1, h2, h3, h4, h5, h6⟩ := readDelaunay_parts h
  refine wf_buildEdges (h2 ▸ List.nodup_range') (h3 ▸ List.nodup_range') h4 ?_ h1
  intro e he
  rw [h3, List.mem_range'_1] at he
  obtain ⟨a, b, d, _, _, _, e4⟩ := h6 (e - 1) (by omega)
  rw [show e - 1 + 1 = e by omega] at e4
  rw [e4]

theorem deckNodes_spec (l : List (ℕ × Vec3 × (Vec3 → Vec3))) : ∀ m : Mesh,
    (deckNodes m l).nids = m.nids ++ l.map (·.1) ∧ (deckNodes m l).eids = m.eids ∧ (deckNodes m l).tria = m.tria ∧
    (deckNodes m l).ekeys = m.ekeys ∧ (deckNodes m l).edge = m.edge := by
  induction l with
  | nil => intro m; simp [deckNodes]
  | cons p l ih =>
    intro m
    obtain ⟨i, x, c⟩ := p
    unfold deckNodes
    obtain ⟨h1, h2, h3, h4, h5⟩ := ih { m with nids := m.nids ++ [i], node := Function.update m.node i (freshNode x c) }
    exact ⟨by rw [h1]; simp, h2, h3, h4, h5⟩

theorem deckElems_spec (l : List (ℕ × Option (ℕ × ℕ × ℕ))) : ∀ m m' : Mesh, deckElems m l = .ok m' →
    m'.nids = m.nids ∧ m'.node = m.node ∧ m'.eids = m.eids ++ l.map (·.1) ∧ m'.ekeys = m.ekeys ∧ m'.edge = m.edge ∧
    (∀ e, (m'.tria e).edges = [] ∨ m'.tria e = m.tria e) := by
  induction l with
  | nil => intro m m' h; simp [deckElems] at h; subst h; simp
  | cons p l ih =>
    intro m m' h
    obtain ⟨e, o⟩ := p
    cases o with
    | none => simp [deckElems] at h
    | some t =>
      obtain ⟨a, b, c⟩ := t
      unfold deckElems at h
      obtain ⟨h1, h2, h3, h4, h5, h6⟩ := ih _ _ h
      refine ⟨h1, h2, by rw [h3]; simp, h4, h5, fun e' => ?_⟩
      rcases h6 e' with h6 | h6
      · exact Or.inl h6
      · simp only at h6
        by_cases he : e' = e
        · subst he; rw [Function.update_self] at h6; rw [h6]; exact Or.inl rfl
        · rw [Function.update_of_ne he] at h6; exact Or.inr h6

theorem wf_readMesh {d : Deck} {m : Mesh} (hn : (d.nodes.map (·.1)).Nodup) (he : (d.elems.map (·.1)).Nodup)
    (h : readMesh d = .ok m) : WF m := by
  unfold readMesh at h
  split at h
  · rename_i m0 hm
    obtain ⟨p1, p2, p3, p4, p5⟩ := deckNodes_spec d.nodes emptyMesh
    obtain ⟨t1, t2, t3, t4, t5, t6⟩ := deckElems_spec _ _ _ hm
    refine wf_buildEdges ?_ ?_ ?_ ?_ h
    · rw [t1, p1]; simpa [emptyMesh] using hn
    · rw [t3, p2]; simpa [emptyMesh] using he
    · rw [t4, p4]; rfl
    · intro e _
      rcases t6 e with t6 | t6
      · exact t6
      · rw [t6, p3]; rfl
  · cases h

end Meshless
