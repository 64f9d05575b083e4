import Verif.Lemmas.Static
import Verif.Spec.Plate

set_option autoImplicit false

namespace Meshless
open Spec

/-- triangle `t` has the edge `k` and the opposite corner `o` -/
structure Side (m : Mesh) (t : ℕ) (k : Key) (o : ℕ) : Prop where
  mem : t ∈ m.eids
  perm : (m.triaNodes t).Perm [k.1, k.2, o]
  hab : k.1 ≠ k.2
  hao : k.1 ≠ o
  hbo : k.2 ≠ o
  ina : k.1 ∈ m.nids
  inb : k.2 ∈ m.nids
  ino : o ∈ m.nids

theorem corner_mem {m : Mesh} (w : WF m) (hp : ∀ e ∈ m.eids, (m.tria e).Distinct) {e i : ℕ} (he : e ∈ m.eids) (hi : IsCorner m e i) : i ∈ m.nids := by
  obtain ⟨h1, h2, h3⟩ := hp e he
  have key : ∀ j, IsCorner m e j → i ≠ j → i ∈ m.nids := by
    intro j hj hij
    rcases lt_or_gt_of_ne hij with h | h
    · exact (w.ends (i, j) ((w.mem_ekeys _).2 ⟨e, he, (mem_edgeIds (hp e he) _).2 ⟨h, hi, hj⟩⟩)).1
    · exact (w.ends (j, i) ((w.mem_ekeys _).2 ⟨e, he, (mem_edgeIds (hp e he) _).2 ⟨h, hj, hi⟩⟩)).2
  rcases hi with rfl | rfl | rfl
  · exact key _ (Or.inr (Or.inl rfl)) h1
  · exact key _ (Or.inr (Or.inr rfl)) h2
  · exact key _ (Or.inl rfl) h3

theorem exists_other {t : Tria} (h : t.Distinct) {a b : ℕ} (hab : a ≠ b) (ha : t.HasCorner a) (hb : t.HasCorner b) :
    ∃ o, [t.n1, t.n2, t.n3].Perm [a, b, o] ∧ a ≠ o ∧ b ≠ o ∧ ([t.n1, t.n2, t.n3].filter fun i => i ∉ [a, b]).head? = some o := by
  obtain ⟨x, y, z, p, ed⟩ := t
  obtain ⟨h1, h2, h3⟩ := h
  simp only [Tria.HasCorner] at *
  rcases ha with rfl | rfl | rfl <;> rcases hb with rfl | rfl | rfl
  · exact absurd rfl hab
  · exact ⟨z, List.Perm.refl _, Ne.symm h3, h2, by simp [h2, h3, Ne.symm h2]⟩
  · exact ⟨y, (List.Perm.swap b y []).cons a, h1, Ne.symm h2, by simp [h1, h2, Ne.symm h1]⟩
  · exact ⟨z, List.Perm.swap a b [z], h2, Ne.symm h3, by simp [h2, h3, Ne.symm h2]⟩
  · exact absurd rfl hab
  · refine ⟨x, ?_, Ne.symm h1, h3, by simp [h1, Ne.symm h3]⟩
    exact (List.perm_append_comm (l₁ := [x]) (l₂ := [a, b]))
  · refine ⟨y, ?_, Ne.symm h2, h1, by simp [h2, Ne.symm h1]⟩
    exact (List.perm_append_comm (l₁ := [b, y]) (l₂ := [a]))
  · refine ⟨x, ?_, h3, Ne.symm h1, by simp [h1, Ne.symm h3]⟩
    exact ((List.perm_append_comm (l₁ := [x]) (l₂ := [b, a])).trans (List.Perm.swap a b [x]))
  · exact absurd rfl hab

theorem side_of {m : Mesh} (w : WF m) (hp : ∀ e ∈ m.eids, (m.tria e).Distinct) {k : Key} (hk : k ∈ m.ekeys) {t : ℕ} (ht : t ∈ (m.edge k).trias) :
    ∃ o, Side m t k o ∧ otherNode m t (m.edge k) = some o := by
  rw [w.etrias k hk, mem_sideTrias] at ht
  obtain ⟨hte, hkt⟩ := ht
  have hc := (mem_edgeIds (hp t hte) k).1 hkt
  obtain ⟨o, h1, h2, h3, h4⟩ := exists_other (hp t hte) (ne_of_lt hc.1) hc.2.1 hc.2.2
  have hco : IsCorner m t o := by
    have : o ∈ [(m.tria t).n1, (m.tria t).n2, (m.tria t).n3] := h1.mem_iff.2 (by simp)
    simpa [IsCorner] using this
  obtain ⟨e1, e2⟩ := w.en k hk
  refine ⟨o, ⟨hte, h1, ne_of_lt hc.1, h2, h3, (w.ends k hk).1, (w.ends k hk).2, corner_mem w hp hte hco⟩, ?_⟩
  unfold otherNode Mesh.triaNodes
  rw [e1, e2]
  exact h4

theorem Side.corner_iff {m : Mesh} {t o : ℕ} {k : Key} (h : Side m t k o) (i : ℕ) : IsCorner m t i ↔ i = k.1 ∨ i = k.2 ∨ i = o := by
  have := h.perm.mem_iff (a := i)
  simpa [Mesh.triaNodes, IsCorner] using this

/-- the two shapes of an edge of a proper mesh -/
theorem edge_shape {m : Mesh} (w : WF m) (hp : Proper m) {k : Key} (hk : k ∈ m.ekeys) :
    (∃ t o, (m.edge k).trias = [t] ∧ Side m t k o ∧ otherNode m t (m.edge k) = some o) ∨
    (∃ t1 t2 o1 o2, (m.edge k).trias = [t1, t2] ∧ Side m t1 k o1 ∧ Side m t2 k o2 ∧ o1 ≠ o2 ∧ t1 ≠ t2 ∧
      otherNode m t1 (m.edge k) = some o1 ∧ otherNode m t2 (m.edge k) = some o2) := by
  have hne : (m.edge k).trias ≠ [] := by
    obtain ⟨e, he, hke⟩ := (w.mem_ekeys k).1 hk
    rw [w.etrias k hk]
    exact List.ne_nil_of_mem (mem_sideTrias.2 ⟨he, hke⟩)
  have hnd : (m.edge k).trias.Nodup := by
    rw [w.etrias k hk, sideTrias_distinct hp.distinct]
    exact w.eids_nodup.filter _
  have hl := hp.manifold k hk
  have hs := fun t ht => side_of w hp.distinct hk (t := t) ht
  rcases htr : (m.edge k).trias with _ | ⟨t1, _ | ⟨t2, _ | ⟨t3, l⟩⟩⟩
  · exact absurd htr hne
  · obtain ⟨o, h1, h2⟩ := hs t1 (by simp [htr])
    exact Or.inl ⟨t1, o, rfl, h1, h2⟩
  · obtain ⟨o1, h1, h2⟩ := hs t1 (by simp [htr])
    obtain ⟨o2, h3, h4⟩ := hs t2 (by simp [htr])
    have h12 : t1 ≠ t2 := by rw [htr] at hnd; simpa using hnd
    refine Or.inr ⟨t1, t2, o1, o2, rfl, h1, h3, ?_, h12, h2, h4⟩
    rintro rfl
    apply h12
    exact hp.simple t1 h1.mem t2 h3.mem (fun i => by rw [h1.corner_iff, h3.corner_iff])
  · rw [htr] at hl; simp at hl

/-- a boundary edge after the geometry step -/
noncomputable def bEdge (m : Mesh) (k : Key) (t o : ℕ) : Edge :=
  let ab := orient m (m.mid t) k.1 k.2
  ⟨k.1, k.2, [t], [(m.node ab.1).xyz, m.mid t, (m.node ab.2).xyz, (m.node ab.1).xyz],
    iptsA m t ab.1 ab.2 o ++ iptsB m t ab.1 ab.2 o,
    some (polyArea [(m.node ab.1).xyz, m.mid t, (m.node ab.2).xyz, (m.node ab.1).xyz]), some o, none⟩

/-- an interior edge after the geometry step -/
noncomputable def iEdge (m : Mesh) (k : Key) (t1 t2 o1 o2 : ℕ) : Edge :=
  let ab := orient m (m.mid t1) k.1 k.2
  ⟨k.1, k.2, [t1, t2], [(m.node ab.1).xyz, m.mid t1, (m.node ab.2).xyz, m.mid t2, (m.node ab.1).xyz],
    iptsA m t1 ab.1 ab.2 o1 ++ iptsI m t2 ab.1 ab.2 o2,
    some (polyArea [(m.node ab.1).xyz, m.mid t1, (m.node ab.2).xyz, m.mid t2, (m.node ab.1).xyz]), some o1, some o2⟩

theorem orient_cases (m : Mesh) (c : Vec3) (a b : ℕ) : orient m c a b = (a, b) ∨ orient m c a b = (b, a) := by
  unfold orient; split
  · right; rfl
  · left; rfl

theorem geomEdge_boundary {m : Mesh} (w : WF m) {k : Key} (hk : k ∈ m.ekeys) {t o : ℕ} (ht : (m.edge k).trias = [t])
    (ho : otherNode m t (m.edge k) = some o) (hin : o ∈ m.nids) : geomEdge m (m.edge k) = (bEdge m k t o, none) := by
  unfold geomEdge
  rw [ht]
  dsimp only
  rw [ho]
  dsimp only
  rw [if_pos hin]
  obtain ⟨e1, e2⟩ := w.en k hk
  simp only [finishEdge, bEdge, e1, e2]

theorem geomEdge_interior {m : Mesh} (w : WF m) {k : Key} (hk : k ∈ m.ekeys) {t1 t2 o1 o2 : ℕ} (ht : (m.edge k).trias = [t1, t2])
    (ho1 : otherNode m t1 (m.edge k) = some o1) (hin1 : o1 ∈ m.nids) (ho2 : otherNode m t2 (m.edge k) = some o2) (hin2 : o2 ∈ m.nids) :
    geomEdge m (m.edge k) = (iEdge m k t1 t2 o1 o2, none) := by
  unfold geomEdge
  rw [ht]
  dsimp only
  rw [ho1, ho2]
  dsimp only
  rw [if_pos hin1, if_pos hin2]
  obtain ⟨e1, e2⟩ := w.en k hk
  simp only [finishEdge, iEdge, e1, e2]

/-- the two shapes of an edge of a proper prepared mesh, with all its attributes -/
theorem prepared_shape {m : Mesh} (w : WF m) (hp : Proper m) (hq : Prepared m) {k : Key} (hk : k ∈ m.ekeys) :
    (∃ t o, m.edge k = bEdge m k t o ∧ Side m t k o) ∨
    (∃ t1 t2 o1 o2, m.edge k = iEdge m k t1 t2 o1 o2 ∧ Side m t1 k o1 ∧ Side m t2 k o2 ∧ o1 ≠ o2 ∧ t1 ≠ t2) := by
  rcases edge_shape w hp hk with ⟨t, o, h1, h2, h3⟩ | ⟨t1, t2, o1, o2, h1, h2, h3, h4, h5, h6, h7⟩
  · left
    refine ⟨t, o, ?_, h2⟩
    have := (hq.geom k hk).symm.trans (geomEdge_boundary w hk h1 h3 h2.ino)
    exact congrArg Prod.fst this
  · right
    refine ⟨t1, t2, o1, o2, ?_, h2, h3, h4, h5⟩
    have := (hq.geom k hk).symm.trans (geomEdge_interior w hk h1 h6 h2.ino h7 h3.ino)
    exact congrArg Prod.fst this

theorem SameStatic.proper {m m' : Mesh} (h : SameStatic m m') (hp : Proper m) : Proper m' := by
  refine ⟨?_, ?_, ?_⟩
  · rw [h.eids, h.tria]; exact hp.distinct
  · intro k hk; rw [h.trias]; exact hp.manifold k (h.ekeys ▸ hk)
  · unfold IsCorner; rw [h.eids, h.tria]; exact hp.simple

theorem Prepared.nodeIdx {m : Mesh} (hq : Prepared m) {i : ℕ} (hi : i ∈ m.nids) :
    (m.node i).index = some (m.nids.idxOf i) := by
  have h := hq.index (m.nids.idxOf i) (List.idxOf_lt_length_iff.2 hi)
  rwa [List.getElem_idxOf] at h

theorem Prepared.nodeIdx' {m : Mesh} (hq : Prepared m) {i : ℕ} (hi : i ∈ m.nids) : Meshless.nodeIdx m i = (m.nids.idxOf i : ℤ) := by
  unfold Meshless.nodeIdx; rw [hq.nodeIdx hi]; rfl

theorem nodeIdx_inj {m : Mesh} (hq : Prepared m) {i j : ℕ} (hi : i ∈ m.nids) (hj : j ∈ m.nids) (h : nodeIdx m i = nodeIdx m j) : i = j := by
  rw [hq.nodeIdx' hi, hq.nodeIdx' hj] at h
  exact (List.idxOf_inj hi).1 (by exact_mod_cast h)

end Meshless
