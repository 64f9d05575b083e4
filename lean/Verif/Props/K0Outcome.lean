import Verif.Lemmas.Example

/-! C08–C12: when `calc_k0` succeeds, what it raises otherwise, and the node numbering. -/

set_option autoImplicit false

namespace Meshless
open Spec

theorem calcK0_missing {m : Mesh} (w : WF m) {pn : Bool} (h : ¬ HasProps m pn) : calcK0 m pn = (m, .error .valueError) := by
  rw [hasProps_iff w] at h
  unfold calcK0
  rw [if_pos (by simpa using h)]

/-- the geometry step raises KeyError or NotImplementedError only -/
theorem geomEdge_err (m : Mesh) (ed : Edge) {e : Err} (h : (geomEdge m ed).2 = some e) :
    e = .keyError ∨ (e = .notImplemented ∧ ed.trias.length ≠ 1 ∧ ed.trias.length ≠ 2) := by
  unfold geomEdge at h
  rcases htr : ed.trias with _ | ⟨t1, _ | ⟨t2, _ | ⟨t3, l⟩⟩⟩ <;> rw [htr] at h
  · simp at h; right; simp [← h]
  · dsimp only at h
    rcases ho1 : otherNode m t1 ed with _ | o1 <;> rw [ho1] at h
    · simp at h; left; exact h.symm
    · dsimp only at h
      split at h
      · simp at h
      · simp at h; left; exact h.symm
  · dsimp only at h
    rcases ho1 : otherNode m t1 ed with _ | o1 <;> rw [ho1] at h
    · simp at h; left; exact h.symm
    rcases ho2 : otherNode m t2 ed with _ | o2 <;> rw [ho2] at h
    · simp at h; left; exact h.symm
    dsimp only at h
    split at h
    · split at h
      · simp at h
      · simp at h; left; exact h.symm
    · simp at h; left; exact h.symm
  · simp at h; right; simp [← h]

/-- a failing geometry step makes `calc_k0` raise the error of some edge -/
theorem calcK0_geomFail {m : Mesh} (w : WF m) {pn : Bool} (hh : HasProps m pn) {k : Key} (hk : k ∈ m.ekeys)
    (h : (geomEdge m (m.edge k)).2 ≠ none) :
    ∃ k' ∈ m.ekeys, ∃ e, (geomEdge m (m.edge k')).2 = some e ∧ (calcK0 m pn).2 = .error e := by
  obtain ⟨g1, g2, g3, g4, g5, g6⟩ := geomPass_spec m.ekeys m w.ekeys_nodup
  rcases hg : geomPass m m.ekeys with ⟨m1, err⟩
  rw [hg] at g5 g6
  cases err with
  | none => exact absurd (g5.1 rfl k hk) h
  | some e =>
    obtain ⟨k', hk', he⟩ := g6 e rfl
    refine ⟨k', hk', e, he, ?_⟩
    unfold calcK0
    rw [(hasProps_iff w pn).1 hh, hg]
    rfl

/-- a triangle with a repeated corner spoils one of its edges -/
theorem geomEdge_degenerate {m : Mesh} (w : WF m) {e : ℕ} (he : e ∈ m.eids)
    (hd : (m.tria e).n1 = (m.tria e).n2 ∨ (m.tria e).n2 = (m.tria e).n3 ∨ (m.tria e).n3 = (m.tria e).n1) :
    ∃ k ∈ m.ekeys, (geomEdge m (m.edge k)).2 ≠ none := by
  obtain ⟨k, hk, hc2, hin⟩ : ∃ k, k ∈ (m.tria e).edgeIds ∧ 2 ≤ (m.tria e).edgeIds.count k ∧ ∀ i ∈ m.triaNodes e, i = k.1 ∨ i = k.2 := by
    have hs : ∀ a b : ℕ, sortPair a b = sortPair b a := by
      intro a b
      rcases sortPair_cases a b with ⟨e1, l1⟩ | ⟨e1, l1⟩ <;> rcases sortPair_cases b a with ⟨e2, l2⟩ | ⟨e2, l2⟩ <;> rw [e1, e2]
      · rw [le_antisymm l1 l2]
      · omega
    rcases hd with h | h | h
    · refine ⟨sortPair (m.tria e).n2 (m.tria e).n3, by simp [Tria.edgeIds], ?_, ?_⟩
      · simp only [Tria.edgeIds, h, hs (m.tria e).n3]
        simp [List.count_cons]
      · intro i hi
        have := sortPair_ends (m.tria e).n2 (m.tria e).n3
        simp only [Mesh.triaNodes, List.mem_cons, List.not_mem_nil, or_false, h] at hi
        rcases hi with rfl | rfl | rfl
        exacts [this.1, this.1, this.2]
    · refine ⟨sortPair (m.tria e).n1 (m.tria e).n2, by simp [Tria.edgeIds], ?_, ?_⟩
      · simp only [Tria.edgeIds, h, hs (m.tria e).n3]
        simp [List.count_cons]
      · intro i hi
        have := sortPair_ends (m.tria e).n1 (m.tria e).n2
        simp only [Mesh.triaNodes, List.mem_cons, List.not_mem_nil, or_false, ← h] at hi
        rcases hi with rfl | rfl | rfl
        exacts [this.1, this.2, this.2]
    · refine ⟨sortPair (m.tria e).n1 (m.tria e).n2, by simp [Tria.edgeIds], ?_, ?_⟩
      · simp only [Tria.edgeIds, h, hs (m.tria e).n2]
        simp [List.count_cons]
      · intro i hi
        have := sortPair_ends (m.tria e).n1 (m.tria e).n2
        simp only [Mesh.triaNodes, List.mem_cons, List.not_mem_nil, or_false, h] at hi
        rcases hi with rfl | rfl | rfl
        exacts [this.1, this.2, this.1]
  have hke : k ∈ m.ekeys := (w.mem_ekeys k).2 ⟨e, he, hk⟩
  refine ⟨k, hke, ?_⟩
  have hcount : 2 ≤ (m.edge k).trias.count e := by
    rw [w.etrias k hke, count_sideTrias w.eids_nodup k he]
    exact hc2
  have hot : otherNode m e (m.edge k) = none := by
    obtain ⟨e1, e2⟩ := w.en k hke
    unfold otherNode
    rw [e1, e2]
    have : (m.triaNodes e).filter (fun i => i ∉ [k.1, k.2]) = [] := by
      rw [List.filter_eq_nil_iff]
      intro i hi
      have := hin i hi
      simp
      tauto
    rw [this]; rfl
  unfold geomEdge
  rcases htr : (m.edge k).trias with _ | ⟨t1, _ | ⟨t2, _ | ⟨t3, l⟩⟩⟩
  · simp
  · rw [htr] at hcount
    simp [List.count_cons] at hcount
    split at hcount <;> omega
  · rw [htr] at hcount
    simp [List.count_cons] at hcount
    have h1 : t1 = e := by
      by_contra hne
      simp [hne] at hcount
      split at hcount <;> omega
    subst h1
    dsimp only
    rw [hot]
    simp
  · simp

/-- C08: a triangle with a repeated corner is accepted by `read_delaunay` … -/
theorem C08_accepted (pts : List Pt) (tris : List (ℕ × ℕ × ℕ)) (h : ∀ t ∈ tris, t.1 < pts.length ∧ t.2.1 < pts.length ∧ t.2.2 < pts.length) :
    ∃ m, readDelaunay pts (toInts tris) = .ok m := by
  rcases readDelaunay_total pts (toInts tris) with ⟨_, h⟩ | ⟨h', _⟩
  · exact h
  · exfalso
    apply h'
    intro t ht
    simp only [toInts, List.mem_map] at ht
    obtain ⟨t', ht', rfl⟩ := ht
    obtain ⟨a, b, c⟩ := h t' ht'
    simp [pyIdx_nonneg a, pyIdx_nonneg b, pyIdx_nonneg c]

/-- C08: … but in whatever state the mesh then is, `calc_k0` raises: ValueError if a property is missing, otherwise KeyError or
NotImplementedError. No matrix is returned. -/
theorem C08_degenerate {m : Mesh} (hr : Reachable m) {e : ℕ} (he : e ∈ m.eids)
    (hd : (m.tria e).n1 = (m.tria e).n2 ∨ (m.tria e).n2 = (m.tria e).n3 ∨ (m.tria e).n3 = (m.tria e).n1) (pn : Bool) :
    (¬ HasProps m pn → (calcK0 m pn).2 = .error .valueError) ∧
    (HasProps m pn → (calcK0 m pn).2 = .error .keyError ∨ (calcK0 m pn).2 = .error .notImplemented) := by
  refine ⟨fun h => by rw [calcK0_missing hr.wf h], fun hh => ?_⟩
  obtain ⟨k, hk, hne⟩ := geomEdge_degenerate hr.wf he hd
  obtain ⟨k', _, er, h1, h2⟩ := calcK0_geomFail hr.wf hh hk hne
  rcases geomEdge_err m _ h1 with rfl | ⟨rfl, _⟩
  · exact Or.inl h2
  · exact Or.inr h2

/-- corollary: no matrix -/
theorem C08_no_matrix {m : Mesh} (hr : Reachable m) {e : ℕ} (he : e ∈ m.eids)
    (hd : (m.tria e).n1 = (m.tria e).n2 ∨ (m.tria e).n2 = (m.tria e).n3 ∨ (m.tria e).n3 = (m.tria e).n1) (pn : Bool) (K : Mat) :
    (calcK0 m pn).2 ≠ .ok K := by
  intro hK
  obtain ⟨h1, h2⟩ := C08_degenerate hr he hd pn
  by_cases hh : HasProps m pn
  · rcases h2 hh with h | h <;> rw [h] at hK <;> cases hK
  · rw [h1 hh] at hK; cases hK

/-- concrete case: the triangle (0, 0, 1) on two points, properties assigned -/
noncomputable def exDeg (p : Lam) : Mesh :=
  run (match readDelaunay [.d2 0 0, .d2 1 0] (toInts [(0, 0, 1)]) with | .ok m => m | .error _ => emptyMesh)
    [.setNodeProp 1 (some p), .setNodeProp 2 (some p)]

theorem exDeg_reachable (p : Lam) : Reachable (exDeg p) := .delaunay [.d2 0 0, .d2 1 0] (toInts [(0, 0, 1)]) _ rfl _

theorem exDeg_props (p : Lam) : HasProps (exDeg p) true := by
  intro e he i hi
  have he' : e = 1 := by simpa using (show e ∈ [1] from he)
  subst he'
  rcases hi with h | h | h
  · subst h; rfl
  · subst h; rfl
  · subst h; rfl

example (p : Lam) : (calcK0 (exDeg p) true).2 = .error .keyError ∨ (calcK0 (exDeg p) true).2 = .error .notImplemented :=
  (C08_degenerate (exDeg_reachable p) (e := 1) (show 1 ∈ [1] by simp) (Or.inl rfl) true).2 (exDeg_props p)

/-- C09: a missing property raises ValueError and leaves the whole mesh as it was -/
theorem C09_missing {m : Mesh} (hr : Reachable m) {pn : Bool} (h : ¬ HasProps m pn) : calcK0 m pn = (m, .error .valueError) :=
  calcK0_missing hr.wf h

/-- C09: on a proper non-empty mesh ValueError means exactly that -/
theorem C09_iff {m : Mesh} (hr : Reachable m) (hp : Proper m) (hne : m.nids ≠ []) (pn : Bool) :
    (calcK0 m pn).2 = .error .valueError ↔ ¬ HasProps m pn := by
  constructor
  · intro h hh
    obtain ⟨K, hK, _⟩ := calcK0_proper hr.wf hp hh hne
    rw [hK] at h; cases h
  · intro h; rw [calcK0_missing hr.wf h]

/-- concrete case: the freshly read square has no properties -/
example : calcK0 exRead true = (exRead, .error .valueError) := by
  have hr : Reachable (run exRead []) := .delaunay exPts (toInts exTris) exRead exRead_ok []
  rw [show run exRead [] = exRead by simp [run]] at hr
  refine C09_missing hr ?_
  intro h
  have := (show ∀ e ∈ exRead.eids, ∀ i, IsCorner exRead e i → (exRead.node i).prop.isSome from h) 1
    (show 1 ∈ [1, 2] by simp) 1 (Or.inl rfl)
  exact absurd this (by decide)

example (p : Lam) : (calcK0 (exMesh p p p p p p) true).2 ≠ .error .valueError := fun h =>
  (C09_iff (exMesh_reachable ..) (exMesh_proper ..) (exMesh_ne _ _ _ _ _ _) true).1 h (exMesh_props ..)

/-- C10: an edge with more than two triangles makes `calc_k0` raise, and the error is NotImplementedError when all triangles have
three different corners -/
theorem C10_nonmanifold {m : Mesh} (hr : Reachable m) {pn : Bool} (hh : HasProps m pn) {k : Key} (hk : k ∈ m.ekeys)
    (h3 : 2 < (m.edge k).trias.length) :
    ((calcK0 m pn).2 = .error .notImplemented ∨ (calcK0 m pn).2 = .error .keyError) ∧
    ((∀ e ∈ m.eids, (m.tria e).n1 ≠ (m.tria e).n2 ∧ (m.tria e).n2 ≠ (m.tria e).n3 ∧ (m.tria e).n3 ≠ (m.tria e).n1) →
      (calcK0 m pn).2 = .error .notImplemented) := by
  have w := hr.wf
  have hne : (geomEdge m (m.edge k)).2 ≠ none := by
    unfold geomEdge
    rcases htr : (m.edge k).trias with _ | ⟨t1, _ | ⟨t2, _ | ⟨t3, l⟩⟩⟩ <;> rw [htr] at h3
    · simp at h3
    · simp at h3
    · simp at h3
    · simp
  obtain ⟨k', hk', er, h1, h2⟩ := calcK0_geomFail w hh hk hne
  refine ⟨?_, fun hd => ?_⟩
  · rcases geomEdge_err m _ h1 with rfl | ⟨rfl, _⟩
    · exact Or.inr h2
    · exact Or.inl h2
  · rcases geomEdge_err m _ h1 with rfl | ⟨rfl, _⟩
    · exfalso
      have hs := fun t ht => side_of w hd hk' (t := t) ht
      rcases htr : (m.edge k').trias with _ | ⟨t1, _ | ⟨t2, _ | ⟨t3, l⟩⟩⟩
      · unfold geomEdge at h1; rw [htr] at h1; simp at h1
      · obtain ⟨o, s1, s2⟩ := hs t1 (by simp [htr])
        rw [geomEdge_boundary w hk' htr s2 s1.ino] at h1; simp at h1
      · obtain ⟨o1, s1, s2⟩ := hs t1 (by simp [htr])
        obtain ⟨o2, s3, s4⟩ := hs t2 (by simp [htr])
        rw [geomEdge_interior w hk' htr s2 s1.ino s4 s3.ino] at h1; simp at h1
      · unfold geomEdge at h1; rw [htr] at h1; simp at h1
    · exact h2

/-- concrete case: three triangles on the side (1, 2) -/
noncomputable def exFanRead : Mesh :=
  match readDelaunay [.d2 0 0, .d2 1 0, .d2 0 1, .d2 1 1, .d2 0 2] (toInts [(0, 1, 2), (0, 1, 3), (0, 1, 4)]) with
    | .ok m => m | .error _ => emptyMesh

set_option maxHeartbeats 1000000 in
theorem exFanRead_ok : readDelaunay [.d2 0 0, .d2 1 0, .d2 0 1, .d2 1 1, .d2 0 2] (toInts [(0, 1, 2), (0, 1, 3), (0, 1, 4)]) =
    .ok exFanRead := rfl

/-- with a laminate on each triangle -/
noncomputable def exFan (p : Lam) : Mesh := run exFanRead [.setTriaProp 1 (some p), .setTriaProp 2 (some p), .setTriaProp 3 (some p)]

theorem exFan_reachable (p : Lam) : Reachable (exFan p) := .delaunay _ _ _ exFanRead_ok _

example (p : Lam) : (calcK0 (exFan p) false).2 = .error .notImplemented := by
  refine (C10_nonmanifold (exFan_reachable p) (k := (1, 2)) ?_ ?_ ?_).2 ?_
  · intro e he
    have he' : e ∈ [1, 2, 3] := he
    simp at he'
    rcases he' with rfl | rfl | rfl <;> rfl
  · show (1, 2) ∈ [(1, 2), (2, 3), (1, 3), (2, 4), (1, 4), (2, 5), (1, 5)]; simp
  · show 2 < [1, 2, 3].length; simp
  · intro e he
    have he' : e ∈ [1, 2, 3] := he
    simp at he'
    rcases he' with rfl | rfl | rfl
    · show (1 : ℕ) ≠ 2 ∧ (2 : ℕ) ≠ 3 ∧ (3 : ℕ) ≠ 1; simp
    · show (1 : ℕ) ≠ 2 ∧ (2 : ℕ) ≠ 4 ∧ (4 : ℕ) ≠ 1; simp
    · show (1 : ℕ) ≠ 2 ∧ (2 : ℕ) ≠ 5 ∧ (5 : ℕ) ≠ 1; simp

/-- C11: on a proper mesh with nodes and the needed properties `calc_k0` returns a `5n × 5n` matrix -/
theorem C11_success {m : Mesh} (hr : Reachable m) (hp : Proper m) (hne : m.nids ≠ []) {pn : Bool} (hh : HasProps m pn) :
    ∃ K, (calcK0 m pn).2 = .ok K ∧ K.dim = 5 * m.nids.length := by
  obtain ⟨K, h1, h2, _⟩ := calcK0_proper hr.wf hp hh hne
  exact ⟨K, h1, by rw [h2]; ring⟩

example (p1 p2 p3 p4 q1 q2 : Lam) (pn : Bool) : ∃ K, (calcK0 (exMesh p1 p2 p3 p4 q1 q2) pn).2 = .ok K ∧ K.dim = 20 :=
  C11_success (exMesh_reachable ..) (exMesh_proper ..) (exMesh_ne _ _ _ _ _ _) (exMesh_props ..)

/-- C12: after a successful `calc_k0` the `j`-th node of `mesh.nodes` has index `j`: the indices are `0..n-1`, each used once -/
theorem C12_numbering {m : Mesh} (hr : Reachable m) {pn : Bool} {K : Mat} (hK : (calcK0 m pn).2 = .ok K) :
    (calcK0 m pn).1.nids = m.nids ∧
    m.nids.map (fun i => ((calcK0 m pn).1.node i).index) = (List.range m.nids.length).map some ∧
    ∀ i ∈ m.nids, ∀ j ∈ m.nids, ((calcK0 m pn).1.node i).index = ((calcK0 m pn).1.node j).index → i = j := by
  obtain ⟨hs, hc⟩ := calcK0_cases m pn hr.wf
  obtain ⟨_, hq, _, _⟩ := hc K hK
  refine ⟨hs.nids, ?_, ?_⟩
  · apply List.ext_getElem
    · simp
    · intro j h1 h2
      simp only [List.length_map, List.length_range] at h1 h2
      simp only [List.getElem_map, List.getElem_range]
      have := hq.index j (by rw [hs.nids]; exact h1)
      simpa only [hs.nids] using this
  · intro i hi j hj h
    rw [hq.nodeIdx (hs.nids.symm ▸ hi), hq.nodeIdx (hs.nids.symm ▸ hj)] at h
    rw [hs.nids] at h
    exact (List.idxOf_inj hi).1 (Option.some.inj h)

example (p : Lam) : ∃ K, (calcK0 (exMesh p p p p p p) true).2 = .ok K ∧
    [1, 2, 3, 4].map (fun i => ((calcK0 (exMesh p p p p p p) true).1.node i).index) = [some 0, some 1, some 2, some 3] := by
  obtain ⟨K, hK, _⟩ := C11_success (exMesh_reachable p p p p p p) (exMesh_proper ..) (exMesh_ne _ _ _ _ _ _) (exMesh_props p p p p p p true)
  exact ⟨K, hK, (C12_numbering (exMesh_reachable ..) hK).2.1⟩

end Meshless
