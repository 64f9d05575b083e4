import Verif.Lemmas.WF
import Verif.Spec.Mesh
import Mathlib.Tactic.NormNum
import Mathlib.Tactic.IntervalCases

/-! C01–C07: the mesh readers. -/

set_option autoImplicit false

namespace Meshless
open Spec

/-- four points, two triangles sharing the side (1, 3): the running example -/
def exPts : List Pt := [.d2 0 0, .d2 1 0, .d3 1 1 0, .d2 0 1]
/-- its triangles -/
def exTris : List (ℕ × ℕ × ℕ) := [(0, 1, 2), (0, 2, 3)]

theorem exTris_valid : ∀ t ∈ exTris, ValidTri exPts.length t := by
  intro t ht
  simp [exTris] at ht
  rcases ht with rfl | rfl <;> simp [ValidTri, exPts]

theorem pyIdx_of_lt {n i : ℕ} (h : i < n) : pyIdx n (i : ℤ) = some i := by
  unfold pyIdx
  rw [if_pos (by positivity), if_pos (by exact_mod_cast h)]; simp

theorem pyIdx_isSome_iff (n : ℕ) (i : ℤ) : (pyIdx n i).isSome ↔ -(n : ℤ) ≤ i ∧ i < n := by
  unfold pyIdx
  split <;> split <;> simp <;> omega

theorem pyIdx_some_lt {n : ℕ} {i : ℤ} {k : ℕ} (h : pyIdx n i = some k) : k < n ∧ (i = k ∨ i + n = k) := by
  unfold pyIdx at h
  split at h <;> split at h <;> simp at h <;> omega

/-- every accepted input gives a mesh -/
theorem readDelaunay_total (pts : List Pt) (tris : List (ℤ × ℤ × ℤ)) :
    (∀ t ∈ tris, (pyIdx pts.length t.1).isSome ∧ (pyIdx pts.length t.2.1).isSome ∧ (pyIdx pts.length t.2.2).isSome) ∧
      (∃ m, readDelaunay pts tris = .ok m) ∨
    (¬ ∀ t ∈ tris, (pyIdx pts.length t.1).isSome ∧ (pyIdx pts.length t.2.1).isSome ∧ (pyIdx pts.length t.2.2).isSome) ∧
      readDelaunay pts tris = .error .indexError := by
  rcases addTrias_error pts.length tris (addPoints emptyMesh pts 0) 0 with ⟨h1, m, hm⟩ | ⟨h1, h2⟩
  · left
    refine ⟨h1, ?_⟩
    unfold readDelaunay
    rw [hm]
    dsimp only
    rw [buildEdges_ok_iff]
    obtain ⟨p1, p2, p3, p4, p5, p6, p7⟩ := addPoints_spec pts emptyMesh 0
    obtain ⟨t1, t2, t3, t4, t5, t6, t7⟩ := addTrias_spec _ _ _ _ _ hm
    intro e he k hk
    rw [t1, p2] at he
    simp [emptyMesh, List.mem_range'_1] at he
    obtain ⟨a, b, d, e1, e2, e3, e4⟩ := t7 (e - 1) (by omega)
    rw [show 0 + 1 + (e - 1) = e by omega] at e4
    have hc := mem_edgeIds_corner hk
    rw [e4] at hc
    simp only [Tria.HasCorner] at hc
    have l1 := (pyIdx_some_lt e1).1
    have l2 := (pyIdx_some_lt e2).1
    have l3 := (pyIdx_some_lt e3).1
    rw [t2, p1]
    simp [emptyMesh, List.mem_range'_1]
    omega
  · right
    refine ⟨h1, ?_⟩
    unfold readDelaunay
    rw [h2]

/-- the triangle stored for input triangle `j` -/
theorem tria_of_input {pts : List Pt} {tris : List (ℕ × ℕ × ℕ)} (hv : ∀ t ∈ tris, ValidTri pts.length t) {m : Mesh}
    (h : readDelaunay pts (toInts tris) = .ok m) (j : ℕ) (hj : j < tris.length) :
    (m.tria (j + 1)).n1 = tris[j].1 + 1 ∧ (m.tria (j + 1)).n2 = tris[j].2.1 + 1 ∧ (m.tria (j + 1)).n3 = tris[j].2.2 + 1 := by
  obtain ⟨m0, h1, h2, h3, h4, h5, h6⟩ := readDelaunay_parts h
  obtain ⟨b1, b2, b3, b4, b5, b6, b7⟩ := buildEdges_spec m0 m h4 h1
  obtain ⟨a, b, d, e1, e2, e3, e4⟩ := h6 j (by simpa [toInts] using hj)
  have hvj := hv tris[j] (List.getElem_mem hj)
  simp only [toInts, List.getElem_map] at e1 e2 e3
  rw [pyIdx_of_lt hvj.1] at e1
  rw [pyIdx_of_lt hvj.2.1] at e2
  rw [pyIdx_of_lt hvj.2.2.1] at e3
  simp at e1 e2 e3
  rw [b6, e4]
  simp [e1, e2, e3]

theorem eids_of_input {pts : List Pt} {tris : List (ℤ × ℤ × ℤ)} {m : Mesh}
    (h : readDelaunay pts tris = .ok m) : m.eids = List.range' 1 tris.length := by
  obtain ⟨m0, h1, h2, h3, h4, h5, h6⟩ := readDelaunay_parts h
  obtain ⟨b1, b2, b3, b4, b5, b6, b7⟩ := buildEdges_spec m0 m h4 h1
  rw [b2, h3]

theorem nids_of_input {pts : List Pt} {tris : List (ℤ × ℤ × ℤ)} {m : Mesh}
    (h : readDelaunay pts tris = .ok m) : m.nids = List.range' 1 pts.length := by
  obtain ⟨m0, h1, h2, h3, h4, h5, h6⟩ := readDelaunay_parts h
  obtain ⟨b1, b2, b3, b4, b5, b6, b7⟩ := buildEdges_spec m0 m h4 h1
  rw [b1, h2]

theorem hasCorner_input {pts : List Pt} {tris : List (ℕ × ℕ × ℕ)} (hv : ∀ t ∈ tris, ValidTri pts.length t) {m : Mesh}
    (h : readDelaunay pts (toInts tris) = .ok m) (j : ℕ) (hj : j < tris.length) (i : ℕ) :
    (m.tria (j + 1)).HasCorner i ↔ Corner tris[j] i := by
  obtain ⟨e1, e2, e3⟩ := tria_of_input hv h j hj
  simp only [Tria.HasCorner, Corner, e1, e2, e3]

theorem distinct_input {pts : List Pt} {tris : List (ℕ × ℕ × ℕ)} (hv : ∀ t ∈ tris, ValidTri pts.length t) {m : Mesh}
    (h : readDelaunay pts (toInts tris) = .ok m) : ∀ e ∈ m.eids, (m.tria e).Distinct := by
  intro e he
  rw [eids_of_input h, List.mem_range'_1] at he
  simp [toInts] at he
  obtain ⟨e1, e2, e3⟩ := tria_of_input hv h (e - 1) (by omega)
  rw [show e - 1 + 1 = e by omega] at e1 e2 e3
  have hvj := hv _ (List.getElem_mem (show e - 1 < tris.length by omega))
  obtain ⟨_, _, _, g1, g2, g3⟩ := hvj
  simp only [Tria.Distinct, e1, e2, e3]
  omega

theorem mem_eids_input {pts : List Pt} {tris : List (ℕ × ℕ × ℕ)} {m : Mesh}
    (h : readDelaunay pts (toInts tris) = .ok m) (e : ℕ) : e ∈ m.eids ↔ ∃ j, j < tris.length ∧ e = j + 1 := by
  rw [eids_of_input h, List.mem_range'_1]
  simp only [toInts, List.length_map]
  constructor
  · intro he; exact ⟨e - 1, by omega, by omega⟩
  · rintro ⟨j, hj, rfl⟩; omega

/-! ### C01 -/

/-- C01: `mesh.edges` has exactly one entry per unordered pair of corners of a common triangle, with ordered key, and the
edge's ends are the key's nodes. -/
theorem C01_edges (pts : List Pt) (tris : List (ℕ × ℕ × ℕ)) (hv : ∀ t ∈ tris, ValidTri pts.length t) :
    ∃ m, readDelaunay pts (toInts tris) = .ok m ∧ m.ekeys.Nodup ∧
      (∀ a b, (a, b) ∈ m.ekeys ↔ a < b ∧ ∃ t ∈ tris, Corner t a ∧ Corner t b) ∧
      ∀ a b, (a, b) ∈ m.ekeys → (m.edge (a, b)).n1 = a ∧ (m.edge (a, b)).n2 = b := by
  rcases readDelaunay_total pts (toInts tris) with ⟨_, m, hm⟩ | ⟨hn, _⟩
  · refine ⟨m, hm, (wf_readDelaunay hm).ekeys_nodup, ?_, fun a b hab => (wf_readDelaunay hm).en _ hab⟩
    intro a b
    rw [(wf_readDelaunay hm).mem_ekeys]
    constructor
    · rintro ⟨e, he, hk⟩
      rw [mem_edgeIds (distinct_input hv hm e he)] at hk
      obtain ⟨j, hj, rfl⟩ := (mem_eids_input hm e).1 he
      simp only [hasCorner_input hv hm j hj] at hk
      exact ⟨hk.1, tris[j], List.getElem_mem hj, hk.2⟩
    · rintro ⟨hab, t, ht, hc⟩
      obtain ⟨j, hj, rfl⟩ := List.getElem_of_mem ht
      refine ⟨j + 1, (mem_eids_input hm _).2 ⟨j, hj, rfl⟩, ?_⟩
      rw [mem_edgeIds (distinct_input hv hm _ ((mem_eids_input hm _).2 ⟨j, hj, rfl⟩))]
      simp only [hasCorner_input hv hm j hj]
      exact ⟨hab, hc⟩
  · exfalso
    apply hn
    intro t ht
    simp only [toInts, List.mem_map] at ht
    obtain ⟨t', ht', rfl⟩ := ht
    obtain ⟨h1, h2, h3, _⟩ := hv t' ht'
    simp [pyIdx_of_lt h1, pyIdx_of_lt h2, pyIdx_of_lt h3]

/-- the example mesh meets the hypothesis; its diagonal (1, 3) is an edge and (2, 4) is not -/
example : ∃ m, readDelaunay exPts (toInts exTris) = .ok m ∧ (1, 3) ∈ m.ekeys ∧ (2, 4) ∉ m.ekeys := by
  obtain ⟨m, h1, _, h2, _⟩ := C01_edges exPts exTris exTris_valid
  refine ⟨m, h1, (h2 _ _).2 ⟨by norm_num, (0, 1, 2), by simp [exTris], by simp [Corner], by simp [Corner]⟩, ?_⟩
  rw [h2]
  rintro ⟨_, t, ht, c1, c2⟩
  simp [exTris] at ht
  rcases ht with rfl | rfl <;> simp [Corner] at c1 c2

/-! ### C02 -/

/-- C02: `edge.trias` lists, in increasing element order and each once, exactly the triangles with both ends as corners; it
is not empty. -/
theorem C02_edge_trias (pts : List Pt) (tris : List (ℕ × ℕ × ℕ)) (hv : ∀ t ∈ tris, ValidTri pts.length t) :
    ∃ m, readDelaunay pts (toInts tris) = .ok m ∧ ∀ a b, (a, b) ∈ m.ekeys →
      (m.edge (a, b)).trias.Pairwise (· < ·) ∧ (m.edge (a, b)).trias ≠ [] ∧
      ∀ e, e ∈ (m.edge (a, b)).trias ↔ ∃ j, ∃ (hj : j < tris.length), e = j + 1 ∧ Corner tris[j] a ∧ Corner tris[j] b := by
  obtain ⟨m, hm, _⟩ := C01_edges pts tris hv
  refine ⟨m, hm, fun a b hab => ?_⟩
  have wf := wf_readDelaunay hm
  have hd := distinct_input hv hm
  have hab' : a < b := by
    obtain ⟨e, he, hk⟩ := (wf.mem_ekeys _).1 hab
    exact ((mem_edgeIds (hd e he) _).1 hk).1
  have hmem : ∀ e, e ∈ (m.edge (a, b)).trias ↔ ∃ j, ∃ (hj : j < tris.length), e = j + 1 ∧ Corner tris[j] a ∧ Corner tris[j] b := by
    intro e
    rw [wf.etrias _ hab, mem_sideTrias]
    constructor
    · rintro ⟨he, hk⟩
      rw [mem_edgeIds (hd e he)] at hk
      obtain ⟨j, hj, rfl⟩ := (mem_eids_input hm e).1 he
      simp only [hasCorner_input hv hm j hj] at hk
      exact ⟨j, hj, rfl, hk.2⟩
    · rintro ⟨j, hj, rfl, hc⟩
      have he := (mem_eids_input hm _).2 ⟨j, hj, rfl⟩
      refine ⟨he, ?_⟩
      rw [mem_edgeIds (hd _ he)]
      simp only [hasCorner_input hv hm j hj]
      exact ⟨hab', hc⟩
  refine ⟨?_, ?_, hmem⟩
  · rw [wf.etrias _ hab, sideTrias_distinct hd, eids_of_input hm]
    exact List.Pairwise.filter _ (List.pairwise_lt_range')
  · obtain ⟨e, he, hk⟩ := (wf.mem_ekeys _).1 hab
    have : e ∈ (m.edge (a, b)).trias := by rw [wf.etrias _ hab, mem_sideTrias]; exact ⟨he, hk⟩
    exact List.ne_nil_of_mem this

/-- in the example mesh the diagonal has both triangles, (1, 2) only the first -/
example : ∃ m, readDelaunay exPts (toInts exTris) = .ok m ∧ (2 ∈ (m.edge (1, 3)).trias) ∧ 2 ∉ (m.edge (1, 2)).trias := by
  obtain ⟨m, hm, h⟩ := C02_edge_trias exPts exTris exTris_valid
  obtain ⟨m', hm', _, h2, _⟩ := C01_edges exPts exTris exTris_valid
  obtain rfl : m' = m := by rw [hm] at hm'; cases hm'; rfl
  have e1 : (1, 3) ∈ m'.ekeys := (h2 _ _).2 ⟨by norm_num, (0, 1, 2), by simp [exTris], by simp [Corner], by simp [Corner]⟩
  have e2 : (1, 2) ∈ m'.ekeys := (h2 _ _).2 ⟨by norm_num, (0, 1, 2), by simp [exTris], by simp [Corner], by simp [Corner]⟩
  refine ⟨m', hm, ((h _ _ e1).2.2 2).2 ⟨1, by simp [exTris], rfl, by simp [exTris, Corner], by simp [exTris, Corner]⟩, ?_⟩
  rw [(h _ _ e2).2.2]
  rintro ⟨j, hj, hj2, c1, c2⟩
  obtain rfl : j = 1 := by omega
  simp [exTris, Corner] at c2

/-! ### C03 -/

/-- C03: `tria.edges` holds exactly the three edges of the triangle, each once. -/
theorem C03_tria_edges (pts : List Pt) (tris : List (ℕ × ℕ × ℕ)) (hv : ∀ t ∈ tris, ValidTri pts.length t) :
    ∃ m, readDelaunay pts (toInts tris) = .ok m ∧ ∀ j (hj : j < tris.length),
      (m.tria (j + 1)).edges.Nodup ∧ (m.tria (j + 1)).edges.length = 3 ∧
      ∀ k, k ∈ (m.tria (j + 1)).edges ↔ k ∈ m.ekeys ∧ Corner tris[j] k.1 ∧ Corner tris[j] k.2 := by
  obtain ⟨m, hm, _⟩ := C01_edges pts tris hv
  refine ⟨m, hm, fun j hj => ?_⟩
  have wf := wf_readDelaunay hm
  have he := (mem_eids_input hm _).2 ⟨j, hj, rfl⟩
  have hd := distinct_input hv hm _ he
  have hp := wf.tedges _ he
  refine ⟨hp.nodup_iff.2 (edgeIds_nodup hd), by rw [hp.length_eq]; rfl, fun k => ?_⟩
  rw [hp.mem_iff]
  constructor
  · intro hk
    refine ⟨(wf.mem_ekeys k).2 ⟨_, he, hk⟩, ?_⟩
    rw [mem_edgeIds hd] at hk
    simpa only [hasCorner_input hv hm j hj] using hk.2
  · rintro ⟨h1, h2⟩
    rw [mem_edgeIds hd]
    simp only [hasCorner_input hv hm j hj]
    refine ⟨?_, h2⟩
    obtain ⟨e', he', hk'⟩ := (wf.mem_ekeys k).1 h1
    exact ((mem_edgeIds (distinct_input hv hm e' he') _).1 hk').1

/-- the second triangle of the example mesh has the edge (1, 4) -/
example : ∃ m, readDelaunay exPts (toInts exTris) = .ok m ∧ (1, 4) ∈ (m.tria 2).edges ∧ (1, 2) ∉ (m.tria 2).edges := by
  obtain ⟨m, hm, h⟩ := C03_tria_edges exPts exTris exTris_valid
  obtain ⟨m', hm', _, h2, _⟩ := C01_edges exPts exTris exTris_valid
  obtain rfl : m' = m := by rw [hm] at hm'; cases hm'; rfl
  obtain ⟨_, _, h3⟩ := h 1 (by simp [exTris])
  refine ⟨m', hm, (h3 _).2 ⟨(h2 _ _).2 ⟨by norm_num, (0, 2, 3), by simp [exTris], by simp [Corner], by simp [Corner]⟩,
    by simp [exTris, Corner], by simp [exTris, Corner]⟩, fun hc => ?_⟩
  have := ((h3 _).1 hc).2.2
  simp [exTris, Corner] at this

/-! ### C04 -/

/-- C04: `node.trias` and `node.edges` are the triangles with that corner and the edges ending there. -/
theorem C04_node_sets (pts : List Pt) (tris : List (ℕ × ℕ × ℕ)) (hv : ∀ t ∈ tris, ValidTri pts.length t) :
    ∃ m, readDelaunay pts (toInts tris) = .ok m ∧ ∀ i < pts.length,
      (∀ e, e ∈ (m.node (i + 1)).trias ↔ ∃ j, ∃ (hj : j < tris.length), e = j + 1 ∧ Corner tris[j] (i + 1)) ∧
      ∀ k, k ∈ (m.node (i + 1)).edges ↔ k ∈ m.ekeys ∧ (k.1 = i + 1 ∨ k.2 = i + 1) := by
  obtain ⟨m, hm, _⟩ := C01_edges pts tris hv
  refine ⟨m, hm, fun i hi => ?_⟩
  obtain ⟨m0, h1, h2, h3, h4, h5, h6⟩ := readDelaunay_parts hm
  obtain ⟨b1, b2, b3, b4, b5, b6, b7⟩ := buildEdges_spec m0 m h4 h1
  have hn := b7 (i + 1)
  rw [h5 i hi] at hn
  constructor
  · intro e
    rw [hn]
    simp only [freshNode, Finset.empty_union, List.mem_toFinset, List.mem_filter, decide_eq_true_eq]
    rw [← b2, mem_eids_input hm]
    have hT : ∀ e, i + 1 ∈ m0.triaNodes e ↔ (m.tria e).HasCorner (i + 1) := by
      intro e; rw [b6]; simp [Mesh.triaNodes, Tria.HasCorner]
    constructor
    · rintro ⟨⟨j, hj, rfl⟩, hc⟩
      rw [hT, hasCorner_input hv hm j hj] at hc
      exact ⟨j, hj, rfl, hc⟩
    · rintro ⟨j, hj, rfl, hc⟩
      refine ⟨⟨j, hj, rfl⟩, ?_⟩
      rw [hT, hasCorner_input hv hm j hj]; exact hc
  · intro k
    rw [hn]
    simp [freshNode, endsAt]

/-- in the example mesh node 2 belongs to the first triangle only -/
example : ∃ m, readDelaunay exPts (toInts exTris) = .ok m ∧ 1 ∈ (m.node 2).trias ∧ 2 ∉ (m.node 2).trias := by
  obtain ⟨m, hm, h⟩ := C04_node_sets exPts exTris exTris_valid
  obtain ⟨h1, _⟩ := h 1 (by simp [exPts])
  refine ⟨m, hm, (h1 1).2 ⟨0, by simp [exTris], rfl, by simp [exTris, Corner]⟩, ?_⟩
  rw [h1]
  rintro ⟨j, hj, hj2, c1⟩
  obtain rfl : j = 1 := by omega
  simp [exTris, Corner] at c1

/-! ### C05 -/

/-- the coordinates given by the user, with z = 0 for 2-D points -/
def givenXYZ : Pt → ℝ × ℝ × ℝ
  | .d2 x y => (x, y, 0)
  | .d3 x y z => (x, y, z)

/-- position meant by a Python index into a list of length `N` -/
def resolve (N : ℕ) (i : ℤ) : ℤ := if i < 0 then i + N else i

/-- C05: the reader raises IndexError iff some index is outside `-N .. N-1`; otherwise points become nodes `1..N` with their
coordinates and triangles become elements `1..T` with the given corners in the given order (negative indices count from
the end, as Python does). -/
theorem C05_preserved (pts : List Pt) (tris : List (ℤ × ℤ × ℤ)) :
    ((∃ t ∈ tris, ∃ i ∈ [t.1, t.2.1, t.2.2], i < -(pts.length : ℤ) ∨ (pts.length : ℤ) ≤ i) →
      readDelaunay pts tris = .error .indexError) ∧
    ((∀ t ∈ tris, ∀ i ∈ [t.1, t.2.1, t.2.2], -(pts.length : ℤ) ≤ i ∧ i < pts.length) →
      ∃ m, readDelaunay pts tris = .ok m ∧ m.nids = List.range' 1 pts.length ∧ m.eids = List.range' 1 tris.length ∧
        (∀ i (hi : i < pts.length), let p := (m.node (i + 1)).xyz; (p.x, p.y, p.z) = givenXYZ pts[i] ∧ m.pos (i + 1) = p ∧
          (m.node (i + 1)).prop = none) ∧
        ∀ j (hj : j < tris.length), let t := m.tria (j + 1)
          (t.n1 : ℤ) = resolve pts.length tris[j].1 + 1 ∧ (t.n2 : ℤ) = resolve pts.length tris[j].2.1 + 1 ∧
          (t.n3 : ℤ) = resolve pts.length tris[j].2.2 + 1 ∧ t.prop = none) := by
  constructor
  · rintro ⟨t, ht, i, hi, hb⟩
    rcases readDelaunay_total pts tris with ⟨h, _⟩ | ⟨_, h⟩
    · exfalso
      have := h t ht
      simp only [pyIdx_isSome_iff] at this
      simp only [List.mem_cons, List.not_mem_nil, or_false] at hi
      rcases hi with rfl | rfl | rfl <;> omega
    · exact h
  · intro hb
    rcases readDelaunay_total pts tris with ⟨_, m, hm⟩ | ⟨h, _⟩
    · obtain ⟨m0, h1, h2, h3, h4, h5, h6⟩ := readDelaunay_parts hm
      obtain ⟨b1, b2, b3, b4, b5, b6, b7⟩ := buildEdges_spec m0 m h4 h1
      refine ⟨m, hm, by rw [b1, h2], by rw [b2, h3], ?_, ?_⟩
      · intro i hi
        have hn := b7 (i + 1)
        rw [h5 i hi] at hn
        simp only [Mesh.pos, hn, freshNode, id]
        cases pts[i] <;> simp [Pt.toVec, givenXYZ]
      · intro j hj
        obtain ⟨a, b, d, e1, e2, e3, e4⟩ := h6 j hj
        dsimp only
        rw [b6, e4]
        have r : ∀ (i : ℤ) (k : ℕ), pyIdx pts.length i = some k → ((k + 1 : ℕ) : ℤ) = resolve pts.length i + 1 := by
          intro i k h
          have h' := h
          unfold pyIdx at h'
          unfold resolve
          split at h' <;> split at h' <;> simp at h'
          · rw [if_neg (by omega)]; push_cast; omega
          · rw [if_pos (by omega)]; push_cast; omega
        exact ⟨r _ _ e1, r _ _ e2, r _ _ e3, rfl⟩
    · exfalso
      apply h
      intro t ht
      have := hb t ht
      simp only [pyIdx_isSome_iff]
      exact ⟨this _ (by simp), this _ (by simp), this _ (by simp)⟩

/-- both branches occur: index 4 of four points raises, -1 means the last point -/
example : readDelaunay exPts [(0, 1, 4)] = .error .indexError ∧
    ∃ m, readDelaunay exPts [(0, 1, -1)] = .ok m ∧ (m.tria 1).n3 = 4 := by
  refine ⟨(C05_preserved exPts _).1 ⟨_, List.mem_singleton_self _, 4, by simp, by simp [exPts]⟩, ?_⟩
  obtain ⟨m, h1, _, _, _, h2⟩ := (C05_preserved exPts [(0, 1, -1)]).2 (by simp [exPts])
  refine ⟨m, h1, ?_⟩
  have := (h2 0 (by simp)).2.2.1
  simp [exPts, resolve] at this
  omega

/-! ### C06 -/

/-- boundary and interior edges when no edge has more than two triangles -/
theorem count_boundary (l : List Key) (f : Key → ℕ) (h : ∀ k ∈ l, f k = 1 ∨ f k = 2) :
    (l.map f).sum = (l.filter fun k => f k = 1).length + 2 * (l.filter fun k => f k = 2).length := by
  induction l with
  | nil => rfl
  | cons k l ih =>
    have ih' := ih fun x hx => h x (List.mem_cons_of_mem _ hx)
    rcases h k (by simp) with h1 | h1 <;> simp [h1, ih'] <;> omega

/-- C06 for `read_delaunay`, for every accepted input (also degenerate triangles and non-manifold edges). -/
theorem C06_sides_delaunay (pts : List Pt) (tris : List (ℤ × ℤ × ℤ)) (m : Mesh) (h : readDelaunay pts tris = .ok m) :
    (m.ekeys.map fun k => (m.edge k).trias.length).sum = 3 * tris.length ∧
    ((∀ k ∈ m.ekeys, (m.edge k).trias.length ≤ 2) →
      (m.ekeys.filter fun k => (m.edge k).trias.length = 1).length + 2 * (m.ekeys.filter fun k => (m.edge k).trias.length = 2).length
        = 3 * tris.length) := by
  have wf := wf_readDelaunay h
  have h1 := sum_trias_length wf
  rw [eids_of_input h, List.length_range'] at h1
  refine ⟨h1, fun h2 => ?_⟩
  rw [← h1, count_boundary m.ekeys fun k => (m.edge k).trias.length]
  intro k hk
  have := h2 k hk
  have hne : (m.edge k).trias ≠ [] := by
    obtain ⟨e, he, hke⟩ := (wf.mem_ekeys k).1 hk
    rw [wf.etrias k hk]
    exact List.ne_nil_of_mem (mem_sideTrias.2 ⟨he, hke⟩)
  have := List.length_pos_iff.2 hne
  omega

/-- C06 for `read_mesh`, for every deck with distinct node ids and element ids (dictionary keys). -/
theorem C06_sides_mesh (d : Deck) (hn : (d.nodes.map (·.1)).Nodup) (he : (d.elems.map (·.1)).Nodup) (m : Mesh)
    (h : readMesh d = .ok m) :
    (m.ekeys.map fun k => (m.edge k).trias.length).sum = 3 * d.elems.length ∧
    ((∀ k ∈ m.ekeys, (m.edge k).trias.length ≤ 2) →
      (m.ekeys.filter fun k => (m.edge k).trias.length = 1).length + 2 * (m.ekeys.filter fun k => (m.edge k).trias.length = 2).length
        = 3 * d.elems.length) := by
  have wf := wf_readMesh hn he h
  have h1 := sum_trias_length wf
  have hl : m.eids.length = d.elems.length := by
    unfold readMesh at h
    split at h
    · rename_i m0 hm
      obtain ⟨p1, p2, p3, p4, p5⟩ := deckNodes_spec d.nodes emptyMesh
      obtain ⟨t1, t2, t3, t4, t5, t6⟩ := deckElems_spec _ _ _ hm
      obtain ⟨b1, b2, _⟩ := buildEdges_spec m0 m (by rw [t4, p4]; rfl) h
      rw [b2, t3, p2]; simp [emptyMesh]
    · cases h
  rw [hl] at h1
  refine ⟨h1, fun h2 => ?_⟩
  rw [← h1, count_boundary m.ekeys fun k => (m.edge k).trias.length]
  intro k hk
  have := h2 k hk
  have hne : (m.edge k).trias ≠ [] := by
    obtain ⟨e, he, hke⟩ := (wf.mem_ekeys k).1 hk
    rw [wf.etrias k hk]
    exact List.ne_nil_of_mem (mem_sideTrias.2 ⟨he, hke⟩)
  have := List.length_pos_iff.2 hne
  omega

/-- the example mesh is an instance: six sides in total -/
example : ∃ m, readDelaunay exPts (toInts exTris) = .ok m ∧ (m.ekeys.map fun k => (m.edge k).trias.length).sum = 6 := by
  obtain ⟨m, hm, _⟩ := C01_edges exPts exTris exTris_valid
  exact ⟨m, hm, (C06_sides_delaunay _ _ _ hm).1⟩

/-! ### C07 -/

/-- C07: any element that is not a CTRIA3 makes `read_mesh` raise NotImplementedError. -/
theorem C07_only_ctria3 (d : Deck) (h : ∃ e ∈ d.elems, e.2 = none) : readMesh d = .error .notImplemented := by
  unfold readMesh
  have : ∀ (l : List (ℕ × Option (ℕ × ℕ × ℕ))) (m : Mesh), (∃ e ∈ l, e.2 = none) → deckElems m l = .error .notImplemented := by
    intro l
    induction l with
    | nil => intro m h; obtain ⟨e, he, _⟩ := h; simp at he
    | cons p l ih =>
      intro m h
      obtain ⟨e, o⟩ := p
      cases o with
      | none => rfl
      | some t =>
        obtain ⟨a, b, c⟩ := t
        unfold deckElems
        apply ih
        obtain ⟨e', he', hn⟩ := h
        rcases List.mem_cons.1 he' with rfl | he'
        · simp at hn
        · exact ⟨e', he', hn⟩
  rw [this _ _ h]

/-- the deck with the same nodes (basic coordinate system) and triangles as the Delaunay input -/
def sameDeck (pts : List Pt) (tris : List (ℕ × ℕ × ℕ)) : Deck :=
  ⟨pts.zipIdx.map fun p => (p.2 + 1, ⟨(givenXYZ p.1).1, (givenXYZ p.1).2.1, (givenXYZ p.1).2.2⟩, id),
   tris.zipIdx.map fun t => (t.2 + 1, some (t.1.1 + 1, t.1.2.1 + 1, t.1.2.2 + 1))⟩

theorem deckNodes_eq_addPoints (pts : List Pt) : ∀ (m : Mesh) (c : ℕ),
    deckNodes m ((pts.zipIdx c).map fun p => (p.2 + 1, ⟨(givenXYZ p.1).1, (givenXYZ p.1).2.1, (givenXYZ p.1).2.2⟩, id)) =
      addPoints m pts c := by
  induction pts with
  | nil => intro m c; rfl
  | cons p ps ih =>
    intro m c
    rw [List.zipIdx_cons, List.map_cons]
    unfold deckNodes addPoints
    rw [ih]
    cases p <;> rfl

theorem deckElems_eq_addTrias (N : ℕ) (tris : List (ℕ × ℕ × ℕ)) : ∀ (m : Mesh) (c : ℕ),
    (∀ t ∈ tris, t.1 < N ∧ t.2.1 < N ∧ t.2.2 < N) →
    deckElems m ((tris.zipIdx c).map fun t => (t.2 + 1, some (t.1.1 + 1, t.1.2.1 + 1, t.1.2.2 + 1))) =
      addTrias N m (toInts tris) c := by
  induction tris with
  | nil => intro m c _; rfl
  | cons t ts ih =>
    intro m c h
    obtain ⟨a, b, d⟩ := t
    obtain ⟨h1, h2, h3⟩ := h (a, b, d) (by simp)
    rw [List.zipIdx_cons, List.map_cons]
    simp only [toInts, List.map_cons]
    unfold deckElems addTrias
    simp only [pyIdx_of_lt h1, pyIdx_of_lt h2, pyIdx_of_lt h3]
    rw [ih _ _ fun t ht => h t (List.mem_cons_of_mem _ ht)]
    rfl

/-- C07: on a deck holding the same nodes and triangles `read_mesh` gives the same mesh as `read_delaunay`. -/
theorem C07_same_mesh (pts : List Pt) (tris : List (ℕ × ℕ × ℕ))
    (hv : ∀ t ∈ tris, t.1 < pts.length ∧ t.2.1 < pts.length ∧ t.2.2 < pts.length) :
    readMesh (sameDeck pts tris) = readDelaunay pts (toInts tris) := by
  unfold readMesh readDelaunay sameDeck
  dsimp only
  rw [deckNodes_eq_addPoints, deckElems_eq_addTrias pts.length tris _ _ hv]

/-- C07 (incidence for arbitrary decks): whenever `read_mesh` succeeds on a deck with distinct ids and distinct corners, the
edges are exactly the triangle sides and each edge lists exactly its triangles, each once. -/
theorem C07_deck_incidence (d : Deck) (hn : (d.nodes.map (·.1)).Nodup) (he : (d.elems.map (·.1)).Nodup) (m : Mesh)
    (h : readMesh d = .ok m) (hd : ∀ e ∈ m.eids, (m.tria e).Distinct) :
    m.ekeys.Nodup ∧
    (∀ a b, (a, b) ∈ m.ekeys ↔ a < b ∧ ∃ e ∈ m.eids, (m.tria e).HasCorner a ∧ (m.tria e).HasCorner b) ∧
    ∀ a b, (a, b) ∈ m.ekeys → (m.edge (a, b)).n1 = a ∧ (m.edge (a, b)).n2 = b ∧ (m.edge (a, b)).trias.Nodup ∧
      ∀ e, e ∈ (m.edge (a, b)).trias ↔ e ∈ m.eids ∧ (m.tria e).HasCorner a ∧ (m.tria e).HasCorner b := by
  have wf := wf_readMesh hn he h
  have hm : ∀ a b, (a, b) ∈ m.ekeys ↔ a < b ∧ ∃ e ∈ m.eids, (m.tria e).HasCorner a ∧ (m.tria e).HasCorner b := by
    intro a b
    rw [wf.mem_ekeys]
    constructor
    · rintro ⟨e, he, hk⟩
      rw [mem_edgeIds (hd e he)] at hk
      exact ⟨hk.1, e, he, hk.2⟩
    · rintro ⟨hab, e, he, hc⟩
      exact ⟨e, he, (mem_edgeIds (hd e he) _).2 ⟨hab, hc⟩⟩
  refine ⟨wf.ekeys_nodup, hm, fun a b hab => ⟨(wf.en _ hab).1, (wf.en _ hab).2, ?_, fun e => ?_⟩⟩
  · rw [wf.etrias _ hab, sideTrias_distinct hd]
    exact wf.eids_nodup.filter _
  · rw [wf.etrias _ hab, mem_sideTrias]
    constructor
    · rintro ⟨he, hk⟩
      exact ⟨he, ((mem_edgeIds (hd e he) _).1 hk).2⟩
    · rintro ⟨he, hc⟩
      exact ⟨he, (mem_edgeIds (hd e he) _).2 ⟨((hm a b).1 hab).1, hc⟩⟩

theorem deckNodes_node (l : List (ℕ × Vec3 × (Vec3 → Vec3))) : ∀ m : Mesh, (l.map (·.1)).Nodup →
    (∀ q ∈ l, (deckNodes m l).node q.1 = freshNode q.2.1 q.2.2) ∧ ∀ i, i ∉ l.map (·.1) → (deckNodes m l).node i = m.node i := by
  induction l with
  | nil => intro m _; simp [deckNodes]
  | cons p l ih =>
    intro m hnd
    obtain ⟨i, x, c⟩ := p
    rw [List.map_cons] at hnd
    obtain ⟨g1, g2⟩ := List.nodup_cons.1 hnd
    unfold deckNodes
    obtain ⟨h1, h2⟩ := ih { m with nids := m.nids ++ [i], node := Function.update m.node i (freshNode x c) } g2
    constructor
    · intro q hq
      rcases List.mem_cons.1 hq with rfl | hq
      · rw [h2 _ g1]; simp
      · exact h1 q hq
    · intro j hj
      rw [List.map_cons, List.mem_cons, not_or] at hj
      rw [h2 j hj.2]
      simp only
      rw [Function.update_of_ne hj.1]

theorem deckElems_tria (l : List (ℕ × Option (ℕ × ℕ × ℕ))) : ∀ m m' : Mesh, (l.map (·.1)).Nodup → deckElems m l = .ok m' →
    (∀ q ∈ l, ∃ a b c, q.2 = some (a, b, c) ∧ m'.tria q.1 = ⟨a, b, c, none, []⟩) ∧
    ∀ e, e ∉ l.map (·.1) → m'.tria e = m.tria e := by
  induction l with
  | nil => intro m m' _ h; simp [deckElems] at h; subst h; simp
  | cons p l ih =>
    intro m m' hnd h
    obtain ⟨e, o⟩ := p
    rw [List.map_cons] at hnd
    obtain ⟨g1, g2⟩ := List.nodup_cons.1 hnd
    cases o with
    | none => simp [deckElems] at h
    | some t =>
      obtain ⟨a, b, c⟩ := t
      unfold deckElems at h
      obtain ⟨h1, h2⟩ := ih _ _ g2 h
      constructor
      · intro q hq
        rcases List.mem_cons.1 hq with rfl | hq
        · refine ⟨a, b, c, rfl, ?_⟩
          rw [h2 _ g1]; simp
        · exact h1 q hq
      · intro j hj
        rw [List.map_cons, List.mem_cons, not_or] at hj
        rw [h2 j hj.2]
        simp only
        rw [Function.update_of_ne hj.1]

theorem deckElems_total (l : List (ℕ × Option (ℕ × ℕ × ℕ))) : ∀ m : Mesh, (∀ q ∈ l, q.2 ≠ none) → ∃ m', deckElems m l = .ok m' := by
  induction l with
  | nil => intro m _; exact ⟨m, rfl⟩
  | cons p l ih =>
    intro m h
    obtain ⟨e, o⟩ := p
    cases o with
    | none => exact absurd rfl (h (e, none) (by simp))
    | some t =>
      obtain ⟨a, b, c⟩ := t
      unfold deckElems
      exact ih _ fun q hq => h q (List.mem_cons_of_mem _ hq)

/-- C07: a deck of CTRIA3 elements is read if every corner is a node of the deck, otherwise the reader raises KeyError. -/
theorem C07_deck_outcome (d : Deck) (he : (d.elems.map (·.1)).Nodup) (hc : ∀ q ∈ d.elems, q.2 ≠ none) :
    ((∀ q ∈ d.elems, ∀ a b c, q.2 = some (a, b, c) → ∀ i ∈ [a, b, c], i ∈ d.nodes.map (·.1)) → ∃ m, readMesh d = .ok m) ∧
    ((∃ q ∈ d.elems, ∃ a b c, q.2 = some (a, b, c) ∧ ∃ i ∈ [a, b, c], i ∉ d.nodes.map (·.1)) → readMesh d = .error .keyError) := by
  unfold readMesh
  obtain ⟨m0, h0⟩ := deckElems_total d.elems (deckNodes emptyMesh d.nodes) hc
  rw [h0]
  dsimp only
  obtain ⟨p1, p2, p3, p4, p5⟩ := deckNodes_spec d.nodes emptyMesh
  obtain ⟨t1, t2, t3, t4, t5, t6⟩ := deckElems_spec _ _ _ h0
  obtain ⟨u1, u2⟩ := deckElems_tria _ _ _ he h0
  have hn : m0.nids = d.nodes.map (·.1) := by rw [t1, p1]; simp [emptyMesh]
  have hE : m0.eids = d.elems.map (·.1) := by rw [t3, p2]; simp [emptyMesh]
  constructor
  · intro h
    rw [buildEdges_ok_iff, hE, hn]
    intro e he' k hk
    obtain ⟨q, hq, rfl⟩ := List.mem_map.1 he'
    obtain ⟨a, b, c, g1, g2⟩ := u1 q hq
    obtain ⟨k1, k2, _⟩ := mem_edgeIds_corner hk
    rw [g2] at k1 k2
    simp only [Tria.HasCorner] at k1 k2
    have := h q hq a b c g1
    exact ⟨this _ (by simpa using k1), this _ (by simpa using k2)⟩
  · rintro ⟨q, hq, a, b, c, g1, i, hi, hni⟩
    have hnot : ¬ ∃ m', buildEdges m0 = .ok m' := by
      rw [buildEdges_ok_iff, hE, hn]
      intro hall
      obtain ⟨a', b', c', g1', g2⟩ := u1 q hq
      rw [g1] at g1'
      obtain ⟨rfl, rfl, rfl⟩ : a = a' ∧ b = b' ∧ c = c' := by simpa using g1'
      have := hall q.1 (List.mem_map_of_mem hq)
      rw [g2] at this
      simp only [Tria.edgeIds, List.mem_cons, List.not_mem_nil, or_false, forall_eq_or_imp, forall_eq] at this
      obtain ⟨⟨v1, v2⟩, ⟨v3, v4⟩, _⟩ := this
      apply hni
      simp only [List.mem_cons, List.not_mem_nil, or_false] at hi
      rcases sortPair_cases a b with ⟨e1, _⟩ | ⟨e1, _⟩ <;> rcases sortPair_cases b c with ⟨e2, _⟩ | ⟨e2, _⟩ <;>
        rw [e1] at v1 v2 <;> rw [e2] at v3 v4 <;> rcases hi with rfl | rfl | rfl <;> assumption
    unfold buildEdges at hnot ⊢
    dsimp only at hnot ⊢
    split at hnot
    · exact absurd ⟨_, rfl⟩ hnot
    · rename_i hc'
      rw [if_neg hc']

/-- C07: what `read_mesh` makes of an arbitrary deck. Node ids, element ids and their order are those of the deck; every node
keeps its coordinates and coordinate system and starts without properties; every triangle keeps its corners in the given order,
starts without properties and lists its sides, each once if the corners differ; `node.trias` and `node.edges` are the triangles
with that corner and the edges ending there. -/
theorem C07_deck_preserved (d : Deck) (hn : (d.nodes.map (·.1)).Nodup) (he : (d.elems.map (·.1)).Nodup) (m : Mesh)
    (h : readMesh d = .ok m) :
    m.nids = d.nodes.map (·.1) ∧ m.eids = d.elems.map (·.1) ∧
    (∀ q ∈ d.nodes, (m.node q.1).xyz = q.2.1 ∧ m.pos q.1 = q.2.2 q.2.1 ∧ (m.node q.1).prop = none ∧
      (∀ e, e ∈ (m.node q.1).trias ↔ ∃ f ∈ d.elems, f.1 = e ∧ ∃ a b c, f.2 = some (a, b, c) ∧ q.1 ∈ [a, b, c]) ∧
      ∀ k, k ∈ (m.node q.1).edges ↔ k ∈ m.ekeys ∧ (k.1 = q.1 ∨ k.2 = q.1)) ∧
    ∀ f ∈ d.elems, ∃ a b c, f.2 = some (a, b, c) ∧ (m.tria f.1).n1 = a ∧ (m.tria f.1).n2 = b ∧ (m.tria f.1).n3 = c ∧
      (m.tria f.1).prop = none ∧ ((m.tria f.1).Distinct → (m.tria f.1).edges.Nodup ∧ (m.tria f.1).edges.length = 3 ∧
        ∀ k, k ∈ (m.tria f.1).edges ↔ k ∈ m.ekeys ∧ k.1 ≠ k.2 ∧ k.1 ∈ [a, b, c] ∧ k.2 ∈ [a, b, c]) := by
  have wf := wf_readMesh hn he h
  unfold readMesh at h
  split at h
  swap
  · cases h
  rename_i m0 h0
  obtain ⟨p1, p2, p3, p4, p5⟩ := deckNodes_spec d.nodes emptyMesh
  obtain ⟨t1, t2, t3, t4, t5, t6⟩ := deckElems_spec _ _ _ h0
  obtain ⟨u1, u2⟩ := deckElems_tria _ _ _ he h0
  obtain ⟨v1, v2⟩ := deckNodes_node d.nodes emptyMesh hn
  obtain ⟨b1, b2, b3, b4, b5, b6, b7⟩ := buildEdges_spec m0 m (by rw [t4, p4]; rfl) h
  have hN : m.nids = d.nodes.map (·.1) := by rw [b1, t1, p1]; simp [emptyMesh]
  have hE : m.eids = d.elems.map (·.1) := by rw [b2, t3, p2]; simp [emptyMesh]
  have hT : ∀ f ∈ d.elems, ∃ a b c, f.2 = some (a, b, c) ∧ (m.tria f.1).n1 = a ∧ (m.tria f.1).n2 = b ∧ (m.tria f.1).n3 = c ∧
      (m.tria f.1).prop = none ∧ m0.triaNodes f.1 = [a, b, c] := by
    intro f hf
    obtain ⟨a, b, c, g1, g2⟩ := u1 f hf
    exact ⟨a, b, c, g1, by rw [b6, g2], by rw [b6, g2], by rw [b6, g2], by rw [b6, g2], by simp [Mesh.triaNodes, g2]⟩
  refine ⟨hN, hE, fun q hq => ?_, fun f hf => ?_⟩
  · have hq0 : m0.node q.1 = freshNode q.2.1 q.2.2 := by rw [t2, v1 q hq]
    have hq1 := b7 q.1
    rw [hq0] at hq1
    refine ⟨by rw [hq1]; rfl, by unfold Mesh.pos; rw [hq1]; rfl, by rw [hq1]; rfl, fun e => ?_, fun k => ?_⟩
    · rw [hq1]
      simp only [freshNode, Finset.empty_union, List.mem_toFinset, List.mem_filter, decide_eq_true_eq]
      rw [← b2, hE]
      constructor
      · rintro ⟨h1, h2⟩
        obtain ⟨f, hf, rfl⟩ := List.mem_map.1 h1
        obtain ⟨a, b, c, g1, _, _, _, _, g2⟩ := hT f hf
        exact ⟨f, hf, rfl, a, b, c, g1, g2 ▸ h2⟩
      · rintro ⟨f, hf, rfl, a, b, c, g1, g3⟩
        obtain ⟨a', b', c', g1', _, _, _, _, g2⟩ := hT f hf
        rw [g1] at g1'
        obtain ⟨rfl, rfl, rfl⟩ : a = a' ∧ b = b' ∧ c = c' := by simpa using g1'
        exact ⟨List.mem_map_of_mem hf, g2 ▸ g3⟩
    · rw [hq1]
      simp [freshNode, endsAt]
  · obtain ⟨a, b, c, g1, g2, g3, g4, g5, _⟩ := hT f hf
    refine ⟨a, b, c, g1, g2, g3, g4, g5, fun hd => ?_⟩
    have hme : f.1 ∈ m.eids := by rw [hE]; exact List.mem_map_of_mem hf
    have hp := wf.tedges _ hme
    refine ⟨hp.nodup_iff.2 (edgeIds_nodup hd), by rw [hp.length_eq]; rfl, fun k => ?_⟩
    have hc : ∀ i, (m.tria f.1).HasCorner i ↔ i ∈ [a, b, c] := by
      intro i; simp [Tria.HasCorner, g2, g3, g4]
    rw [hp.mem_iff, mem_edgeIds hd, hc, hc]
    constructor
    · rintro ⟨h1, h2⟩
      exact ⟨(wf.mem_ekeys k).2 ⟨f.1, hme, (mem_edgeIds hd k).2 ⟨h1, (hc _).2 h2.1, (hc _).2 h2.2⟩⟩, Nat.ne_of_lt h1, h2⟩
    · rintro ⟨h1, hne, h2⟩
      obtain ⟨e, he', hk⟩ := (wf.mem_ekeys k).1 h1
      exact ⟨lt_of_le_of_ne (mem_edgeIds_corner hk).2.2 hne, h2⟩

/-- instances: a deck with a quadrilateral is refused, the example mesh is read alike by both readers -/
example : readMesh ⟨(sameDeck exPts exTris).nodes, (sameDeck exPts exTris).elems ++ [(3, none)]⟩ = .error .notImplemented ∧
    (∃ m, readDelaunay exPts (toInts exTris) = .ok m ∧ readMesh (sameDeck exPts exTris) = .ok m) := by
  refine ⟨C07_only_ctria3 _ ⟨(3, none), by simp, rfl⟩, ?_⟩
  obtain ⟨m, hm, _⟩ := C01_edges exPts exTris exTris_valid
  refine ⟨m, hm, ?_⟩
  rw [C07_same_mesh exPts exTris, hm]
  intro t ht
  obtain ⟨h1, h2, h3, _⟩ := exTris_valid t ht
  exact ⟨h1, h2, h3⟩

/-- an instance with a displaced coordinate system and ids that do not start at one: nodes 7, 3, 9 and element 20 -/
example : ∃ m, readMesh ⟨[(7, ⟨0, 0, 0⟩, fun v => ⟨v.x + 5, v.y, v.z⟩), (3, ⟨1, 0, 0⟩, id), (9, ⟨0, 1, 0⟩, id)], [(20, some (9, 7, 3))]⟩ = .ok m ∧
    m.nids = [7, 3, 9] ∧ m.pos 7 = ⟨5, 0, 0⟩ ∧ (m.tria 20).n1 = 9 ∧ 20 ∈ (m.node 3).trias := by
  obtain ⟨m, hm⟩ := (C07_deck_outcome ⟨[(7, ⟨0, 0, 0⟩, fun v => ⟨v.x + 5, v.y, v.z⟩), (3, ⟨1, 0, 0⟩, id), (9, ⟨0, 1, 0⟩, id)],
    [(20, some (9, 7, 3))]⟩ (by simp) (by simp)).1 (by
      intro q hq a b c h i hi
      obtain rfl : q = (20, some (9, 7, 3)) := by simpa using hq
      obtain ⟨rfl, rfl, rfl⟩ : 9 = a ∧ 7 = b ∧ 3 = c := by simpa using h
      simp at hi ⊢; omega)
  obtain ⟨h1, h2, h3, h4⟩ := C07_deck_preserved _ (by simp) (by simp) m hm
  refine ⟨m, hm, by simpa using h1, ?_, ?_, ?_⟩
  · have := (h3 (7, ⟨0, 0, 0⟩, fun v => ⟨v.x + 5, v.y, v.z⟩) (by simp)).2.1
    simpa using this
  · obtain ⟨a, b, c, g, g1, _⟩ := h4 (20, some (9, 7, 3)) (by simp)
    obtain ⟨rfl, rfl, rfl⟩ : 9 = a ∧ 7 = b ∧ 3 = c := by simpa using g
    exact g1
  · exact ((h3 (3, ⟨1, 0, 0⟩, id) (by simp)).2.2.2.1 20).2 ⟨(20, some (9, 7, 3)), by simp, rfl, 9, 7, 3, rfl, by simp⟩

/-- a corner that is no node of the deck: KeyError -/
example : readMesh ⟨[(7, ⟨0, 0, 0⟩, id), (3, ⟨1, 0, 0⟩, id)], [(20, some (9, 7, 3))]⟩ = .error .keyError :=
  (C07_deck_outcome _ (by simp) (by simp)).2 ⟨(20, some (9, 7, 3)), by simp, 9, 7, 3, rfl, 9, by simp, by simp⟩

end Meshless
