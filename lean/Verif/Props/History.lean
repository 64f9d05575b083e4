import Verif.Lemmas.Congr
import Verif.Props.K0Energy

/-! C27, C28: histories of API calls. -/

set_option autoImplicit false

namespace Meshless
open Spec

/-- a statement that assigns a property or coordinates, as opposed to calling an analysis function -/
def Op.isAssign : Op → Bool
  | .setNodeProp .. => true
  | .setTriaProp .. => true
  | .moveNode .. => true
  | .calcK0 .. => false
  | .addK0s .. => false
  | .calcKG .. => false

theorem step_analysis {m : Mesh} (w : WF m) {op : Op} (h : op.isAssign = false) : SameStatic m (step m op) := by
  cases op with
  | setNodeProp => cases h
  | setTriaProp => cases h
  | moveNode => cases h
  | calcK0 pn => exact calcK0_static m pn w
  | addK0s => exact SameStatic.refl m
  | calcKG => exact SameStatic.refl m

theorem step_assign {m m' : Mesh} (hs : SameStatic m m') {op : Op} (h : op.isAssign = true) : SameStatic (step m op) (step m' op) := by
  cases op with
  | setNodeProp i p =>
    simp only [step, hs.nids]
    split
    · refine ⟨hs.nids, hs.eids, hs.ekeys, hs.tria, ?_, ?_, ?_, ?_, ?_, hs.n1, hs.n2, hs.trias⟩ <;>
      · intro j
        by_cases hj : j = i
        · subst hj; simp [Mesh.updNode, hs.xyz, hs.cp, hs.ntrias, hs.nedges]
        · simp [Mesh.updNode, Function.update_of_ne hj, hs.xyz, hs.cp, hs.prop, hs.ntrias, hs.nedges]
    · exact hs
  | setTriaProp e p =>
    simp only [step, hs.eids]
    split
    · refine ⟨hs.nids, hs.eids, hs.ekeys, ?_, hs.xyz, hs.cp, hs.prop, hs.ntrias, hs.nedges, hs.n1, hs.n2, hs.trias⟩
      simp [Mesh.updTria, hs.tria]
    · exact hs
  | moveNode i x =>
    simp only [step, hs.nids]
    split
    · refine ⟨hs.nids, hs.eids, hs.ekeys, hs.tria, ?_, ?_, ?_, ?_, ?_, hs.n1, hs.n2, hs.trias⟩ <;>
      · intro j
        by_cases hj : j = i
        · subst hj; simp [Mesh.updNode, hs.prop, hs.cp, hs.ntrias, hs.nedges]
        · simp [Mesh.updNode, Function.update_of_ne hj, hs.xyz, hs.cp, hs.prop, hs.ntrias, hs.nedges]
    · exact hs
  | calcK0 => cases h
  | addK0s => cases h
  | calcKG => cases h

theorem run_static : ∀ (ops : List Op) {m m' : Mesh}, WF m → SameStatic m m' → SameStatic (run m' (ops.filter Op.isAssign)) (run m ops) := by
  intro ops
  induction ops with
  | nil => intro m m' _ h; exact h.symm
  | cons op ops ih =>
    intro m m' w h
    cases ho : op.isAssign with
    | true =>
      rw [List.filter_cons_of_pos (by simpa using ho)]
      exact ih (wf_step m w op) (step_assign h ho)
    | false =>
      rw [List.filter_cons_of_neg (by simpa using ho)]
      exact ih (wf_step m w op) ((step_analysis w ho).symm.trans h)

theorem run_analysis : ∀ (ops : List Op) {m : Mesh}, WF m → (∀ op ∈ ops, op.isAssign = false) → SameStatic m (run m ops) := by
  intro ops
  induction ops with
  | nil => intro m _ _; exact SameStatic.refl m
  | cons op ops ih =>
    intro m w h
    exact (step_analysis w (h op (by simp))).trans (ih (wf_step m w op) fun o ho => h o (List.mem_cons_of_mem _ ho))

/-- C27: after any script `calc_k0` returns what it returns on the freshly read mesh with only the assignments of the script made
(so with the same coordinates and properties), and a successful call leaves the same derived data -/
theorem C27_history {m : Mesh} (hr : Reachable m) (ops : List Op) (pn : Bool) :
    let fresh := run m (ops.filter Op.isAssign)
    (∀ i, ((run m ops).node i).xyz = (fresh.node i).xyz ∧ ((run m ops).node i).prop = (fresh.node i).prop) ∧
    (∀ e, ((run m ops).tria e).prop = (fresh.tria e).prop) ∧
    (calcK0 (run m ops) pn).2 = (calcK0 fresh pn).2 ∧
    ∀ K, (calcK0 fresh pn).2 = .ok K → (∀ k ∈ m.ekeys, (calcK0 (run m ops) pn).1.edge k = (calcK0 fresh pn).1.edge k) ∧
      ∀ i ∈ m.nids, (calcK0 (run m ops) pn).1.node i = (calcK0 fresh pn).1.node i := by
  intro fresh
  have hs := run_static ops hr.wf (SameStatic.refl m)
  have wf : WF fresh := wf_run _ m hr.wf
  have hres := calcK0_result_congr wf hs pn
  refine ⟨fun i => ⟨hs.xyz i, hs.prop i⟩, fun e => by rw [hs.tria], hres, fun K hK => ?_⟩
  have hv := calcK0_view wf hs hK (hres.trans hK)
  have hks : ∀ (ops : List Op) (m : Mesh), WF m → (run m ops).ekeys = m.ekeys ∧ (run m ops).nids = m.nids := by
    intro ops
    induction ops with
    | nil => intro m _; exact ⟨rfl, rfl⟩
    | cons op ops ih =>
      intro m w
      obtain ⟨h1, h2⟩ := ih (step m op) (wf_step m w op)
      have : (step m op).ekeys = m.ekeys ∧ (step m op).nids = m.nids := by
        cases op with
        | setNodeProp => simp only [step]; split <;> exact ⟨rfl, rfl⟩
        | setTriaProp => simp only [step]; split <;> exact ⟨rfl, rfl⟩
        | moveNode => simp only [step]; split <;> exact ⟨rfl, rfl⟩
        | calcK0 pn => exact ⟨(calcK0_static m pn w).ekeys, (calcK0_static m pn w).nids⟩
        | addK0s => exact ⟨rfl, rfl⟩
        | calcKG => exact ⟨rfl, rfl⟩
      exact ⟨h1.trans this.1, h2.trans this.2⟩
  have s1 := calcK0_static fresh pn wf
  obtain ⟨f1, f2⟩ := hks (ops.filter Op.isAssign) m hr.wf
  refine ⟨fun k hk => hv.edge k ?_, fun i hi => ?_⟩
  · rw [s1.ekeys, f1]; exact hk
  · have hx := hv.index i (by rw [s1.nids, f2]; exact hi)
    have h1 := hv.static.xyz i; have h2 := hv.static.cp i; have h3 := hv.static.prop i
    have h4 := hv.static.ntrias i; have h5 := hv.static.nedges i
    revert hx h1 h2 h3 h4 h5
    rcases (calcK0 fresh pn).1.node i with ⟨a1, a2, a3, a4, a5, a6⟩
    rcases (calcK0 (run m ops) pn).1.node i with ⟨b1, b2, b3, b4, b5, b6⟩
    intro hx h1 h2 h3 h4 h5
    simp only at hx h1 h2 h3 h4 h5
    subst hx h1 h2 h3 h4 h5
    rfl

/-- C27: calling `calc_k0` again returns the same matrix and changes nothing in the mesh -/
theorem C27_twice {m : Mesh} (hr : Reachable m) {pn : Bool} {K : Mat} (hK : (calcK0 m pn).2 = .ok K) :
    calcK0 (calcK0 m pn).1 pn = ((calcK0 m pn).1, .ok K) := by
  obtain ⟨s, q, _⟩ := calcK0_ok hr.wf hK
  refine Prod.ext ?_ ?_
  · exact calcK0_prepared (s.wf hr.wf) q pn
  · rw [calcK0_result_congr hr.wf s pn, hK]

/-- concrete case: on the square, a failed analysis, a moved node, analyses and the node moved back do not show in the result -/
example (p1 p2 p3 p4 q1 q2 : Lam) (d : List ℝ) :
    (calcK0 (run (exMesh p1 p2 p3 p4 q1 q2) [.calcK0 true, .moveNode 3 ⟨2, 5, 0⟩, .calcK0 true, .calcKG d true, .moveNode 3 ⟨1, 1, 0⟩,
      .addK0s (Mat.zeros 3) true "edge-based" 1 true]) true).2 =
    (calcK0 (run (exMesh p1 p2 p3 p4 q1 q2) [.moveNode 3 ⟨2, 5, 0⟩, .moveNode 3 ⟨1, 1, 0⟩]) true).2 :=
  (C27_history (exMesh_reachable ..) _ true).2.2.1

example (p1 p2 p3 p4 q1 q2 : Lam) : ∃ K, calcK0 (calcK0 (exMesh p1 p2 p3 p4 q1 q2) true).1 true = ((calcK0 (exMesh p1 p2 p3 p4 q1 q2) true).1, .ok K) := by
  obtain ⟨K, hK, _⟩ := exMesh_k0 p1 p2 p3 p4 q1 q2 true
  exact ⟨K, C27_twice (exMesh_reachable ..) hK⟩

/-- C28: analysis calls, successful or raising, change nothing but `node.index` and the edge attributes `Ac`, `ipts`, `sdomain`,
`othernode1`, `othernode2` -/
theorem C28_connectivity {m : Mesh} (hr : Reachable m) (ops : List Op) (h : ∀ op ∈ ops, op.isAssign = false) :
    let m' := run m ops
    m'.nids = m.nids ∧ m'.eids = m.eids ∧ m'.ekeys = m.ekeys ∧ (∀ e, m'.tria e = m.tria e) ∧
    (∀ i, ∃ x, m'.node i = { m.node i with index := x }) ∧
    ∀ k, ∃ Ac ipts sd o1 o2, m'.edge k = { m.edge k with Ac := Ac, ipts := ipts, sdomain := sd, other1 := o1, other2 := o2 } := by
  intro m'
  have hs := run_analysis ops hr.wf h
  refine ⟨hs.nids, hs.eids, hs.ekeys, fun e => by rw [hs.tria], fun i => ⟨(m'.node i).index, ?_⟩,
    fun k => ⟨(m'.edge k).Ac, (m'.edge k).ipts, (m'.edge k).sdomain, (m'.edge k).other1, (m'.edge k).other2, ?_⟩⟩
  · dsimp only; rw [← hs.xyz, ← hs.cp, ← hs.prop, ← hs.ntrias, ← hs.nedges]
  · dsimp only; rw [← hs.n1, ← hs.n2, ← hs.trias]

/-- concrete case: three triangles at one edge make `calc_k0` raise in the middle of its geometry loop; the mesh keeps its data -/
example (p : Lam) (K : Mat) : (run (exFan p) [.calcK0 true, .addK0s K false "x" 0 true, .calcK0 true]).ekeys = (exFan p).ekeys ∧
    ∀ i, ((run (exFan p) [.calcK0 true, .addK0s K false "x" 0 true, .calcK0 true]).node i).xyz = ((exFan p).node i).xyz := by
  obtain ⟨_, _, h, _, hn, _⟩ := C28_connectivity (exFan_reachable p) [.calcK0 true, .addK0s K false "x" 0 true, .calcK0 true] (by simp [Op.isAssign])
  refine ⟨h, fun i => ?_⟩
  obtain ⟨x, hx⟩ := hn i
  rw [hx]

end Meshless
