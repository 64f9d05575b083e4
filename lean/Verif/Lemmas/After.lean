import Verif.Lemmas.Congr

/-! Meshes on which `calc_k0` has returned and whose nodes have not been moved since. -/

set_option autoImplicit false

namespace Meshless
open Spec

/-- a statement that moves a node -/
def Op.isMove : Op → Bool
  | .moveNode .. => true
  | _ => false

/-- A mesh a user holds after some successful `calc_k0`, then any statements except moving nodes: more analysis calls with any
arguments, changes of properties. -/
inductive AfterK0 : Mesh → Prop
  | intro (m : Mesh) (hr : Reachable m) (pn : Bool) (K : Mat) (hK : (calcK0 m pn).2 = .ok K) (ops : List Op)
      (ho : ∀ op ∈ ops, op.isMove = false) : AfterK0 (run (calcK0 m pn).1 ops)

/-- the data `calc_k0` derives its geometry from -/
structure SameGeo (m m' : Mesh) : Prop where
  nids : m'.nids = m.nids
  corner : ∀ e, (m'.tria e).n1 = (m.tria e).n1 ∧ (m'.tria e).n2 = (m.tria e).n2 ∧ (m'.tria e).n3 = (m.tria e).n3
  xyz : ∀ i, (m'.node i).xyz = (m.node i).xyz
  cp : ∀ i, (m'.node i).cp = (m.node i).cp

theorem SameGeo.mid {m m' : Mesh} (h : SameGeo m m') (e : ℕ) : m'.mid e = m.mid e := by
  unfold Mesh.mid Mesh.pos; simp only [(h.corner e).1, (h.corner e).2.1, (h.corner e).2.2, h.xyz, h.cp]

theorem SameGeo.geomEdge {m m' : Mesh} (h : SameGeo m m') (ed : Edge) : geomEdge m' ed = geomEdge m ed := by
  have ho : ∀ t e, otherNode m' t e = otherNode m t e := by
    intro t e; unfold otherNode Mesh.triaNodes; rw [(h.corner t).1, (h.corner t).2.1, (h.corner t).2.2]
  have hor : ∀ c a b, orient m' c a b = orient m c a b := by intro c a b; unfold orient; simp only [h.xyz]
  have hmk : ∀ t a b c f1 f2 f3 n le, mkIPt m' t a b c f1 f2 f3 n le = mkIPt m t a b c f1 f2 f3 n le := by
    intros; unfold mkIPt; simp only [h.xyz]
  unfold Meshless.geomEdge
  simp only [ho, h.nids, hor, h.mid, h.xyz, iptsA, iptsB, iptsI, hmk, finishEdge]

theorem prepared_step {m : Mesh} (w : WF m) (hq : Prepared m) {op : Op} (ho : op.isMove = false) : Prepared (step m op) := by
  cases op with
  | setNodeProp i p =>
    simp only [step]; split
    · have hs : SameGeo m (m.updNode i fun n => { n with prop := p }) := by
        refine ⟨rfl, fun _ => ⟨rfl, rfl, rfl⟩, ?_, ?_⟩ <;>
        · intro j
          by_cases hj : j = i
          · subst hj; simp [Mesh.updNode]
          · simp [Mesh.updNode, Function.update_of_ne hj]
      have hidx : ∀ j, ((m.updNode i fun n => { n with prop := p }).node j).index = (m.node j).index := by
        intro j
        by_cases hj : j = i
        · subst hj; simp [Mesh.updNode]
        · simp [Mesh.updNode, Function.update_of_ne hj]
      exact ⟨fun k hk => by rw [hs.geomEdge]; exact hq.geom k hk, fun j hj => (hidx _).trans (hq.index j hj)⟩
    · exact hq
  | setTriaProp e p =>
    simp only [step]; split
    · have hs : SameGeo m (m.updTria e fun n => { n with prop := p }) := by
        refine ⟨rfl, ?_, fun _ => rfl, fun _ => rfl⟩
        intro j
        by_cases hj : j = e
        · subst hj; simp [Mesh.updTria]
        · simp [Mesh.updTria, Function.update_of_ne hj]
      exact ⟨fun k hk => by rw [hs.geomEdge]; exact hq.geom k hk, hq.index⟩
    · exact hq
  | moveNode i x => cases ho
  | calcK0 pn =>
    simp only [step]; rw [calcK0_prepared w hq pn]; exact hq
  | addK0s => exact hq
  | calcKG => exact hq

theorem nids_step (m : Mesh) (w : WF m) (op : Op) : (step m op).nids = m.nids := by
  cases op <;> simp only [step] <;> (try split) <;> try rfl
  exact (calcK0_static _ _ w).nids

theorem prepared_run : ∀ (ops : List Op) {m : Mesh}, WF m → Prepared m → (∀ op ∈ ops, op.isMove = false) → Prepared (run m ops) := by
  intro ops
  induction ops with
  | nil => intro m _ h _; exact h
  | cons op ops ih =>
    intro m w h ho
    exact ih (wf_step m w op) (prepared_step w h (ho op (by simp))) fun o h => ho o (List.mem_cons_of_mem _ h)

theorem nids_run : ∀ (ops : List Op) {m : Mesh}, WF m → (run m ops).nids = m.nids := by
  intro ops
  induction ops with
  | nil => intro m _; rfl
  | cons op ops ih => intro m w; exact (ih (wf_step m w op)).trans (nids_step m w op)

theorem reachable_run : ∀ (ops : List Op) {m : Mesh}, Reachable m → Reachable (run m ops) := by
  intro ops
  induction ops with
  | nil => intro m h; exact h
  | cons op ops ih => intro m h; exact ih (h.step op)

theorem AfterK0.reachable {m : Mesh} (h : AfterK0 m) : Reachable m := by
  cases h with
  | intro m hr pn K hK ops ho => exact reachable_run ops (hr.calcK0 pn)

theorem AfterK0.wf {m : Mesh} (h : AfterK0 m) : WF m := h.reachable.wf

theorem AfterK0.prepared {m : Mesh} (h : AfterK0 m) : Prepared m := by
  cases h with
  | intro m hr pn K hK ops ho =>
    exact prepared_run ops (hr.calcK0 pn).wf ((calcK0_cases m pn hr.wf).2 K hK).2.1 ho

theorem AfterK0.nids_ne {m : Mesh} (h : AfterK0 m) : m.nids ≠ [] := by
  cases h with
  | intro m hr pn K hK ops ho =>
    rw [nids_run ops (hr.calcK0 pn).wf, (calcK0_static m pn hr.wf).nids]
    exact ((calcK0_cases m pn hr.wf).2 K hK).2.2.1

end Meshless
