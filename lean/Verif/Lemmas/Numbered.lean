import Verif.Lemmas.After
import Verif.Spec.Shear

/-! Meshes on which `calc_k0` has returned at some point: the nodes keep their indices whatever the script does next. -/

set_option autoImplicit false

namespace Meshless
open Spec

/-- A mesh a user holds after some successful `calc_k0`, then any statements at all: assignments of properties and coordinates, more
analysis calls, successful or not. -/
inductive Numbered : Mesh → Prop
  | intro (m : Mesh) (hr : Reachable m) (pn : Bool) (K : Mat) (hK : (calcK0 m pn).2 = .ok K) (ops : List Op) : Numbered (run (calcK0 m pn).1 ops)

/-- the nodes are numbered in the order of `mesh.nodes` -/
def Indexed (m : Mesh) : Prop := ∀ j (hj : j < m.nids.length), (m.node m.nids[j]).index = some j

theorem AfterK0.numbered {m : Mesh} (h : AfterK0 m) : Numbered m := by
  cases h with
  | intro m hr pn K hK ops _ => exact .intro m hr pn K hK ops

theorem indexed_calcK0 {m : Mesh} (w : WF m) (h : Indexed m) (pn : Bool) : Indexed (calcK0 m pn).1 := by
  unfold calcK0
  split
  · exact h
  · have g := geomPass_spec m.ekeys m w.ekeys_nodup
    rcases hg : geomPass m m.ekeys with ⟨m1, err⟩
    rw [hg] at g
    obtain ⟨g1, g2, -⟩ := g
    have h1 : Indexed m1 := by
      intro j hj
      dsimp only at g1 g2
      have e := g1.nids
      rw [g2]
      have hj' : j < m.nids.length := by rw [← e]; exact hj
      have : m1.nids[j] = m.nids[j] := by simp only [e]
      rw [this]; exact h j hj'
    cases err with
    | some e => exact h1
    | none =>
      dsimp only
      split
      · exact h1
      · have hnd : m1.nids.Nodup := by have e : m1.nids = m.nids := g1.nids; rw [e]; exact w.nids_nodup
        have hn := numberNodes_spec m1.nids m1 0 hnd
        have h2 : Indexed (numberNodes m1 m1.nids 0) := by
          intro j hj
          have e := hn.1.nids
          have hj' : j < m1.nids.length := by rw [← e]; exact hj
          have : (numberNodes m1 m1.nids 0).nids[j] = m1.nids[j] := by simp only [e]
          rw [this, hn.2.2.2 j hj']
          simp
        rcases matLoop (k0Edge (numberNodes m1 m1.nids 0) pn) (Mat.zeros ((numberNodes m1 m1.nids 0).nids.length * 5)) (numberNodes m1 m1.nids 0).ekeys with ⟨K, _ | e⟩
        · exact h2
        · exact h2

theorem indexed_step {m : Mesh} (w : WF m) (h : Indexed m) (op : Op) : Indexed (step m op) := by
  have upd : ∀ (i : ℕ) (f : Node → Node), (∀ n, (f n).index = n.index) → Indexed (m.updNode i f) := by
    intro i f hf j hj
    have hidx : ∀ l, ((m.updNode i f).node l).index = (m.node l).index := by
      intro l
      by_cases hl : l = i
      · subst hl; simp [Mesh.updNode, hf]
      · simp [Mesh.updNode, Function.update_of_ne hl]
    exact (hidx _).trans (h j hj)
  cases op with
  | setNodeProp i p =>
    simp only [step]; split
    · exact upd i _ fun _ => rfl
    · exact h
  | setTriaProp e p =>
    simp only [step]; split
    · exact h
    · exact h
  | moveNode i x =>
    simp only [step]; split
    · exact upd i _ fun _ => rfl
    · exact h
  | calcK0 pn => exact indexed_calcK0 w h pn
  | addK0s => exact h
  | calcKG => exact h

theorem indexed_run : ∀ (ops : List Op) {m : Mesh}, WF m → Indexed m → Indexed (run m ops) := by
  intro ops
  induction ops with
  | nil => intro m _ h; exact h
  | cons op ops ih => intro m w h; exact ih (wf_step m w op) (indexed_step w h op)

theorem Numbered.reachable {m : Mesh} (h : Numbered m) : Reachable m := by
  cases h with
  | intro m hr pn K hK ops => exact reachable_run ops (hr.calcK0 pn)

theorem Numbered.wf {m : Mesh} (h : Numbered m) : WF m := h.reachable.wf

theorem Numbered.indexed {m : Mesh} (h : Numbered m) : Indexed m := by
  cases h with
  | intro m hr pn K hK ops => exact indexed_run ops (hr.calcK0 pn).wf ((calcK0_cases m pn hr.wf).2 K hK).2.1.index

theorem Numbered.nids_ne {m : Mesh} (h : Numbered m) : m.nids ≠ [] := by
  cases h with
  | intro m hr pn K hK ops =>
    rw [nids_run ops (hr.calcK0 pn).wf, (calcK0_static m pn hr.wf).nids]
    exact ((calcK0_cases m pn hr.wf).2 K hK).2.2.1

theorem Indexed.index {m : Mesh} (h : Indexed m) {i : ℕ} (hi : i ∈ m.nids) : (m.node i).index = some (m.nids.idxOf i) := by
  have hlt := List.idxOf_lt_length_iff.2 hi
  have := h _ hlt
  rwa [List.getElem_idxOf hlt] at this

theorem Spec.Planar.flatMesh {m : Mesh} (h : Planar m) : FlatMesh m := ⟨h.basic, h.flat, h.nondeg⟩

/-- corners are nodes of the mesh -/
theorem WF.corners {m : Mesh} (w : WF m) {e : ℕ} (he : e ∈ m.eids) :
    (m.tria e).n1 ∈ m.nids ∧ (m.tria e).n2 ∈ m.nids ∧ (m.tria e).n3 ∈ m.nids := by
  have key : ∀ a b, sortPair a b ∈ (m.tria e).edgeIds → a ∈ m.nids ∧ b ∈ m.nids := by
    intro a b hab
    have := w.ends _ ((w.mem_ekeys _).2 ⟨e, he, hab⟩)
    unfold sortPair at this
    split at this
    · exact this
    · exact ⟨this.2, this.1⟩
  have h1 := key (m.tria e).n1 (m.tria e).n2 (by simp [Tria.edgeIds])
  have h2 := key (m.tria e).n3 (m.tria e).n1 (by simp [Tria.edgeIds])
  exact ⟨h1.1, h1.2, h2.1⟩

theorem WF.corner_mem {m : Mesh} (w : WF m) {e : ℕ} (he : e ∈ m.eids) {i : ℕ} (hi : i ∈ Spec.corners m e) : i ∈ m.nids := by
  obtain ⟨h1, h2, h3⟩ := w.corners he
  simp only [Spec.corners, List.mem_cons, List.not_mem_nil, or_false] at hi
  rcases hi with rfl | rfl | rfl <;> assumption

end Meshless
