import Verif.Lemmas.FloatStatic
import Verif.Lemmas.FloatLike
import Verif.Lemmas.FloatExact
import Verif.Lemmas.FloatEnv
import Verif.Lemmas.FloatRel
import Verif.Lemmas.Energy

/-!
Accuracy of the stiffness matrix computed with rounding: on a planar mesh every entry differs from the exact one by at most a
constant times the unit roundoff.
-/

set_option autoImplicit false

namespace Meshless
open Spec Filter Topology

variable {ι : Type} {π : ι → Rounding}

theorem LikeMesh.static {m m' : Mesh} (h : LikeMesh m m') : SameStatic m m' where
  nids := h.nids
  eids := h.eids
  ekeys := h.ekeys
  tria := h.tria
  xyz := fun i => by rw [h.node]
  cp := fun i => by rw [h.node]
  prop := fun i => by rw [h.node]
  ntrias := fun i => by rw [h.node]
  nedges := fun i => by rw [h.node]
  n1 := fun k => (h.edge k).n1
  n2 := fun k => (h.edge k).n2
  trias := fun k => (h.edge k).trias

theorem LikeMesh.eta {m m' : Mesh} (h : LikeMesh m m') : m' = ⟨m.nids, m.node, m.eids, m.tria, m.ekeys, m'.edge⟩ := by
  obtain ⟨a, b, c, d, e, f⟩ := m'
  obtain ⟨h1, h2, h3, h4, h5, _⟩ := h
  dsimp only at *
  subst h1 h2 h3 h4 h5
  rfl

/-- the edge of a mesh prepared with rounding is accurate -/
theorem edge_acc {m : Mesh} (w : WF m) (hp : Proper m) (hg : Planar m) (hq : Prepared m) {pn : Bool} (hh : HasProps m pn) {M : ι → Mesh}
    (hL : ∀ i, LikeMesh m (M i)) (hQ : ∀ i, (π i).Prepared (M i)) {k : Key} (hk : k ∈ m.ekeys) :
    ∃ E : ι → Edge, AccEdge π E (m.edge k) ∧ ∀ᶠ i in smallU π, (M i).edge k = E i := by
  obtain ⟨_, Ac, _, hd, _, hgeo, _⟩ := edgeGeoP w hp hg hq hh hk
  have hAc := hd.hAc
  have hpos := hgeo.pos
  rcases edge_shape w hp hk with ⟨t, o, h1, h2, h3⟩ | ⟨t1, t2, o1, o2, h1, h2, h3, h4, h5, h6, h7⟩
  · have he : m.edge k = bEdge m k t o := congrArg Prod.fst ((hq.geom k hk).symm.trans (geomEdge_boundary w hk h1 h3 h2.ino))
    have hi := side_indep hg h2
    refine ⟨fun i => (π i).bEdge m k t o (orient m (m.mid t) k.1 k.2), ?_, ?_⟩
    · refine bEdge_acc ?_ he ?_
      · rcases orient_cases m (m.mid t) k.1 k.2 with h | h <;> rw [h]
        · exact hi
        · exact hi.swap
      · exact lt_of_lt_of_eq hpos (Option.some.inj (he ▸ hAc : (bEdge m k t o).Ac = some Ac)).symm
    · filter_upwards [orient_acc (π := π) m t k.1 k.2 hi] with i hi'
      have hs := (hL i).static
      have hw := hs.wf w
      have hk' : k ∈ (M i).ekeys := hs.ekeys ▸ hk
      have e1 := (π i).geomEdge_boundary hw hk' (t := t) (o := o) ((hs.trias k).trans h1)
        ((otherNode_congr hs ⟨hs.n1 k, hs.n2 k, hs.trias k⟩ t).trans h3) (hs.nids ▸ h2.ino)
      have e2 := congrArg Prod.fst (((hQ i).geom k hk').symm.trans e1)
      dsimp only at e2
      rw [e2, ← hi', (hL i).eta]
      rfl
  · have he : m.edge k = iEdge m k t1 t2 o1 o2 := congrArg Prod.fst ((hq.geom k hk).symm.trans (geomEdge_interior w hk h1 h6 h2.ino h7 h3.ino))
    have hi1 := side_indep hg h2
    have hi2 := side_indep hg h3
    refine ⟨fun i => (π i).iEdge m k t1 t2 o1 o2 (orient m (m.mid t1) k.1 k.2), ?_, ?_⟩
    · refine iEdge_acc ?_ ?_ he ?_
      · rcases orient_cases m (m.mid t1) k.1 k.2 with h | h <;> rw [h]
        · exact hi1
        · exact hi1.swap
      · rcases orient_cases m (m.mid t1) k.1 k.2 with h | h <;> rw [h]
        · exact hi2
        · exact hi2.swap
      · exact lt_of_lt_of_eq hpos (Option.some.inj (he ▸ hAc : (iEdge m k t1 t2 o1 o2).Ac = some Ac)).symm
    · filter_upwards [orient_acc (π := π) m t1 k.1 k.2 hi1] with i hi'
      have hs := (hL i).static
      have hw := hs.wf w
      have hk' : k ∈ (M i).ekeys := hs.ekeys ▸ hk
      have hse : SameEdge (m.edge k) ((M i).edge k) := ⟨hs.n1 k, hs.n2 k, hs.trias k⟩
      have e1 := (π i).geomEdge_interior hw hk' (t1 := t1) (o1 := o1) (t2 := t2) (o2 := o2) ((hs.trias k).trans h1)
        ((otherNode_congr hs hse t1).trans h6) (hs.nids ▸ h2.ino) ((otherNode_congr hs hse t2).trans h7) (hs.nids ▸ h3.ino)
      have e2 := congrArg Prod.fst (((hQ i).geom k hk').symm.trans e1)
      dsimp only at e2
      rw [e2, ← hi', (hL i).eta]
      rfl

/-- the meshes a run of `calc_k0` leaves with and without rounding -/
structure Ran (π : ι → Rounding) (m : Mesh) (pn : Bool) (M : ι → Mesh) : Prop where
  w : WF m
  hp : Proper m
  hg : Planar m
  hq : Prepared m
  hh : HasProps m pn
  like : ∀ i, LikeMesh m (M i)
  prep : ∀ i, (π i).Prepared (M i)

theorem Ran.edge {m : Mesh} {pn : Bool} {M : ι → Mesh} (h : Ran π m pn M) {k : Key} (hk : k ∈ m.ekeys) :
    ∃ E : ι → Edge, AccEdge π E (m.edge k) ∧ ∀ᶠ i in smallU π, (M i).edge k = E i := edge_acc h.w h.hp h.hg h.hq h.hh h.like h.prep hk

theorem k0Edge_acc {m : Mesh} {pn : Bool} {M : ι → Mesh} (h : Ran π m pn M) {k : Key} (hk : k ∈ m.ekeys) {N : ι → Mat} {N0 : Mat}
    (hN : AccMat π N N0) (h0 : (k0Edge m pn N0 k).2 = none) :
    (∀ᶠ i in smallU π, ((π i).k0Edge (M i) pn (N i) k).2 = none) ∧ AccMat π (fun i => ((π i).k0Edge (M i) pn (N i) k).1) (k0Edge m pn N0 k).1 := by
  obtain ⟨E, hE, hev⟩ := h.edge hk
  obtain ⟨_, Ac, _, hd, _⟩ := edgeGeoP h.w h.hp h.hg h.hq h.hh hk
  obtain ⟨E0, henv, _⟩ := hd.env
  obtain ⟨E', e1, e2, e3⟩ := k0Env_acc hE henv
  have hl : AccL π (fun i => k0Entries (K := Fl (π i)) (E'.map fun a => a i)) (k0Entries E0) := k0Entries_acc e2 e3
  have hx : k0Edge m pn N0 k = N0.addAll (k0Entries E0) := by unfold k0Edge; rw [henv]
  rw [hx] at h0 ⊢
  obtain ⟨a1, a2⟩ := accL_addAll hl hN h0
  have hr : ∀ᶠ i in smallU π, (π i).k0Edge (M i) pn (N i) k = (π i).addAll (N i) (k0Entries (K := Fl (π i)) (E'.map fun a => a i)) := by
    filter_upwards [hev] with i hi
    have : (π i).k0Env (M i) pn (E i) = (π i).k0Env m pn (E i) := by rw [(h.like i).eta]; rfl
    unfold Rounding.k0Edge
    rw [hi, this, e1 i]
    rfl
  refine ⟨?_, a2.congr (hr.mono fun i hi => by rw [hi])⟩
  filter_upwards [hr, a1] with i x y
  rw [x]; exact y

/-- what `calc_k0` leaves and returns on a planar mesh, with and without rounding; the meshes may hold different numbers from earlier runs -/
theorem calcK0_acc (π : ι → Rounding) {m : Mesh} (w : WF m) (hp : Proper m) (hg : Planar m) {pn : Bool} (hh : HasProps m pn) (hne : m.nids ≠ [])
    {M : ι → Mesh} (hM : ∀ i, LikeMesh m (M i)) :
    Ran π (calcK0 m pn).1 pn (fun i => ((π i).calcK0 (M i) pn).1) ∧
    ∃ K F, (calcK0 m pn).2 = .ok K ∧ (∀ i, ((π i).calcK0 (M i) pn).2 = .ok (F i)) ∧ (∀ i, (F i).dim = K.dim) ∧ AccMat π F K := by
  obtain ⟨K, k1, k2, k3, k4, k5⟩ := calcK0_proper w hp hh hne
  have hl := fun i => Rounding.calcK0_like (R := Rounding.exact) (R' := π i) (hM i) pn
  simp only [Rounding.exact_calcK0] at hl
  have hw := fun i => (hM i).static.wf w
  have hF : ∀ i, ∃ F, ((π i).calcK0 (M i) pn).2 = .ok F := by
    intro i
    have := (hl i).1
    rw [k1] at this
    rcases hx : ((π i).calcK0 (M i) pn).2 with e | F
    · rw [hx] at this; simp [Rounding.SameOutcome, Except.map] at this
    · exact ⟨F, rfl⟩
  choose F hF using hF
  have hran : Ran π (calcK0 m pn).1 pn (fun i => ((π i).calcK0 (M i) pn).1) :=
    ⟨k3.wf w, k3.proper hp, k3.planar hg, k4, k3.hasProps hh, fun i => (hl i).2.1,
      fun i => ((Rounding.calcK0_cases (π i) (M i) pn (hw i)).2 _ (hF i)).2.1⟩
  refine ⟨hran, K, F, k1, hF, fun i => (hl i).2.2 K (F i) k1 (hF i), ?_⟩
  have x1 := ((calcK0_cases m pn w).2 _ k1).2.2.2
  have x2 := fun i => ((Rounding.calcK0_cases (π i) (M i) pn (hw i)).2 _ (hF i)).2.2.2
  have := matLoop_acc (π := π) (f := fun i => (π i).k0Edge ((π i).calcK0 (M i) pn).1 pn) (g := k0Edge (calcK0 m pn).1 pn) m.ekeys
    (AccMat.const (Mat.zeros (m.nids.length * 5))) (fun k hk {N N0} hN h0 => k0Edge_acc hran (k3.ekeys.symm ▸ hk) hN h0) (by rw [x1])
  rw [x1] at this
  refine this.2.congr (Eventually.of_forall fun i => ?_)
  have := x2 i
  rw [(hM i).nids, (hM i).ekeys] at this
  rw [this]

end Meshless
