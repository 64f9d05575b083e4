import Verif.Model.FloatRun
import Verif.Lemmas.Static

/-! What a run of the rounded `calc_k0` leaves in the mesh: the statements of Lemmas/Static.lean for an arbitrary rounding rule. -/

set_option autoImplicit false

namespace Meshless

theorem SameStatic.flmid {m m' : Mesh} (h : SameStatic m m') (R : Rounding) (e : ℕ) : R.mid m' e = R.mid m e := by
  unfold Rounding.mid; simp only [h.tria, h.pos]

namespace Rounding

theorem mkIPt_congr (R : Rounding) {m m' : Mesh} (h : SameStatic m m') (t a b c : ℕ) (f1 f2 f3 : ℝ) (n : Vec3) (le : ℝ) :
    R.mkIPt m' t a b c f1 f2 f3 n le = R.mkIPt m t a b c f1 f2 f3 n le := by
  unfold mkIPt; simp only [h.xyz]

theorem orient_congr (R : Rounding) {m m' : Mesh} (h : SameStatic m m') (c : Vec3) (a b : ℕ) : R.orient m' c a b = R.orient m c a b := by
  unfold orient; simp only [h.xyz]

/-- the outcome of the geometry step depends on static data only -/
theorem geomEdge_congr (R : Rounding) {m m' : Mesh} (h : SameStatic m m') {a b : Edge} (he : SameEdge a b) :
    (R.geomEdge m' b).2 = (R.geomEdge m a).2 ∧ ((R.geomEdge m a).2 = none → (R.geomEdge m' b).1 = (R.geomEdge m a).1) ∧
    SameEdge a (R.geomEdge m a).1 := by
  obtain ⟨e1, e2, e3⟩ := he
  have ho := fun t => otherNode_congr h ⟨e1, e2, e3⟩ t
  obtain ⟨an1, an2, at', asd, aip, aAc, ao1, ao2⟩ := a
  obtain ⟨bn1, bn2, bt', bsd, bip, bAc, bo1, bo2⟩ := b
  dsimp only at e1 e2 e3
  subst e1 e2 e3
  rcases bt' with _ | ⟨t1, _ | ⟨t2, _ | ⟨t3, l⟩⟩⟩
  · simp [geomEdge, SameEdge]
  · simp only [geomEdge, ho]
    rcases otherNode m t1 _ with _ | o1
    · simp [SameEdge]
    · by_cases hc : o1 ∈ m.nids
      · simp only [h.nids, if_pos hc, orient_congr R h, h.flmid R, h.xyz, iptsA, iptsB, mkIPt_congr R h, finishEdge]
        exact ⟨trivial, fun _ => trivial, rfl, rfl, rfl⟩
      · simp [h.nids, if_neg hc, SameEdge]
  · simp only [geomEdge, ho]
    rcases otherNode m t1 _ with _ | o1
    · simp [SameEdge]
    rcases otherNode m t2 _ with _ | o2
    · simp [SameEdge]
    by_cases hc : o1 ∈ m.nids
    · by_cases hc2 : o2 ∈ m.nids
      · simp only [h.nids, if_pos hc, if_pos hc2, orient_congr R h, h.flmid R, h.xyz, iptsA, iptsI, mkIPt_congr R h, finishEdge]
        exact ⟨trivial, fun _ => trivial, rfl, rfl, rfl⟩
      · simp [h.nids, if_pos hc, if_neg hc2, SameEdge]
    · simp [h.nids, if_neg hc, SameEdge]
  · simp [geomEdge, SameEdge]

/-- the geometry loop: static data kept, and on success every visited edge holds the outcome of its step -/
theorem geomPass_spec (R : Rounding) : ∀ (ks : List Key) (m : Mesh), ks.Nodup →
    SameStatic m (R.geomPass m ks).1 ∧ (∀ i, (R.geomPass m ks).1.node i = m.node i) ∧
    (∀ k, k ∉ ks → (R.geomPass m ks).1.edge k = m.edge k) ∧
    ((R.geomPass m ks).2 = none → ∀ k ∈ ks, (R.geomEdge m (m.edge k)).2 = none ∧ (R.geomPass m ks).1.edge k = (R.geomEdge m (m.edge k)).1) ∧
    ((R.geomPass m ks).2 = none ↔ ∀ k ∈ ks, (R.geomEdge m (m.edge k)).2 = none) ∧
    (∀ e, (R.geomPass m ks).2 = some e → ∃ k ∈ ks, (R.geomEdge m (m.edge k)).2 = some e) := by
  intro ks
  induction ks with
  | nil => intro m _; exact ⟨SameStatic.refl m, fun _ => rfl, fun _ _ => rfl, fun _ k hk => by simp at hk, by simp [geomPass], by simp [geomPass]⟩
  | cons k ks ih =>
    intro m hnd
    obtain ⟨hk, hnd'⟩ := List.nodup_cons.1 hnd
    have hse := (geomEdge_congr R (SameStatic.refl m) (⟨rfl, rfl, rfl⟩ : SameEdge (m.edge k) (m.edge k))).2.2
    have hss := sameStatic_setEdge m k _ hse
    unfold geomPass
    rcases hg : R.geomEdge m (m.edge k) with ⟨ed, err⟩
    rw [hg] at hse hss
    simp only at hse hss
    cases err with
    | some e =>
      refine ⟨hss, fun _ => rfl, ?_, by simp, ?_, ?_⟩
      · intro k' hk'
        have : k' ≠ k := fun h => hk' (h ▸ List.mem_cons_self)
        simp [Function.update_of_ne this]
      · simp only [reduceCtorEq, List.mem_cons, false_iff, not_forall]
        exact ⟨k, Or.inl rfl, by rw [hg]; simp⟩
      · intro e' he'
        exact ⟨k, by simp, by rw [hg]; exact he'⟩
    | none =>
      dsimp only
      set m1 : Mesh := { m with edge := Function.update m.edge k ed } with hm1
      obtain ⟨i1, i2, i3, i4, i5, i6⟩ := ih m1 hnd'
      have hk1 : ∀ k' ∈ ks, (R.geomEdge m1 (m1.edge k')).2 = (R.geomEdge m (m.edge k')).2 ∧
          ((R.geomEdge m (m.edge k')).2 = none → (R.geomEdge m1 (m1.edge k')).1 = (R.geomEdge m (m.edge k')).1) := by
        intro k' hk'
        have : k' ≠ k := fun h => hk (h ▸ hk')
        have he : m1.edge k' = m.edge k' := by simp [hm1, Function.update_of_ne this]
        rw [he]
        have := geomEdge_congr R hss (⟨rfl, rfl, rfl⟩ : SameEdge (m.edge k') (m.edge k'))
        exact ⟨this.1, this.2.1⟩
      refine ⟨hss.trans i1, fun i => by rw [i2], ?_, ?_, ?_, ?_⟩
      · intro k' hk'
        simp only [List.mem_cons, not_or] at hk'
        rw [i3 k' hk'.2]
        simp [hm1, Function.update_of_ne hk'.1]
      · intro hn k' hk'
        rcases List.mem_cons.1 hk' with rfl | hk''
        · rw [hg]
          refine ⟨rfl, ?_⟩
          rw [i3 k' hk]; simp [hm1]
        · obtain ⟨j1, j2⟩ := i4 hn k' hk''
          have h1 := (hk1 k' hk'').1
          rw [j1] at h1
          exact ⟨h1.symm, by rw [j2]; exact (hk1 k' hk'').2 h1.symm⟩
      · rw [i5]
        constructor
        · intro h k' hk'
          rcases List.mem_cons.1 hk' with rfl | hk''
          · rw [hg]
          · rw [← (hk1 k' hk'').1]; exact h k' hk''
        · intro h k' hk'
          rw [(hk1 k' hk').1]; exact h k' (List.mem_cons_of_mem _ hk')
      · intro e he
        obtain ⟨k', hk', h'⟩ := i6 e he
        exact ⟨k', List.mem_cons_of_mem _ hk', by rw [← (hk1 k' hk').1]; exact h'⟩

/-- a mesh prepared for an analysis: what a successful `calc_k0` leaves behind -/
structure Prepared (R : Rounding) (m : Mesh) : Prop where
  geom : ∀ k ∈ m.ekeys, R.geomEdge m (m.edge k) = (m.edge k, none)
  index : ∀ j (hj : j < m.nids.length), (m.node m.nids[j]).index = some j

/-- structure of a `calc_k0` run -/
theorem calcK0_cases (R : Rounding) (m : Mesh) (pn : Bool) (w : WF m) :
    SameStatic m (R.calcK0 m pn).1 ∧
    (∀ K, (R.calcK0 m pn).2 = .ok K → m.ekeys.any (edgeMissing m pn) = false ∧ R.Prepared (R.calcK0 m pn).1 ∧ m.nids ≠ [] ∧
      matLoop (R.k0Edge (R.calcK0 m pn).1 pn) (Mat.zeros (m.nids.length * 5)) m.ekeys = (K, none)) := by
  unfold calcK0
  split
  · exact ⟨SameStatic.refl m, fun K h => by cases h⟩
  · rename_i hmiss
    have g := geomPass_spec R m.ekeys m w.ekeys_nodup
    rcases hg : R.geomPass m m.ekeys with ⟨m1, err⟩
    rw [hg] at g
    obtain ⟨g1, g2, g3, g4, g5, g6⟩ := g
    cases err with
    | some e => exact ⟨g1, fun K h => by cases h⟩
    | none =>
      dsimp only at *
      split
      · exact ⟨g1, fun K h => by cases h⟩
      · rename_i hne
        have hn := numberNodes_spec m1.nids m1 0 (g1.nids ▸ w.nids_nodup)
        set m2 := numberNodes m1 m1.nids 0 with hm2
        obtain ⟨n1, n2, n3, n4⟩ := hn
        have hss : SameStatic m m2 := g1.trans n1
        have hprep : R.Prepared m2 := by
          constructor
          · intro k hk
            rw [hss.ekeys] at hk
            obtain ⟨q1, q2⟩ := g4 rfl k hk
            have hse := (geomEdge_congr R (SameStatic.refl m) (⟨rfl, rfl, rfl⟩ : SameEdge (m.edge k) (m.edge k))).2.2
            have := geomEdge_congr R hss hse
            rw [n2, q2]
            exact Prod.ext (this.2.1 q1) (this.1.trans q1)
          · intro j hj
            have : m2.nids = m1.nids := n1.nids
            simp only [this] at hj ⊢
            rw [n4 j hj]
            simp
        rcases hl : matLoop (R.k0Edge m2 pn) (Mat.zeros (m2.nids.length * 5)) m2.ekeys with ⟨K, err⟩
        cases err with
        | some e => exact ⟨hss, fun K h => by cases h⟩
        | none =>
          refine ⟨hss, fun K' h => ?_⟩
          have : K = K' := by injection h
          subst this
          refine ⟨by simpa using hmiss, hprep, ?_, ?_⟩
          · rw [← g1.nids]; exact hne
          · rw [hss.nids, hss.ekeys] at hl; exact hl

/-- static data are kept by every analysis call -/
theorem calcK0_static (R : Rounding) (m : Mesh) (pn : Bool) (w : WF m) : SameStatic m (R.calcK0 m pn).1 := (calcK0_cases R m pn w).1


end Rounding
end Meshless
