import Verif.Lemmas.FloatGeom
import Verif.Lemmas.FloatRel
import Verif.Lemmas.FloatLike
import Verif.Lemmas.FloatExact
import Verif.Model.KG

/-! The local variables of `calc_k0` and `calc_kG` for one edge, computed with rounding, are accurate. -/

set_option autoImplicit false

namespace Meshless
open Filter Topology Spec

variable {ι : Type*} {π : ι → Rounding}

/-! ### edges -/

/-- a computed edge: the same nodes and triangles, accurate numbers, non-zero area -/
structure AccEdge (π : ι → Rounding) (E : ι → Edge) (e : Edge) : Prop where
  n1 : ∀ i, (E i).n1 = e.n1
  n2 : ∀ i, (E i).n2 = e.n2
  trias : ∀ i, (E i).trias = e.trias
  other1 : ∀ i, (E i).other1 = e.other1
  other2 : ∀ i, (E i).other2 = e.other2
  Ac : ∃ a l, (∀ i, (E i).Ac = some (a i)) ∧ e.Ac = some l ∧ Acc π a l ∧ 0 < l
  ipts : ∃ P : List (ι → IPt), (∀ i, (E i).ipts = P.map (· i)) ∧ List.Forall₂ (AccPt π) P e.ipts

/-- a boundary edge after the geometry step with rounding -/
noncomputable def Rounding.bEdge (R : Rounding) (m : Mesh) (k : Key) (t o : ℕ) (ab : ℕ × ℕ) : Edge :=
  ⟨k.1, k.2, [t], [(m.node ab.1).xyz, R.mid m t, (m.node ab.2).xyz, (m.node ab.1).xyz],
    R.iptsA m t ab.1 ab.2 o ++ R.iptsB m t ab.1 ab.2 o,
    some (R.polyArea [(m.node ab.1).xyz, R.mid m t, (m.node ab.2).xyz, (m.node ab.1).xyz]), some o, none⟩

/-- an interior edge after the geometry step with rounding -/
noncomputable def Rounding.iEdge (R : Rounding) (m : Mesh) (k : Key) (t1 t2 o1 o2 : ℕ) (ab : ℕ × ℕ) : Edge :=
  ⟨k.1, k.2, [t1, t2], [(m.node ab.1).xyz, R.mid m t1, (m.node ab.2).xyz, R.mid m t2, (m.node ab.1).xyz],
    R.iptsA m t1 ab.1 ab.2 o1 ++ R.iptsI m t2 ab.1 ab.2 o2,
    some (R.polyArea [(m.node ab.1).xyz, R.mid m t1, (m.node ab.2).xyz, R.mid m t2, (m.node ab.1).xyz]), some o1, some o2⟩

theorem Rounding.geomEdge_boundary (R : Rounding) {m : Mesh} (w : WF m) {k : Key} (hk : k ∈ m.ekeys) {t o : ℕ} (ht : (m.edge k).trias = [t])
    (ho : otherNode m t (m.edge k) = some o) (hin : o ∈ m.nids) :
    R.geomEdge m (m.edge k) = (R.bEdge m k t o (R.orient m (R.mid m t) k.1 k.2), none) := by
  unfold geomEdge
  rw [ht]
  dsimp only
  rw [ho]
  dsimp only
  rw [if_pos hin]
  obtain ⟨e1, e2⟩ := w.en k hk
  simp only [finishEdge, bEdge, e1, e2]

theorem Rounding.geomEdge_interior (R : Rounding) {m : Mesh} (w : WF m) {k : Key} (hk : k ∈ m.ekeys) {t1 t2 o1 o2 : ℕ} (ht : (m.edge k).trias = [t1, t2])
    (ho1 : otherNode m t1 (m.edge k) = some o1) (hin1 : o1 ∈ m.nids) (ho2 : otherNode m t2 (m.edge k) = some o2) (hin2 : o2 ∈ m.nids) :
    R.geomEdge m (m.edge k) = (R.iEdge m k t1 t2 o1 o2 (R.orient m (R.mid m t1) k.1 k.2), none) := by
  unfold geomEdge
  rw [ht]
  dsimp only
  rw [ho1, ho2]
  dsimp only
  rw [if_pos hin1, if_pos hin2]
  obtain ⟨e1, e2⟩ := w.en k hk
  simp only [finishEdge, iEdge, e1, e2]

/-- the centroid of a triangle of non-zero area is not on the line of a side -/
theorem side_indep {m : Mesh} (hpl : Planar m) {t o : ℕ} {k : Key} (hs : Side m t k o) : Indep (m.node k.1).xyz (m.node k.2).xyz (m.mid t) := by
  obtain ⟨m1, m2, _⟩ := mid_eq hpl.basic hs
  have h1 := triArea_side hs
  have h2 : triArea m t ≠ 0 := abs_ne_zero.2 (hpl.nondeg t hs.mem)
  have h3 : sarea m [[k.1], [k.2], corners m t] ≠ 0 := by
    intro h; rw [h, abs_zero] at h1; apply h2; linarith
  intro h
  apply h3
  rw [sarea3, mean_single, mean_single, mean_single, mean_single, mean_corners hs, mean_corners hs, ← m1, ← m2]
  simp only [nx, ny]
  linarith

theorem forall₂_append {α β : Type*} {r : α → β → Prop} {a c : List α} {b d : List β} (h : List.Forall₂ r a b) (g : List.Forall₂ r c d) :
    List.Forall₂ r (a ++ c) (b ++ d) := by
  induction h with
  | nil => exact g
  | cons h _ ih => exact .cons h ih

theorem bEdge_acc {m : Mesh} {k : Key} {t o : ℕ} {ab : ℕ × ℕ} (hi : Indep (m.node ab.1).xyz (m.node ab.2).xyz (m.mid t)) {e : Edge}
    (he : e = ⟨k.1, k.2, [t], [(m.node ab.1).xyz, m.mid t, (m.node ab.2).xyz, (m.node ab.1).xyz], iptsA m t ab.1 ab.2 o ++ iptsB m t ab.1 ab.2 o,
      some (polyArea [(m.node ab.1).xyz, m.mid t, (m.node ab.2).xyz, (m.node ab.1).xyz]), some o, none⟩)
    (hAc : 0 < polyArea [(m.node ab.1).xyz, m.mid t, (m.node ab.2).xyz, (m.node ab.1).xyz]) :
    AccEdge π (fun i => (π i).bEdge m k t o ab) e := by
  subst he
  obtain ⟨P, p1, p2⟩ := iptsA_acc (π := π) m t ab.1 ab.2 o hi
  obtain ⟨Q, q1, q2⟩ := iptsB_acc (π := π) m t ab.1 ab.2 o hi.ne3
  refine ⟨fun _ => rfl, fun _ => rfl, fun _ => rfl, fun _ => rfl, fun _ => rfl, ⟨_, _, fun _ => rfl, rfl,
    polyArea4_acc (AccV.const _) (mid_acc m t) (AccV.const _) (AccV.const _), hAc⟩, P ++ Q, fun i => ?_, forall₂_append p2 q2⟩
  rw [List.map_append, ← p1, ← q1]; rfl

theorem iEdge_acc {m : Mesh} {k : Key} {t1 t2 o1 o2 : ℕ} {ab : ℕ × ℕ} (hi1 : Indep (m.node ab.1).xyz (m.node ab.2).xyz (m.mid t1))
    (hi2 : Indep (m.node ab.1).xyz (m.node ab.2).xyz (m.mid t2)) {e : Edge}
    (he : e = ⟨k.1, k.2, [t1, t2], [(m.node ab.1).xyz, m.mid t1, (m.node ab.2).xyz, m.mid t2, (m.node ab.1).xyz],
      iptsA m t1 ab.1 ab.2 o1 ++ iptsI m t2 ab.1 ab.2 o2,
      some (polyArea [(m.node ab.1).xyz, m.mid t1, (m.node ab.2).xyz, m.mid t2, (m.node ab.1).xyz]), some o1, some o2⟩)
    (hAc : 0 < polyArea [(m.node ab.1).xyz, m.mid t1, (m.node ab.2).xyz, m.mid t2, (m.node ab.1).xyz]) :
    AccEdge π (fun i => (π i).iEdge m k t1 t2 o1 o2 ab) e := by
  subst he
  obtain ⟨P, p1, p2⟩ := iptsA_acc (π := π) m t1 ab.1 ab.2 o1 hi1
  obtain ⟨Q, q1, q2⟩ := iptsI_acc (π := π) m t2 ab.1 ab.2 o2 hi2
  refine ⟨fun _ => rfl, fun _ => rfl, fun _ => rfl, fun _ => rfl, fun _ => rfl, ⟨_, _, fun _ => rfl, rfl,
    polyArea5_acc (AccV.const _) (mid_acc m t1) (AccV.const _) (mid_acc m t2) (AccV.const _), hAc⟩, P ++ Q, fun i => ?_, forall₂_append p2 q2⟩
  rw [List.map_append, ← p1, ← q1]; rfl

/-! ### averaged properties -/

theorem edgeProp_acc {m : Mesh} {pn : Bool} {E : ι → Edge} {e : Edge} (h : AccEdge π E e) (sel : Lam → Fin 3 → Fin 3 → ℝ) {A : Fin 3 → Fin 3 → ℝ}
    (hA : edgeProp m pn e sel = .ok A) : ∃ B : ι → Fin 3 → Fin 3 → ℝ, (∀ i, (π i).edgeProp m pn (E i) sel = .ok (B i)) ∧
      ∀ a b, Acc π (fun i => B i a b) (A a b) := by
  obtain ⟨ac, l, ha, hl, hacc, hpos⟩ := h.Ac
  unfold Rounding.edgeProp
  unfold edgeProp at hA
  simp only [h.n1, h.n2, h.trias, h.other1, h.other2, ha]
  rw [hl] at hA
  revert hA
  cases pn
  · simp only [Bool.false_eq_true, if_false]
    rcases (m.tria (e.trias.getD 0 0)).prop with _ | p
    · intro hA; simp at hA
    dsimp only
    rcases e.trias[1]? with _ | t2
    · intro hA; obtain rfl := Except.ok.inj hA
      exact ⟨fun _ => sel p, fun _ => rfl, fun _ _ => Acc.const _⟩
    dsimp only
    rcases (m.tria t2).prop with _ | q
    · intro hA; simp at hA
    intro hA; obtain rfl := Except.ok.inj hA
    refine ⟨_, fun _ => rfl, fun a b => ?_⟩
    have h1 := polyArea3_acc (mid_acc (π := π) m (e.trias.getD 0 0)) (AccV.const (m.node e.n2).xyz) (AccV.const (m.node e.n1).xyz)
    have h2 := polyArea3_acc (mid_acc (π := π) m t2) (AccV.const (m.node e.n1).xyz) (AccV.const (m.node e.n2).xyz)
    exact Acc.div ((h1.mul (Acc.const _)).add (h2.mul (Acc.const _))) hacc hpos.ne'
  · simp only [if_true]
    rcases e.other1 with _ | o1
    · intro hA; simp at hA
    dsimp only
    rcases (m.node e.n1).prop with _ | p
    · intro hA; simp at hA
    rcases (m.node e.n2).prop with _ | q
    · intro hA; simp at hA
    rcases (m.node o1).prop with _ | r
    · intro hA; simp at hA
    dsimp only
    rcases e.trias[1]? with _ | t2
    · intro hA; obtain rfl := Except.ok.inj hA
      refine ⟨_, fun _ => rfl, fun a b => ?_⟩
      simp only [Rounding.mix3, mix3]
      acc
    dsimp only
    rcases e.other2 with _ | o2
    · intro hA; simp at hA
    dsimp only
    rcases (m.node o2).prop with _ | s
    · intro hA; simp at hA
    intro hA; obtain rfl := Except.ok.inj hA
    refine ⟨_, fun _ => rfl, fun a b => ?_⟩
    simp only [Rounding.mix4, mix4]
    acc

/-! ### weights -/

theorem weight_acc {P : ι → IPt} {p : IPt} (h : AccPt π P p) (idx : ℕ → ℤ) (ix : List ℤ) (j : ℕ) :
    Acc π (fun i => wAt (weightRow idx ix (P i)) j) (wAt (weightRow idx ix p) j) := by
  unfold wAt weightRow
  simp only [h.n1, h.n2, h.n3, List.getD_eq_getElem?_getD, List.getElem?_set, List.length_set, List.length_replicate]
  by_cases h3 : indexPos ix (idx p.n3) = j
  · simp only [h3, if_true]
    split
    · exact h.f3
    · exact Acc.const _
  · simp only [h3, if_false]
    by_cases h2 : indexPos ix (idx p.n2) = j
    · simp only [h2, if_true]
      split
      · exact h.f2
      · exact Acc.const _
    · simp only [h2, if_false]
      by_cases h1 : indexPos ix (idx p.n1) = j
      · simp only [h1, if_true]
        split
        · exact h.f1
        · exact Acc.const _
      · simp only [h1, if_false]
        exact Acc.const _

theorem accPt_like {P : List (ι → IPt)} {p : List IPt} (h : List.Forall₂ (AccPt π) P p) (i : ι) : List.Forall₂ LikePt p (P.map (· i)) := by
  induction h with
  | nil => exact .nil
  | cons h _ ih => exact .cons ⟨h.tria i, h.n3 i, Or.inl ⟨h.n1 i, h.n2 i⟩⟩ ih

/-! ### calc_k0 -/

set_option maxHeartbeats 1000000 in
theorem k0Env_acc {m : Mesh} {pn : Bool} {E : ι → Edge} {e : Edge} (h : AccEdge π E e) {E0 : K0Env ℝ} (hE : k0Env m pn e = .ok E0) :
    ∃ E' : K0Env (ι → ℝ), (∀ i, (π i).k0Env m pn (E i) = .ok (E'.map fun a => a i)) ∧ K0Env.Rel (Acc π) E' E0 ∧ E0.Ac ≠ 0 := by
  obtain ⟨ac, l, ha, hl, hacc, hpos⟩ := h.Ac
  obtain ⟨P, hP, hF⟩ := h.ipts
  have pA := fun A hA => edgeProp_acc (m := m) (pn := pn) h Lam.A (A := A) hA
  have pB := fun A hA => edgeProp_acc (m := m) (pn := pn) h Lam.B (A := A) hA
  have pD := fun A hA => edgeProp_acc (m := m) (pn := pn) h Lam.D (A := A) hA
  unfold Rounding.k0Env
  unfold k0Env at hE
  have h1 : ∀ i, iptsIndexed m (P.map (· i)) = iptsIndexed m e.ipts := fun i => iptsIndexed_like rfl (accPt_like hF i)
  have h2 : ∀ i, iptIndices (nodeIdx m) (P.map (· i)) = iptIndices (nodeIdx m) e.ipts := fun i => iptIndices_like (accPt_like hF i) _
  have h3 : P.length = e.ipts.length := hF.length_eq
  simp only [h.trias, hP, h1, h2, List.length_map, h3, ha]
  rw [hl] at hE
  split at hE
  · cases hE
  rename_i q1
  simp only [if_neg q1]
  split at hE
  · cases hE
  rename_i q2
  simp only [if_neg q2]
  split at hE
  · cases hE
  rename_i q3
  simp only [if_neg q3]
  dsimp only at hE ⊢
  split at hE
  · rename_i i1 i2 i3 i4 hix
    rw [hix] at hE
    simp only [hix]
    rcases hA : edgeProp m pn e Lam.A with er | A
    · rw [hA] at hE; revert hE; split <;> intro hE <;> cases hE
    rcases hB : edgeProp m pn e Lam.B with er | B
    · rw [hA, hB] at hE; revert hE; split <;> intro hE <;> cases hE
    rcases hD : edgeProp m pn e Lam.D with er | D
    · rw [hA, hB, hD] at hE; revert hE; split <;> intro hE <;> cases hE
    obtain ⟨A', a1, a2⟩ := pA A hA
    obtain ⟨B', b1, b2⟩ := pB B hB
    obtain ⟨D', d1, d2⟩ := pD D hD
    simp only [a1, b1, d1]
    rw [hA, hB, hD] at hE
    generalize e.ipts = L at hE hF
    cases hF with
    | nil => cases hE
    | @cons P1 p1 _ _ f1 hF =>
    cases hF with
    | nil => cases hE
    | @cons P2 p2 _ _ f2 hF =>
    cases hF with
    | nil => cases hE
    | @cons P3 p3 _ _ f3 hF =>
    dsimp only at hE
    simp only [List.map_cons]
    have hW := fun {P : ι → IPt} {p : IPt} (f : AccPt π P p) j => weight_acc f (nodeIdx m) [i1, i2, i3, i4] j
    cases hF with
    | nil =>
      obtain rfl := Except.ok.inj hE
      refine ⟨{ i1 := i1, i2 := i2, i3 := i3, i4 := i4, Ac := ac, A11 := fun i => A' i 0 0, A12 := fun i => A' i 0 1, A16 := fun i => A' i 0 2, A22 := fun i => A' i 1 1, A26 := fun i => A' i 1 2, A66 := fun i => A' i 2 2, 
                B11 := fun i => B' i 0 0, B12 := fun i => B' i 0 1, B16 := fun i => B' i 0 2, B22 := fun i => B' i 1 1, B26 := fun i => B' i 1 2, B66 := fun i => B' i 2 2, 
                D11 := fun i => D' i 0 0, D12 := fun i => D' i 0 1, D16 := fun i => D' i 0 2, D22 := fun i => D' i 1 1, D26 := fun i => D' i 1 2, D66 := fun i => D' i 2 2, 
                f11 := fun i => wAt (weightRow (nodeIdx m) [i1, i2, i3, i4] (P1 i)) 0, f12 := fun i => wAt (weightRow (nodeIdx m) [i1, i2, i3, i4] (P1 i)) 1, f13 := fun i => wAt (weightRow (nodeIdx m) [i1, i2, i3, i4] (P1 i)) 2, f14 := fun i => wAt (weightRow (nodeIdx m) [i1, i2, i3, i4] (P1 i)) 3, 
                f21 := fun i => wAt (weightRow (nodeIdx m) [i1, i2, i3, i4] (P2 i)) 0, f22 := fun i => wAt (weightRow (nodeIdx m) [i1, i2, i3, i4] (P2 i)) 1, f23 := fun i => wAt (weightRow (nodeIdx m) [i1, i2, i3, i4] (P2 i)) 2, f24 := fun i => wAt (weightRow (nodeIdx m) [i1, i2, i3, i4] (P2 i)) 3, 
                f31 := fun i => wAt (weightRow (nodeIdx m) [i1, i2, i3, i4] (P3 i)) 0, f32 := fun i => wAt (weightRow (nodeIdx m) [i1, i2, i3, i4] (P3 i)) 1, f33 := fun i => wAt (weightRow (nodeIdx m) [i1, i2, i3, i4] (P3 i)) 2, f34 := fun i => wAt (weightRow (nodeIdx m) [i1, i2, i3, i4] (P3 i)) 3, 
                f41 := fun _ => wAt (List.replicate 4 0) 0, f42 := fun _ => wAt (List.replicate 4 0) 1, f43 := fun _ => wAt (List.replicate 4 0) 2, f44 := fun _ => wAt (List.replicate 4 0) 3, 
                le1 := fun i => (P1 i).le, le2 := fun i => (P2 i).le, le3 := fun i => (P3 i).le, le4 := fun _ => 0, nx1 := fun i => (P1 i).nx, nx2 := fun i => (P2 i).nx, nx3 := fun i => (P3 i).nx, nx4 := fun _ => 0, ny1 := fun i => (P1 i).ny, ny2 := fun i => (P2 i).ny, ny3 := fun i => (P3 i).ny, ny4 := fun _ => 0 }, fun i => rfl, ?_, hpos.ne'⟩
      refine ⟨rfl, rfl, rfl, rfl, hacc, a2 _ _, a2 _ _, a2 _ _, a2 _ _, a2 _ _, a2 _ _, b2 _ _, b2 _ _, b2 _ _, b2 _ _, b2 _ _, b2 _ _,
        d2 _ _, d2 _ _, d2 _ _, d2 _ _, d2 _ _, d2 _ _, hW f1 0, hW f1 1, hW f1 2, hW f1 3, hW f2 0, hW f2 1, hW f2 2, hW f2 3,
        hW f3 0, hW f3 1, hW f3 2, hW f3 3, Acc.const _, Acc.const _, Acc.const _, Acc.const _, f1.le, f2.le, f3.le, Acc.const _,
        f1.nx, f2.nx, f3.nx, Acc.const _, f1.ny, f2.ny, f3.ny, Acc.const _⟩
    | @cons P4 p4 _ _ f4 hF =>
      obtain rfl := Except.ok.inj hE
      refine ⟨{ i1 := i1, i2 := i2, i3 := i3, i4 := i4, Ac := ac, A11 := fun i => A' i 0 0, A12 := fun i => A' i 0 1, A16 := fun i => A' i 0 2, A22 := fun i => A' i 1 1, A26 := fun i => A' i 1 2, A66 := fun i => A' i 2 2, 
                B11 := fun i => B' i 0 0, B12 := fun i => B' i 0 1, B16 := fun i => B' i 0 2, B22 := fun i => B' i 1 1, B26 := fun i => B' i 1 2, B66 := fun i => B' i 2 2, 
                D11 := fun i => D' i 0 0, D12 := fun i => D' i 0 1, D16 := fun i => D' i 0 2, D22 := fun i => D' i 1 1, D26 := fun i => D' i 1 2, D66 := fun i => D' i 2 2, 
                f11 := fun i => wAt (weightRow (nodeIdx m) [i1, i2, i3, i4] (P1 i)) 0, f12 := fun i => wAt (weightRow (nodeIdx m) [i1, i2, i3, i4] (P1 i)) 1, f13 := fun i => wAt (weightRow (nodeIdx m) [i1, i2, i3, i4] (P1 i)) 2, f14 := fun i => wAt (weightRow (nodeIdx m) [i1, i2, i3, i4] (P1 i)) 3, 
                f21 := fun i => wAt (weightRow (nodeIdx m) [i1, i2, i3, i4] (P2 i)) 0, f22 := fun i => wAt (weightRow (nodeIdx m) [i1, i2, i3, i4] (P2 i)) 1, f23 := fun i => wAt (weightRow (nodeIdx m) [i1, i2, i3, i4] (P2 i)) 2, f24 := fun i => wAt (weightRow (nodeIdx m) [i1, i2, i3, i4] (P2 i)) 3, 
                f31 := fun i => wAt (weightRow (nodeIdx m) [i1, i2, i3, i4] (P3 i)) 0, f32 := fun i => wAt (weightRow (nodeIdx m) [i1, i2, i3, i4] (P3 i)) 1, f33 := fun i => wAt (weightRow (nodeIdx m) [i1, i2, i3, i4] (P3 i)) 2, f34 := fun i => wAt (weightRow (nodeIdx m) [i1, i2, i3, i4] (P3 i)) 3, 
                f41 := fun i => wAt (weightRow (nodeIdx m) [i1, i2, i3, i4] (P4 i)) 0, f42 := fun i => wAt (weightRow (nodeIdx m) [i1, i2, i3, i4] (P4 i)) 1, f43 := fun i => wAt (weightRow (nodeIdx m) [i1, i2, i3, i4] (P4 i)) 2, f44 := fun i => wAt (weightRow (nodeIdx m) [i1, i2, i3, i4] (P4 i)) 3, 
                le1 := fun i => (P1 i).le, le2 := fun i => (P2 i).le, le3 := fun i => (P3 i).le, le4 := fun i => (P4 i).le, nx1 := fun i => (P1 i).nx, nx2 := fun i => (P2 i).nx, nx3 := fun i => (P3 i).nx, nx4 := fun i => (P4 i).nx, ny1 := fun i => (P1 i).ny, ny2 := fun i => (P2 i).ny, ny3 := fun i => (P3 i).ny, ny4 := fun i => (P4 i).ny }, fun i => rfl, ?_, hpos.ne'⟩
      refine ⟨rfl, rfl, rfl, rfl, hacc, a2 _ _, a2 _ _, a2 _ _, a2 _ _, a2 _ _, a2 _ _, b2 _ _, b2 _ _, b2 _ _, b2 _ _, b2 _ _, b2 _ _,
        d2 _ _, d2 _ _, d2 _ _, d2 _ _, d2 _ _, d2 _ _, hW f1 0, hW f1 1, hW f1 2, hW f1 3, hW f2 0, hW f2 1, hW f2 2, hW f2 3,
        hW f3 0, hW f3 1, hW f3 2, hW f3 3, hW f4 0, hW f4 1, hW f4 2, hW f4 3, f1.le, f2.le, f3.le, f4.le,
        f1.nx, f2.nx, f3.nx, f4.nx, f1.ny, f2.ny, f3.ny, f4.ny⟩
  · cases hE

end Meshless
