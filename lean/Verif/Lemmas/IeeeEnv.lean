import Verif.Lemmas.IeeeGeom
import Verif.Lemmas.IeeeMat
import Verif.Lemmas.IeeeK0
import Verif.Lemmas.FloatEnv

/-! The data of an edge and the local variables of `calc_k0` for it, computed in floating-point formats with special values. -/

set_option autoImplicit false

namespace Meshless
open Filter Topology Spec

variable {ι : Type*} {φ : ι → Fmt}

/-! ### edges -/

/-- the computed numbers of an edge: the same integration points, numbers with limits, non-zero area -/
structure LimGeo (φ : ι → Fmt) (G : ι → Geo) (e : Edge) : Prop where
  Ac : ∃ l, e.Ac = some l ∧ Lim φ (fun i => (G i).Ac) l ∧ 0 < l
  ipts : ∃ P : List (ι → FPt), (∀ i, (G i).ipts = P.map (· i)) ∧ List.Forall₂ (LimPt φ) P e.ipts

/-- the numbers of a boundary edge with corners `ab` -/
noncomputable def Fmt.bGeo (f : Fmt) (m : Mesh) (t o : ℕ) (ab : ℕ × ℕ) : Geo :=
  ⟨[xyz m ab.1, f.mid m t, xyz m ab.2, xyz m ab.1], f.iptsA m t ab.1 ab.2 o ++ f.iptsB m t ab.1 ab.2 o,
    f.area4 (xyz m ab.1) (f.mid m t) (xyz m ab.2) (xyz m ab.1)⟩

/-- the numbers of an interior edge with corners `ab` -/
noncomputable def Fmt.iGeo (f : Fmt) (m : Mesh) (t1 t2 o1 o2 : ℕ) (ab : ℕ × ℕ) : Geo :=
  ⟨[xyz m ab.1, f.mid m t1, xyz m ab.2, f.mid m t2, xyz m ab.1], f.iptsA m t1 ab.1 ab.2 o1 ++ f.iptsI m t2 ab.1 ab.2 o2,
    f.area5 (xyz m ab.1) (f.mid m t1) (xyz m ab.2) (f.mid m t2) (xyz m ab.1)⟩

theorem bGeo_lim {m : Mesh} {k : Key} {t o : ℕ} {ab : ℕ × ℕ} (hi : Indep (m.node ab.1).xyz (m.node ab.2).xyz (m.mid t)) {e : Edge}
    (he : e = ⟨k.1, k.2, [t], [(m.node ab.1).xyz, m.mid t, (m.node ab.2).xyz, (m.node ab.1).xyz], iptsA m t ab.1 ab.2 o ++ iptsB m t ab.1 ab.2 o,
      some (polyArea [(m.node ab.1).xyz, m.mid t, (m.node ab.2).xyz, (m.node ab.1).xyz]), some o, none⟩)
    (hAc : 0 < polyArea [(m.node ab.1).xyz, m.mid t, (m.node ab.2).xyz, (m.node ab.1).xyz]) :
    LimGeo φ (fun i => (φ i).bGeo m t o ab) e := by
  subst he
  obtain ⟨P, p1, p2⟩ := iptsA_lim (φ := φ) m t ab.1 ab.2 o hi
  obtain ⟨Q, q1, q2⟩ := iptsB_lim (φ := φ) m t ab.1 ab.2 o hi.ne3
  refine ⟨⟨_, rfl, area4_lim (xyz_lim m _) (mid_lim m t) (xyz_lim m _) (xyz_lim m _), hAc⟩, P ++ Q, fun i => ?_, forall₂_append p2 q2⟩
  rw [List.map_append, ← p1, ← q1]; rfl

theorem iGeo_lim {m : Mesh} {k : Key} {t1 t2 o1 o2 : ℕ} {ab : ℕ × ℕ} (hi1 : Indep (m.node ab.1).xyz (m.node ab.2).xyz (m.mid t1))
    (hi2 : Indep (m.node ab.1).xyz (m.node ab.2).xyz (m.mid t2)) {e : Edge}
    (he : e = ⟨k.1, k.2, [t1, t2], [(m.node ab.1).xyz, m.mid t1, (m.node ab.2).xyz, m.mid t2, (m.node ab.1).xyz],
      iptsA m t1 ab.1 ab.2 o1 ++ iptsI m t2 ab.1 ab.2 o2,
      some (polyArea [(m.node ab.1).xyz, m.mid t1, (m.node ab.2).xyz, m.mid t2, (m.node ab.1).xyz]), some o1, some o2⟩)
    (hAc : 0 < polyArea [(m.node ab.1).xyz, m.mid t1, (m.node ab.2).xyz, m.mid t2, (m.node ab.1).xyz]) :
    LimGeo φ (fun i => (φ i).iGeo m t1 t2 o1 o2 ab) e := by
  subst he
  obtain ⟨P, p1, p2⟩ := iptsA_lim (φ := φ) m t1 ab.1 ab.2 o1 hi1
  obtain ⟨Q, q1, q2⟩ := iptsI_lim (φ := φ) m t2 ab.1 ab.2 o2 hi2
  refine ⟨⟨_, rfl, area5_lim (xyz_lim m _) (mid_lim m t1) (xyz_lim m _) (mid_lim m t2) (xyz_lim m _), hAc⟩, P ++ Q, fun i => ?_, forall₂_append p2 q2⟩
  rw [List.map_append, ← p1, ← q1]; rfl

/-! ### averaged properties -/

theorem edgeProp_lim {m : Mesh} {pn : Bool} {G : ι → Geo} {e : Edge} (h : LimGeo φ G e) (sel : Lam → Fin 3 → Fin 3 → ℝ) {A : Fin 3 → Fin 3 → ℝ}
    (hA : edgeProp m pn e sel = .ok A) : ∃ B : ι → Fin 3 → Fin 3 → Flo, (∀ i, (φ i).edgeProp m pn e (G i).Ac sel = .ok (B i)) ∧
      ∀ a b, Lim φ (fun i => B i a b) (A a b) := by
  obtain ⟨l, hl, hacc, hpos⟩ := h.Ac
  unfold Fmt.edgeProp
  unfold edgeProp at hA
  rw [hl] at hA
  revert hA
  cases pn
  · simp only [Bool.false_eq_true, if_false]
    rcases (m.tria (e.trias.getD 0 0)).prop with _ | p
    · intro hA; simp at hA
    dsimp only
    rcases e.trias[1]? with _ | t2
    · intro hA; obtain rfl := Except.ok.inj hA
      exact ⟨fun _ i j => .fin (sel p i j), fun _ => rfl, fun _ _ => Lim.const _⟩
    dsimp only
    rcases (m.tria t2).prop with _ | q
    · intro hA; simp at hA
    intro hA; obtain rfl := Except.ok.inj hA
    refine ⟨_, fun _ => rfl, fun a b => ?_⟩
    have h1 := area3_lim (mid_lim (φ := φ) m (e.trias.getD 0 0)) (xyz_lim m e.n2) (xyz_lim m e.n1)
    have h2 := area3_lim (mid_lim (φ := φ) m t2) (xyz_lim m e.n1) (xyz_lim m e.n2)
    exact Lim.div ((h1.mul (Lim.const _)).add (h2.mul (Lim.const _))) hacc hpos.ne'
  · simp only [if_true]
    rcases e.other1 with _ | o1
    · intro hA; simp at hA
    dsimp only
    rcases (m.node e.n1).prop with _ | p
    · intro hA; simp at hA
    rcases (m.node e.n2).prop with _ | q
    · intro hA; simp at hA
    rcases (m.node o1).prop with _ | r
    · intro hA; simp at hA
    dsimp only
    rcases e.trias[1]? with _ | t2
    · intro hA; obtain rfl := Except.ok.inj hA
      refine ⟨_, fun _ => rfl, fun a b => ?_⟩
      simp only [Fmt.mix3, mix3]
      limt
    dsimp only
    rcases e.other2 with _ | o2
    · intro hA; simp at hA
    dsimp only
    rcases (m.node o2).prop with _ | s
    · intro hA; simp at hA
    intro hA; obtain rfl := Except.ok.inj hA
    refine ⟨_, fun _ => rfl, fun a b => ?_⟩
    simp only [Fmt.mix4, mix4]
    limt

/-! ### weights -/

theorem weight_lim {P : ι → FPt} {p : IPt} (h : LimPt φ P p) (idx : ℕ → ℤ) (ix : List ℤ) (j : ℕ) :
    Lim φ (fun i => Fmt.wAt (Fmt.weightRow idx ix (P i)) j) (wAt (weightRow idx ix p) j) := by
  unfold Fmt.wAt Fmt.weightRow wAt weightRow
  simp only [h.n1, h.n2, h.n3, List.getD_eq_getElem?_getD, List.getElem?_set, List.length_set, List.length_replicate]
  by_cases h3 : indexPos ix (idx p.n3) = j
  · simp only [h3, if_true]
    split
    · exact h.f3
    · exact Lim.const _
  · simp only [h3, if_false]
    by_cases h2 : indexPos ix (idx p.n2) = j
    · simp only [h2, if_true]
      split
      · exact h.f2
      · exact Lim.const _
    · simp only [h2, if_false]
      by_cases h1 : indexPos ix (idx p.n1) = j
      · simp only [h1, if_true]
        split
        · exact h.f1
        · exact Lim.const _
      · simp only [h1, if_false, List.getElem?_replicate]
        split <;> exact Lim.const _

theorem limPt_like {P : List (ι → FPt)} {p : List IPt} (h : List.Forall₂ (LimPt φ) P p) (i : ι) : List.Forall₂ LikePt p ((P.map (· i)).map FPt.ids) := by
  induction h with
  | nil => exact .nil
  | cons h _ ih => exact .cons ⟨h.tria i, h.n3 i, Or.inl ⟨h.n1 i, h.n2 i⟩⟩ ih

/-! ### calc_k0 -/

set_option maxHeartbeats 1000000 in
theorem k0Env_lim {m : Mesh} {pn : Bool} {G : ι → Geo} {e : Edge} (h : LimGeo φ G e) {E0 : K0Env ℝ} (hE : k0Env m pn e = .ok E0) :
    ∃ E' : K0Env (ι → Flo), (∀ i, (φ i).k0Env m pn e (G i) = .ok (E'.map fun a => a i)) ∧ K0Env.Rel (Lim φ) E' E0 ∧ E0.Ac ≠ 0 := by
  obtain ⟨l, hl, hacc, hpos⟩ := h.Ac
  obtain ⟨P, hP, hF⟩ := h.ipts
  have pA := fun A hA => edgeProp_lim (m := m) (pn := pn) h Lam.A (A := A) hA
  have pB := fun A hA => edgeProp_lim (m := m) (pn := pn) h Lam.B (A := A) hA
  have pD := fun A hA => edgeProp_lim (m := m) (pn := pn) h Lam.D (A := A) hA
  unfold Fmt.k0Env
  unfold k0Env at hE
  have h1 : ∀ i, iptsIndexed m ((P.map (· i)).map FPt.ids) = iptsIndexed m e.ipts := fun i => iptsIndexed_like rfl (limPt_like hF i)
  have h2 : ∀ i, iptIndices (nodeIdx m) ((P.map (· i)).map FPt.ids) = iptIndices (nodeIdx m) e.ipts := fun i => iptIndices_like (limPt_like hF i) _
  have h3 : P.length = e.ipts.length := hF.length_eq
  simp only [hP, h1, h2, List.length_map, h3]
  rw [hl] at hE
  split at hE
  · cases hE
  rename_i q1
  simp only [if_neg q1]
  split at hE
  · cases hE
  rename_i q2
  simp only [if_neg q2]
  split at hE
  · cases hE
  rename_i q3
  simp only [if_neg q3]
  dsimp only at hE ⊢
  split at hE
  · rename_i i1 i2 i3 i4 hix
    rw [hix] at hE
    simp only [hix]
    rcases hA : edgeProp m pn e Lam.A with er | A
    · rw [hA] at hE; revert hE; split <;> intro hE <;> cases hE
    rcases hB : edgeProp m pn e Lam.B with er | B
    · rw [hA, hB] at hE; revert hE; split <;> intro hE <;> cases hE
    rcases hD : edgeProp m pn e Lam.D with er | D
    · rw [hA, hB, hD] at hE; revert hE; split <;> intro hE <;> cases hE
    obtain ⟨A', a1, a2⟩ := pA A hA
    obtain ⟨B', b1, b2⟩ := pB B hB
    obtain ⟨D', d1, d2⟩ := pD D hD
    simp only [a1, b1, d1]
    rw [hA, hB, hD] at hE
    generalize e.ipts = L at hE hF
    cases hF with
    | nil => cases hE
    | @cons P1 p1 _ _ f1 hF =>
    cases hF with
    | nil => cases hE
    | @cons P2 p2 _ _ f2 hF =>
    cases hF with
    | nil => cases hE
    | @cons P3 p3 _ _ f3 hF =>
    dsimp only at hE
    simp only [List.map_cons]
    have hW := fun {P : ι → FPt} {p : IPt} (f : LimPt φ P p) j => weight_lim f (nodeIdx m) [i1, i2, i3, i4] j
    cases hF with
    | nil =>
      obtain rfl := Except.ok.inj hE
      refine ⟨{ i1 := i1, i2 := i2, i3 := i3, i4 := i4, Ac := fun i => (G i).Ac, A11 := fun i => A' i 0 0, A12 := fun i => A' i 0 1, A16 := fun i => A' i 0 2, A22 := fun i => A' i 1 1, A26 := fun i => A' i 1 2, A66 := fun i => A' i 2 2, 
                B11 := fun i => B' i 0 0, B12 := fun i => B' i 0 1, B16 := fun i => B' i 0 2, B22 := fun i => B' i 1 1, B26 := fun i => B' i 1 2, B66 := fun i => B' i 2 2, 
                D11 := fun i => D' i 0 0, D12 := fun i => D' i 0 1, D16 := fun i => D' i 0 2, D22 := fun i => D' i 1 1, D26 := fun i => D' i 1 2, D66 := fun i => D' i 2 2, 
                f11 := fun i => Fmt.wAt (Fmt.weightRow (nodeIdx m) [i1, i2, i3, i4] (P1 i)) 0, f12 := fun i => Fmt.wAt (Fmt.weightRow (nodeIdx m) [i1, i2, i3, i4] (P1 i)) 1, f13 := fun i => Fmt.wAt (Fmt.weightRow (nodeIdx m) [i1, i2, i3, i4] (P1 i)) 2, f14 := fun i => Fmt.wAt (Fmt.weightRow (nodeIdx m) [i1, i2, i3, i4] (P1 i)) 3, 
                f21 := fun i => Fmt.wAt (Fmt.weightRow (nodeIdx m) [i1, i2, i3, i4] (P2 i)) 0, f22 := fun i => Fmt.wAt (Fmt.weightRow (nodeIdx m) [i1, i2, i3, i4] (P2 i)) 1, f23 := fun i => Fmt.wAt (Fmt.weightRow (nodeIdx m) [i1, i2, i3, i4] (P2 i)) 2, f24 := fun i => Fmt.wAt (Fmt.weightRow (nodeIdx m) [i1, i2, i3, i4] (P2 i)) 3, 
                f31 := fun i => Fmt.wAt (Fmt.weightRow (nodeIdx m) [i1, i2, i3, i4] (P3 i)) 0, f32 := fun i => Fmt.wAt (Fmt.weightRow (nodeIdx m) [i1, i2, i3, i4] (P3 i)) 1, f33 := fun i => Fmt.wAt (Fmt.weightRow (nodeIdx m) [i1, i2, i3, i4] (P3 i)) 2, f34 := fun i => Fmt.wAt (Fmt.weightRow (nodeIdx m) [i1, i2, i3, i4] (P3 i)) 3, 
                f41 := fun _ => Fmt.wAt (List.replicate 4 (.fin 0)) 0, f42 := fun _ => Fmt.wAt (List.replicate 4 (.fin 0)) 1, f43 := fun _ => Fmt.wAt (List.replicate 4 (.fin 0)) 2, f44 := fun _ => Fmt.wAt (List.replicate 4 (.fin 0)) 3, 
                le1 := fun i => (P1 i).le, le2 := fun i => (P2 i).le, le3 := fun i => (P3 i).le, le4 := fun _ => .fin 0, nx1 := fun i => (P1 i).nx, nx2 := fun i => (P2 i).nx, nx3 := fun i => (P3 i).nx, nx4 := fun _ => .fin 0, ny1 := fun i => (P1 i).ny, ny2 := fun i => (P2 i).ny, ny3 := fun i => (P3 i).ny, ny4 := fun _ => .fin 0 }, fun i => rfl, ?_, hpos.ne'⟩
      refine ⟨rfl, rfl, rfl, rfl, hacc, a2 _ _, a2 _ _, a2 _ _, a2 _ _, a2 _ _, a2 _ _, b2 _ _, b2 _ _, b2 _ _, b2 _ _, b2 _ _, b2 _ _,
        d2 _ _, d2 _ _, d2 _ _, d2 _ _, d2 _ _, d2 _ _, hW f1 0, hW f1 1, hW f1 2, hW f1 3, hW f2 0, hW f2 1, hW f2 2, hW f2 3,
        hW f3 0, hW f3 1, hW f3 2, hW f3 3, Lim.const _, Lim.const _, Lim.const _, Lim.const _, f1.le, f2.le, f3.le, Lim.const _,
        f1.nx, f2.nx, f3.nx, Lim.const _, f1.ny, f2.ny, f3.ny, Lim.const _⟩
    | @cons P4 p4 _ _ f4 hF =>
      obtain rfl := Except.ok.inj hE
      refine ⟨{ i1 := i1, i2 := i2, i3 := i3, i4 := i4, Ac := fun i => (G i).Ac, A11 := fun i => A' i 0 0, A12 := fun i => A' i 0 1, A16 := fun i => A' i 0 2, A22 := fun i => A' i 1 1, A26 := fun i => A' i 1 2, A66 := fun i => A' i 2 2, 
                B11 := fun i => B' i 0 0, B12 := fun i => B' i 0 1, B16 := fun i => B' i 0 2, B22 := fun i => B' i 1 1, B26 := fun i => B' i 1 2, B66 := fun i => B' i 2 2, 
                D11 := fun i => D' i 0 0, D12 := fun i => D' i 0 1, D16 := fun i => D' i 0 2, D22 := fun i => D' i 1 1, D26 := fun i => D' i 1 2, D66 := fun i => D' i 2 2, 
                f11 := fun i => Fmt.wAt (Fmt.weightRow (nodeIdx m) [i1, i2, i3, i4] (P1 i)) 0, f12 := fun i => Fmt.wAt (Fmt.weightRow (nodeIdx m) [i1, i2, i3, i4] (P1 i)) 1, f13 := fun i => Fmt.wAt (Fmt.weightRow (nodeIdx m) [i1, i2, i3, i4] (P1 i)) 2, f14 := fun i => Fmt.wAt (Fmt.weightRow (nodeIdx m) [i1, i2, i3, i4] (P1 i)) 3, 
                f21 := fun i => Fmt.wAt (Fmt.weightRow (nodeIdx m) [i1, i2, i3, i4] (P2 i)) 0, f22 := fun i => Fmt.wAt (Fmt.weightRow (nodeIdx m) [i1, i2, i3, i4] (P2 i)) 1, f23 := fun i => Fmt.wAt (Fmt.weightRow (nodeIdx m) [i1, i2, i3, i4] (P2 i)) 2, f24 := fun i => Fmt.wAt (Fmt.weightRow (nodeIdx m) [i1, i2, i3, i4] (P2 i)) 3, 
                f31 := fun i => Fmt.wAt (Fmt.weightRow (nodeIdx m) [i1, i2, i3, i4] (P3 i)) 0, f32 := fun i => Fmt.wAt (Fmt.weightRow (nodeIdx m) [i1, i2, i3, i4] (P3 i)) 1, f33 := fun i => Fmt.wAt (Fmt.weightRow (nodeIdx m) [i1, i2, i3, i4] (P3 i)) 2, f34 := fun i => Fmt.wAt (Fmt.weightRow (nodeIdx m) [i1, i2, i3, i4] (P3 i)) 3, 
                f41 := fun i => Fmt.wAt (Fmt.weightRow (nodeIdx m) [i1, i2, i3, i4] (P4 i)) 0, f42 := fun i => Fmt.wAt (Fmt.weightRow (nodeIdx m) [i1, i2, i3, i4] (P4 i)) 1, f43 := fun i => Fmt.wAt (Fmt.weightRow (nodeIdx m) [i1, i2, i3, i4] (P4 i)) 2, f44 := fun i => Fmt.wAt (Fmt.weightRow (nodeIdx m) [i1, i2, i3, i4] (P4 i)) 3, 
                le1 := fun i => (P1 i).le, le2 := fun i => (P2 i).le, le3 := fun i => (P3 i).le, le4 := fun i => (P4 i).le, nx1 := fun i => (P1 i).nx, nx2 := fun i => (P2 i).nx, nx3 := fun i => (P3 i).nx, nx4 := fun i => (P4 i).nx, ny1 := fun i => (P1 i).ny, ny2 := fun i => (P2 i).ny, ny3 := fun i => (P3 i).ny, ny4 := fun i => (P4 i).ny }, fun i => rfl, ?_, hpos.ne'⟩
      refine ⟨rfl, rfl, rfl, rfl, hacc, a2 _ _, a2 _ _, a2 _ _, a2 _ _, a2 _ _, a2 _ _, b2 _ _, b2 _ _, b2 _ _, b2 _ _, b2 _ _, b2 _ _,
        d2 _ _, d2 _ _, d2 _ _, d2 _ _, d2 _ _, d2 _ _, hW f1 0, hW f1 1, hW f1 2, hW f1 3, hW f2 0, hW f2 1, hW f2 2, hW f2 3,
        hW f3 0, hW f3 1, hW f3 2, hW f3 3, hW f4 0, hW f4 1, hW f4 2, hW f4 3, f1.le, f2.le, f3.le, f4.le,
        f1.nx, f2.nx, f3.nx, f4.nx, f1.ny, f2.ny, f3.ny, f4.ny⟩
  · cases hE

end Meshless
