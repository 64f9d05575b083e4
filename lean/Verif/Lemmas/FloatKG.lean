import Verif.Lemmas.FloatK0
import Verif.Lemmas.KGForm

/-!
Accuracy of the geometric stiffness matrix computed with rounding, from displacements that are themselves accurate.
-/

set_option autoImplicit false

namespace Meshless
open Spec Filter Topology

variable {ι : Type} {π : ι → Rounding}

/-- an accurate list of displacements -/
structure AccD (π : ι → Rounding) (D : ι → List ℝ) (d : List ℝ) : Prop where
  len : ∀ i, (D i).length = d.length
  get : ∀ n, Acc π (fun i => (D i).getD n 0) (d.getD n 0)

theorem dSlice_getD (d : List ℝ) (a : ℤ) (r : ℕ) : (dSlice d a).getD r 0 = if r < 5 then d.getD (a.toNat * 5 + r) 0 else 0 := by
  unfold dSlice
  rw [List.getD_eq_getElem?_getD, List.getD_eq_getElem?_getD, List.getElem?_take, List.getElem?_drop]
  split <;> rfl

theorem AccD.slice {D : ι → List ℝ} {d : List ℝ} (h : AccD π D d) (a : ℤ) (r : ℕ) : Acc π (fun i => (dSlice (D i) a).getD r 0) ((dSlice d a).getD r 0) := by
  simp only [dSlice_getD]
  split
  · exact h.get _
  · exact Acc.const _

/-- the membrane resultants of one edge, plate2d_calc_kG.py:134-156 -/
noncomputable def Rounding.resN (R : Rounding) (Ac : ℝ) (A B : Fin 3 → Fin 3 → ℝ) (f1 f2 f3 f4 d1 d2 d3 d4 : List ℝ) (p1 p2 p3 : IPt) (le4 nx4 ny4 : ℝ)
    (i : Fin 3) : ℝ :=
  let c := fun (f : List ℝ) r => R.dcAt f d1 d2 d3 d4 r
  let sx := fun r => R.sum4 (R.mul (R.mul p1.le p1.nx) (c f1 r)) (R.mul (R.mul p2.le p2.nx) (c f2 r))
    (R.mul (R.mul p3.le p3.nx) (c f3 r)) (R.mul (R.mul le4 nx4) (c f4 r))
  let sy := fun r => R.sum4 (R.mul (R.mul p1.le p1.ny) (c f1 r)) (R.mul (R.mul p2.le p2.ny) (c f2 r))
    (R.mul (R.mul p3.le p3.ny) (c f3 r)) (R.mul (R.mul le4 ny4) (c f4 r))
  let sxy := fun r s => R.sum4
    (R.mul p1.le (R.add (R.mul p1.ny (c f1 r)) (R.mul p1.nx (c f1 s)))) (R.mul p2.le (R.add (R.mul p2.ny (c f2 r)) (R.mul p2.nx (c f2 s))))
    (R.mul p3.le (R.add (R.mul p3.ny (c f3 r)) (R.mul p3.nx (c f3 s)))) (R.mul le4 (R.add (R.mul ny4 (c f4 r)) (R.mul nx4 (c f4 s))))
  let em : Fin 3 → ℝ := ![R.mul (R.div 1 Ac) (sx 0), R.mul (R.div 1 Ac) (sy 1), R.mul (R.div 1 Ac) (sxy 0 1)]
  let eb : Fin 3 → ℝ := ![R.mul (R.div 1 Ac) (sx 3), R.mul (R.div 1 Ac) (sy 4), R.mul (R.div 1 Ac) (sxy 3 4)]
  R.add (R.dot3 A em i) (R.dot3 B eb i)

theorem resN_acc {ac : ι → ℝ} {l : ℝ} (hac : Acc π ac l) (hl : l ≠ 0) {A' B' : ι → Fin 3 → Fin 3 → ℝ} {A B : Fin 3 → Fin 3 → ℝ}
    (hA : ∀ a b, Acc π (fun i => A' i a b) (A a b)) (hB : ∀ a b, Acc π (fun i => B' i a b) (B a b))
    {F1 F2 F3 F4 : ι → List ℝ} {f1 f2 f3 f4 : List ℝ} (h1 : ∀ j, Acc π (fun i => wAt (F1 i) j) (wAt f1 j)) (h2 : ∀ j, Acc π (fun i => wAt (F2 i) j) (wAt f2 j))
    (h3 : ∀ j, Acc π (fun i => wAt (F3 i) j) (wAt f3 j)) (h4 : ∀ j, Acc π (fun i => wAt (F4 i) j) (wAt f4 j)) {D1 D2 D3 D4 : ι → List ℝ} {d1 d2 d3 d4 : List ℝ}
    (g1 : ∀ r, Acc π (fun i => (D1 i).getD r 0) (d1.getD r 0)) (g2 : ∀ r, Acc π (fun i => (D2 i).getD r 0) (d2.getD r 0))
    (g3 : ∀ r, Acc π (fun i => (D3 i).getD r 0) (d3.getD r 0)) (g4 : ∀ r, Acc π (fun i => (D4 i).getD r 0) (d4.getD r 0)) {P1 P2 P3 : ι → IPt} {p1 p2 p3 : IPt}
    (q1 : AccPt π P1 p1) (q2 : AccPt π P2 p2) (q3 : AccPt π P3 p3) {le4 nx4 ny4 : ι → ℝ} {e4 x4 y4 : ℝ} (he : Acc π le4 e4) (hx : Acc π nx4 x4)
    (hy : Acc π ny4 y4) (a : Fin 3) :
    Acc π (fun i => (π i).resN (ac i) (A' i) (B' i) (F1 i) (F2 i) (F3 i) (F4 i) (D1 i) (D2 i) (D3 i) (D4 i) (P1 i) (P2 i) (P3 i) (le4 i) (nx4 i) (ny4 i) a)
      (Rounding.exact.resN l A B f1 f2 f3 f4 d1 d2 d3 d4 p1 p2 p3 e4 x4 y4 a) := by
  have c : ∀ {F : ι → List ℝ} {f : List ℝ}, (∀ j, Acc π (fun i => wAt (F i) j) (wAt f j)) → ∀ r,
      Acc π (fun i => (π i).dcAt (F i) (D1 i) (D2 i) (D3 i) (D4 i) r) (dcAt f d1 d2 d3 d4 r) := fun h r =>
    ((((h 0).mul (g1 r)).add ((h 1).mul (g2 r))).add ((h 2).mul (g3 r))).add ((h 3).mul (g4 r))
  have hi : Acc π (fun i => (π i).div 1 (ac i)) (1 / l) := (Acc.const 1).div hac hl
  have c1 := c h1
  have c2 := c h2
  have c3 := c h3
  have c4 := c h4
  have sx : ∀ r, Acc π (fun i => (π i).sum4 ((π i).mul ((π i).mul (P1 i).le (P1 i).nx) ((π i).dcAt (F1 i) (D1 i) (D2 i) (D3 i) (D4 i) r)) _ _ _) _ := fun r =>
    ((((q1.le.mul q1.nx).mul (c1 r)).add ((q2.le.mul q2.nx).mul (c2 r))).add ((q3.le.mul q3.nx).mul (c3 r))).add ((he.mul hx).mul (c4 r))
  have sy : ∀ r, Acc π (fun i => (π i).sum4 ((π i).mul ((π i).mul (P1 i).le (P1 i).ny) ((π i).dcAt (F1 i) (D1 i) (D2 i) (D3 i) (D4 i) r)) _ _ _) _ := fun r =>
    ((((q1.le.mul q1.ny).mul (c1 r)).add ((q2.le.mul q2.ny).mul (c2 r))).add ((q3.le.mul q3.ny).mul (c3 r))).add ((he.mul hy).mul (c4 r))
  have sxy : ∀ r s, Acc π (fun i => (π i).sum4 ((π i).mul (P1 i).le ((π i).add ((π i).mul (P1 i).ny ((π i).dcAt (F1 i) (D1 i) (D2 i) (D3 i) (D4 i) r)) _)) _ _ _) _ := fun r s =>
    (((q1.le.mul ((q1.ny.mul (c1 r)).add (q1.nx.mul (c1 s)))).add (q2.le.mul ((q2.ny.mul (c2 r)).add (q2.nx.mul (c2 s))))).add
      (q3.le.mul ((q3.ny.mul (c3 r)).add (q3.nx.mul (c3 s))))).add (he.mul ((hy.mul (c4 r)).add (hx.mul (c4 s))))
  exact ((((hA a 0).mul (hi.mul (sx 0))).add ((hA a 1).mul (hi.mul (sy 1)))).add ((hA a 2).mul (hi.mul (sxy 0 1)))).add
    ((((hB a 0).mul (hi.mul (sx 3))).add ((hB a 1).mul (hi.mul (sy 4)))).add ((hB a 2).mul (hi.mul (sxy 3 4))))

set_option maxHeartbeats 1000000 in
theorem kGEnv_acc {m : Mesh} {pn : Bool} {E : ι → Edge} {e : Edge} (h : AccEdge π E e) {D : ι → List ℝ} {d : List ℝ} (hD : AccD π D d) {E0 : KGEnv ℝ}
    (hE : kGEnv m d pn e = .ok E0) :
    ∃ E' : KGEnv (ι → ℝ), (∀ i, (π i).kGEnv m (D i) pn (E i) = .ok (E'.map fun a => a i)) ∧ KGEnv.Rel (Acc π) E' E0 ∧ E0.Ac ≠ 0 := by
  obtain ⟨ac, l, ha, hl, hacc, hpos⟩ := h.Ac
  obtain ⟨P, hP, hF⟩ := h.ipts
  have pA := fun A hA => edgeProp_acc (m := m) (pn := pn) h Lam.A (A := A) hA
  have pB := fun A hA => edgeProp_acc (m := m) (pn := pn) h Lam.B (A := A) hA
  have hs : ∀ i a, (dSlice (D i) a).length = (dSlice d a).length := by intro i a; simp [dSlice, hD.len i]
  unfold Rounding.kGEnv
  unfold kGEnv at hE
  have h1 : ∀ i, iptsIndexed m (P.map (· i)) = iptsIndexed m e.ipts := fun i => iptsIndexed_like rfl (accPt_like hF i)
  have h2 : ∀ i, iptIndices (nodeIdx m) (P.map (· i)) = iptIndices (nodeIdx m) e.ipts := fun i => iptIndices_like (accPt_like hF i) _
  have h3 : P.length = e.ipts.length := hF.length_eq
  simp only [h.trias, hP, h1, h2, List.length_map, h3, ha, hs]
  rw [hl] at hE
  split at hE
  · cases hE
  rename_i q1
  simp only [if_neg q1]
  split at hE
  · cases hE
  rename_i q2
  simp only [if_neg q2]
  split at hE
  · cases hE
  rename_i q3
  simp only [if_neg q3]
  dsimp only at hE ⊢
  split at hE
  · rename_i i1 i2 i3 i4 hix
    rw [hix] at hE
    simp only [hix]
    rcases hA : edgeProp m pn e Lam.A with er | A
    · rw [hA] at hE; revert hE; split <;> intro hE <;> cases hE
    rcases hB : edgeProp m pn e Lam.B with er | B
    · rw [hA, hB] at hE; revert hE; split <;> intro hE <;> cases hE
    obtain ⟨A', a1, a2⟩ := pA A hA
    obtain ⟨B', b1, b2⟩ := pB B hB
    simp only [a1, b1]
    rw [hA, hB] at hE
    generalize e.ipts = L at hE hF
    cases hF with
    | nil => cases hE
    | @cons P1 p1 _ _ f1 hF =>
    cases hF with
    | nil => cases hE
    | @cons P2 p2 _ _ f2 hF =>
    cases hF with
    | nil => cases hE
    | @cons P3 p3 _ _ f3 hF =>
    dsimp only at hE
    split at hE
    swap
    · split at hE <;> cases hE
    rename_i hlen
    simp only [List.map_cons, if_pos hlen]
    have hW := fun {P : ι → IPt} {p : IPt} (f : AccPt π P p) j => weight_acc f (nodeIdx m) [i1, i2, i3, i4] j
    let wr := fun (P : ι → IPt) i => weightRow (nodeIdx m) [i1, i2, i3, i4] (P i)
    cases hF with
    | nil =>
      obtain rfl := Except.ok.inj hE
      have hN := resN_acc hacc hpos.ne' a2 b2 (hW f1) (hW f2) (hW f3) (F4 := fun _ => List.replicate 4 0) (f4 := List.replicate 4 0) (fun _ => Acc.const _)
        (hD.slice i1) (hD.slice i2) (hD.slice i3) (hD.slice i4) f1 f2 f3 (Acc.const 0) (Acc.const 0) (Acc.const 0)
      refine ⟨{ i1 := i1, i2 := i2, i3 := i3, i4 := i4, Ac := ac,
                Nxx := fun i => (π i).resN (ac i) (A' i) (B' i) (wr P1 i) (wr P2 i) (wr P3 i) ((fun _ => List.replicate 4 0) i) (dSlice (D i) i1) (dSlice (D i) i2) (dSlice (D i) i3) (dSlice (D i) i4) (P1 i) (P2 i) (P3 i) ((fun _ => 0) i) ((fun _ => 0) i) ((fun _ => 0) i) 0,
                Nyy := fun i => (π i).resN (ac i) (A' i) (B' i) (wr P1 i) (wr P2 i) (wr P3 i) ((fun _ => List.replicate 4 0) i) (dSlice (D i) i1) (dSlice (D i) i2) (dSlice (D i) i3) (dSlice (D i) i4) (P1 i) (P2 i) (P3 i) ((fun _ => 0) i) ((fun _ => 0) i) ((fun _ => 0) i) 1,
                Nxy := fun i => (π i).resN (ac i) (A' i) (B' i) (wr P1 i) (wr P2 i) (wr P3 i) ((fun _ => List.replicate 4 0) i) (dSlice (D i) i1) (dSlice (D i) i2) (dSlice (D i) i3) (dSlice (D i) i4) (P1 i) (P2 i) (P3 i) ((fun _ => 0) i) ((fun _ => 0) i) ((fun _ => 0) i) 2,
                f11 := fun i => wAt (weightRow (nodeIdx m) [i1, i2, i3, i4] (P1 i)) 0, f12 := fun i => wAt (weightRow (nodeIdx m) [i1, i2, i3, i4] (P1 i)) 1, f13 := fun i => wAt (weightRow (nodeIdx m) [i1, i2, i3, i4] (P1 i)) 2, f14 := fun i => wAt (weightRow (nodeIdx m) [i1, i2, i3, i4] (P1 i)) 3,
                f21 := fun i => wAt (weightRow (nodeIdx m) [i1, i2, i3, i4] (P2 i)) 0, f22 := fun i => wAt (weightRow (nodeIdx m) [i1, i2, i3, i4] (P2 i)) 1, f23 := fun i => wAt (weightRow (nodeIdx m) [i1, i2, i3, i4] (P2 i)) 2, f24 := fun i => wAt (weightRow (nodeIdx m) [i1, i2, i3, i4] (P2 i)) 3,
                f31 := fun i => wAt (weightRow (nodeIdx m) [i1, i2, i3, i4] (P3 i)) 0, f32 := fun i => wAt (weightRow (nodeIdx m) [i1, i2, i3, i4] (P3 i)) 1, f33 := fun i => wAt (weightRow (nodeIdx m) [i1, i2, i3, i4] (P3 i)) 2, f34 := fun i => wAt (weightRow (nodeIdx m) [i1, i2, i3, i4] (P3 i)) 3,
                f41 := fun _ => wAt (List.replicate 4 0) 0, f42 := fun _ => wAt (List.replicate 4 0) 1, f43 := fun _ => wAt (List.replicate 4 0) 2, f44 := fun _ => wAt (List.replicate 4 0) 3,
                le1 := fun i => (P1 i).le, le2 := fun i => (P2 i).le, le3 := fun i => (P3 i).le, le4 := fun _ => 0, nx1 := fun i => (P1 i).nx, nx2 := fun i => (P2 i).nx, nx3 := fun i => (P3 i).nx, nx4 := fun _ => 0, ny1 := fun i => (P1 i).ny, ny2 := fun i => (P2 i).ny, ny3 := fun i => (P3 i).ny, ny4 := fun _ => 0 }, fun i => rfl, ?_, hpos.ne'⟩
      exact ⟨rfl, rfl, rfl, rfl, hacc, hN 0, hN 2, hN 1, hW f1 0, hW f1 1, hW f1 2, hW f1 3, hW f2 0, hW f2 1, hW f2 2, hW f2 3, hW f3 0, hW f3 1, hW f3 2, hW f3 3, Acc.const _, Acc.const _, Acc.const _, Acc.const _, f1.le, f2.le, f3.le, Acc.const _, f1.nx, f2.nx, f3.nx, Acc.const _, f1.ny, f2.ny, f3.ny, Acc.const _⟩
    | @cons P4 p4 _ _ f4 hF =>
      obtain rfl := Except.ok.inj hE
      have hN := resN_acc hacc hpos.ne' a2 b2 (hW f1) (hW f2) (hW f3) (hW f4)
        (hD.slice i1) (hD.slice i2) (hD.slice i3) (hD.slice i4) f1 f2 f3 f4.le f4.nx f4.ny
      refine ⟨{ i1 := i1, i2 := i2, i3 := i3, i4 := i4, Ac := ac,
                Nxx := fun i => (π i).resN (ac i) (A' i) (B' i) (wr P1 i) (wr P2 i) (wr P3 i) ((fun i => weightRow (nodeIdx m) [i1, i2, i3, i4] (P4 i)) i) (dSlice (D i) i1) (dSlice (D i) i2) (dSlice (D i) i3) (dSlice (D i) i4) (P1 i) (P2 i) (P3 i) ((fun i => (P4 i).le) i) ((fun i => (P4 i).nx) i) ((fun i => (P4 i).ny) i) 0,
                Nyy := fun i => (π i).resN (ac i) (A' i) (B' i) (wr P1 i) (wr P2 i) (wr P3 i) ((fun i => weightRow (nodeIdx m) [i1, i2, i3, i4] (P4 i)) i) (dSlice (D i) i1) (dSlice (D i) i2) (dSlice (D i) i3) (dSlice (D i) i4) (P1 i) (P2 i) (P3 i) ((fun i => (P4 i).le) i) ((fun i => (P4 i).nx) i) ((fun i => (P4 i).ny) i) 1,
                Nxy := fun i => (π i).resN (ac i) (A' i) (B' i) (wr P1 i) (wr P2 i) (wr P3 i) ((fun i => weightRow (nodeIdx m) [i1, i2, i3, i4] (P4 i)) i) (dSlice (D i) i1) (dSlice (D i) i2) (dSlice (D i) i3) (dSlice (D i) i4) (P1 i) (P2 i) (P3 i) ((fun i => (P4 i).le) i) ((fun i => (P4 i).nx) i) ((fun i => (P4 i).ny) i) 2,
                f11 := fun i => wAt (weightRow (nodeIdx m) [i1, i2, i3, i4] (P1 i)) 0, f12 := fun i => wAt (weightRow (nodeIdx m) [i1, i2, i3, i4] (P1 i)) 1, f13 := fun i => wAt (weightRow (nodeIdx m) [i1, i2, i3, i4] (P1 i)) 2, f14 := fun i => wAt (weightRow (nodeIdx m) [i1, i2, i3, i4] (P1 i)) 3,
                f21 := fun i => wAt (weightRow (nodeIdx m) [i1, i2, i3, i4] (P2 i)) 0, f22 := fun i => wAt (weightRow (nodeIdx m) [i1, i2, i3, i4] (P2 i)) 1, f23 := fun i => wAt (weightRow (nodeIdx m) [i1, i2, i3, i4] (P2 i)) 2, f24 := fun i => wAt (weightRow (nodeIdx m) [i1, i2, i3, i4] (P2 i)) 3,
                f31 := fun i => wAt (weightRow (nodeIdx m) [i1, i2, i3, i4] (P3 i)) 0, f32 := fun i => wAt (weightRow (nodeIdx m) [i1, i2, i3, i4] (P3 i)) 1, f33 := fun i => wAt (weightRow (nodeIdx m) [i1, i2, i3, i4] (P3 i)) 2, f34 := fun i => wAt (weightRow (nodeIdx m) [i1, i2, i3, i4] (P3 i)) 3,
                f41 := fun i => wAt (weightRow (nodeIdx m) [i1, i2, i3, i4] (P4 i)) 0, f42 := fun i => wAt (weightRow (nodeIdx m) [i1, i2, i3, i4] (P4 i)) 1, f43 := fun i => wAt (weightRow (nodeIdx m) [i1, i2, i3, i4] (P4 i)) 2, f44 := fun i => wAt (weightRow (nodeIdx m) [i1, i2, i3, i4] (P4 i)) 3,
                le1 := fun i => (P1 i).le, le2 := fun i => (P2 i).le, le3 := fun i => (P3 i).le, le4 := fun i => (P4 i).le, nx1 := fun i => (P1 i).nx, nx2 := fun i => (P2 i).nx, nx3 := fun i => (P3 i).nx, nx4 := fun i => (P4 i).nx, ny1 := fun i => (P1 i).ny, ny2 := fun i => (P2 i).ny, ny3 := fun i => (P3 i).ny, ny4 := fun i => (P4 i).ny }, fun i => rfl, ?_, hpos.ne'⟩
      exact ⟨rfl, rfl, rfl, rfl, hacc, hN 0, hN 2, hN 1, hW f1 0, hW f1 1, hW f1 2, hW f1 3, hW f2 0, hW f2 1, hW f2 2, hW f2 3, hW f3 0, hW f3 1, hW f3 2, hW f3 3, hW f4 0, hW f4 1, hW f4 2, hW f4 3, f1.le, f2.le, f3.le, f4.le, f1.nx, f2.nx, f3.nx, f4.nx, f1.ny, f2.ny, f3.ny, f4.ny⟩
  · cases hE

theorem kGEdge_acc {m : Mesh} {pn : Bool} {M : ι → Mesh} (h : Ran π m pn M) {D : ι → List ℝ} {d : List ℝ} (hD : AccD π D d) {k : Key} (hk : k ∈ m.ekeys)
    {N : ι → Mat} {N0 : Mat} (hN : AccMat π N N0) (h0 : (kGEdge m d pn N0 k).2 = none) :
    (∀ᶠ i in smallU π, ((π i).kGEdge (M i) (D i) pn (N i) k).2 = none) ∧
    AccMat π (fun i => ((π i).kGEdge (M i) (D i) pn (N i) k).1) (kGEdge m d pn N0 k).1 := by
  obtain ⟨E, hE, hev⟩ := h.edge hk
  rcases henv : kGEnv m d pn (m.edge k) with er | E0
  · unfold kGEdge at h0; rw [henv] at h0; cases h0
  obtain ⟨E', e1, e2, e3⟩ := kGEnv_acc hE hD henv
  have hl : AccL π (fun i => kGEntries (K := Fl (π i)) (E'.map fun a => a i)) (kGEntries E0) := kGEntries_acc e2 e3
  have hx : kGEdge m d pn N0 k = N0.addAll (kGEntries E0) := by unfold kGEdge; rw [henv]
  rw [hx] at h0 ⊢
  obtain ⟨a1, a2⟩ := accL_addAll hl hN h0
  have hr : ∀ᶠ i in smallU π, (π i).kGEdge (M i) (D i) pn (N i) k = (π i).addAll (N i) (kGEntries (K := Fl (π i)) (E'.map fun a => a i)) := by
    filter_upwards [hev] with i hi
    have : (π i).kGEnv (M i) (D i) pn (E i) = (π i).kGEnv m (D i) pn (E i) := by rw [(h.like i).eta]; rfl
    unfold Rounding.kGEdge
    rw [hi, this, e1 i]
    rfl
  refine ⟨?_, a2.congr (hr.mono fun i hi => by rw [hi])⟩
  filter_upwards [hr, a1] with i x y
  rw [x]; exact y

/-- `calc_kG` with rounding on the meshes left by `calc_k0` -/
theorem calcKG_acc {m : Mesh} {pn : Bool} {M : ι → Mesh} (h : Ran π m pn M) {D : ι → List ℝ} {d : List ℝ} (hD : AccD π D d) {K : Mat}
    (hK : calcKG m d pn = .ok K) : ∃ F, (∀ i, (π i).calcKG (M i) (D i) pn = .ok (F i)) ∧ (∀ i, (F i).dim = K.dim) ∧ AccMat π F K := by
  have hl := fun i => Rounding.calcKG_like (R := Rounding.exact) (R' := π i) (h.like i) (hD.len i) pn
  simp only [Rounding.exact_calcKG, hK] at hl
  have hF : ∀ i, ∃ F, (π i).calcKG (M i) (D i) pn = .ok F := by
    intro i
    have := (hl i).1
    rcases hx : (π i).calcKG (M i) (D i) pn with e | F
    · rw [hx] at this; simp [Rounding.SameOutcome, Except.map] at this
    · exact ⟨F, rfl⟩
  choose F hF using hF
  refine ⟨F, hF, fun i => (hl i).2 K (F i) rfl (hF i), ?_⟩
  unfold calcKG at hK
  rcases x1 : matLoop (kGEdge m d pn) (Mat.zeros (d.length / 5 * 5)) m.ekeys with ⟨K1, _ | er⟩
  swap
  · rw [x1] at hK; cases hK
  rw [x1] at hK
  obtain rfl : K1 = K := Except.ok.inj hK
  have := matLoop_acc (π := π) (f := fun i => (π i).kGEdge (M i) (D i) pn) (g := kGEdge m d pn) m.ekeys
    (AccMat.const (Mat.zeros (d.length / 5 * 5))) (fun k hk {N N0} hN h0 => kGEdge_acc h hD hk hN h0) (by rw [x1])
  rw [x1] at this
  refine this.2.congr ?_
  filter_upwards [this.1] with i hi
  have := hF i
  unfold Rounding.calcKG at this
  rw [hD.len i, (h.like i).ekeys] at this
  rcases x2 : matLoop ((π i).kGEdge (M i) (D i) pn) (Mat.zeros (d.length / 5 * 5)) m.ekeys with ⟨K2, _ | er⟩
  · rw [x2] at this; exact (Except.ok.inj this).symm
  · rw [x2] at this; cases this

end Meshless
