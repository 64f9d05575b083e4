import Verif.Lemmas.MagK0
import Verif.Lemmas.FloatEnv

/-! The local variables of `calc_k0` with explicit bounds. -/

set_option autoImplicit false

namespace Meshless
open Spec Mg

variable {f : Fmt} {s : Units}

/-- the bounds of a profile are those of the computed numbers -/
def Prof.ok (p : Prof) : Bool :=
  decide (0 < p.σ) && (gAc p.σ p.G).dom (vA p) && (gL p.σ p.G).dom (vL p) && (gNN p.σ p.G).dom (vN p) && (gPr p.σ p.G grA).dom (vP p grA) &&
    (gPr p.σ p.G grB).dom (vP p grB) && (gPr p.σ p.G grD).dom (vP p grD) && decide (0 ≤ p.eL) && decide (0 ≤ p.eN) && okOr p.σ p.G

set_option maxHeartbeats 1000000 in
theorem k0Env_has {p : Prof} (hp : p.ok = true) {m : Mesh} {pn : Bool} {gg : Geo} {e : Edge} (h : HasGeo s p.σ p.G gg e)
    (pA : ∀ A, edgeProp m pn e Lam.A = .ok A → ∃ B, f.edgeProp m pn e gg.Ac Lam.A = .ok B ∧ ∀ a b, (vP p grA).Has s (B a b) (A a b))
    (pB : ∀ A, edgeProp m pn e Lam.B = .ok A → ∃ B, f.edgeProp m pn e gg.Ac Lam.B = .ok B ∧ ∀ a b, (vP p grB).Has s (B a b) (A a b))
    (pD : ∀ A, edgeProp m pn e Lam.D = .ok A → ∃ B, f.edgeProp m pn e gg.Ac Lam.D = .ok B ∧ ∀ a b, (vP p grD).Has s (B a b) (A a b))
    {E0 : K0Env ℝ} (hE : k0Env m pn e = .ok E0) : ∃ c, f.k0Env m pn e gg = .ok c ∧ HasEnv s p c E0 := by
  simp only [Prof.ok, Bool.and_eq_true, decide_eq_true_eq] at hp
  obtain ⟨⟨⟨⟨⟨⟨⟨⟨⟨hσ, hA0⟩, hL⟩, hN⟩, -⟩, -⟩, -⟩, h0L⟩, h0N⟩, -⟩ := hp
  have zL : (vL p).Has s (.fin 0) 0 := Has.zero (by norm_num [vL]) h0L (by norm_num [vL])
  have zN : (vN p).Has s (.fin 0) 0 := Has.zero (by norm_num [vN]) h0N (by norm_num [vN])
  have z4 : ∀ j, gF.Has s (Fmt.wAt (List.replicate 4 (.fin 0)) j) (wAt (List.replicate 4 0) j) := fun j => by
    unfold Fmt.wAt wAt
    simp only [List.getD_eq_getElem?_getD, List.getElem?_replicate]
    split <;> exact gF0
  obtain ⟨l, hl, hacc⟩ := h.Ac
  have hF := h.ipts
  unfold Fmt.k0Env
  unfold k0Env at hE
  have h1 : iptsIndexed m (gg.ipts.map FPt.ids) = iptsIndexed m e.ipts := iptsIndexed_like rfl (hasPt_like hF)
  have h2 : iptIndices (nodeIdx m) (gg.ipts.map FPt.ids) = iptIndices (nodeIdx m) e.ipts := iptIndices_like (hasPt_like hF) _
  have h3 : gg.ipts.length = e.ipts.length := hF.length_eq
  simp only [h1, h2, h3]
  rw [hl] at hE
  split at hE
  · cases hE
  rename_i q1
  simp only [if_neg q1]
  split at hE
  · cases hE
  rename_i q2
  simp only [if_neg q2]
  split at hE
  · cases hE
  rename_i q3
  simp only [if_neg q3]
  dsimp only at hE ⊢
  split at hE
  · rename_i i1 i2 i3 i4 hix
    rw [hix] at hE
    simp only [hix]
    rcases hA : edgeProp m pn e Lam.A with er | A
    · rw [hA] at hE; revert hE; split <;> intro hE <;> cases hE
    rcases hB : edgeProp m pn e Lam.B with er | B
    · rw [hA, hB] at hE; revert hE; split <;> intro hE <;> cases hE
    rcases hD : edgeProp m pn e Lam.D with er | D
    · rw [hA, hB, hD] at hE; revert hE; split <;> intro hE <;> cases hE
    obtain ⟨A', a1, a2⟩ := pA A hA
    obtain ⟨B', b1, b2⟩ := pB B hB
    obtain ⟨D', d1, d2⟩ := pD D hD
    simp only [a1, b1, d1]
    rw [hA, hB, hD] at hE
    generalize e.ipts = L at hE hF
    generalize gg.ipts = LL at hF
    cases hF with
    | nil => cases hE
    | @cons P1 p1 _ _ f1 hF =>
    cases hF with
    | nil => cases hE
    | @cons P2 p2 _ _ f2 hF =>
    cases hF with
    | nil => cases hE
    | @cons P3 p3 _ _ f3 hF =>
    dsimp only at hE
    have hW := fun {P : FPt} {q : IPt} (f : HasPt s p.σ p.G P q) j => weight_has f (nodeIdx m) [i1, i2, i3, i4] j
    cases hF with
    | nil =>
      obtain rfl := Except.ok.inj hE
      refine ⟨{ i1 := i1, i2 := i2, i3 := i3, i4 := i4, Ac := gg.Ac, A11 := A' 0 0, A12 := A' 0 1, A16 := A' 0 2, A22 := A' 1 1, A26 := A' 1 2, A66 := A' 2 2, B11 := B' 0 0, B12 := B' 0 1, B16 := B' 0 2, B22 := B' 1 1, B26 := B' 1 2, B66 := B' 2 2, D11 := D' 0 0, D12 := D' 0 1, D16 := D' 0 2, D22 := D' 1 1, D26 := D' 1 2, D66 := D' 2 2, f11 := Fmt.wAt (Fmt.weightRow (nodeIdx m) [i1, i2, i3, i4] P1) 0, f12 := Fmt.wAt (Fmt.weightRow (nodeIdx m) [i1, i2, i3, i4] P1) 1, f13 := Fmt.wAt (Fmt.weightRow (nodeIdx m) [i1, i2, i3, i4] P1) 2, f14 := Fmt.wAt (Fmt.weightRow (nodeIdx m) [i1, i2, i3, i4] P1) 3, f21 := Fmt.wAt (Fmt.weightRow (nodeIdx m) [i1, i2, i3, i4] P2) 0, f22 := Fmt.wAt (Fmt.weightRow (nodeIdx m) [i1, i2, i3, i4] P2) 1, f23 := Fmt.wAt (Fmt.weightRow (nodeIdx m) [i1, i2, i3, i4] P2) 2, f24 := Fmt.wAt (Fmt.weightRow (nodeIdx m) [i1, i2, i3, i4] P2) 3, f31 := Fmt.wAt (Fmt.weightRow (nodeIdx m) [i1, i2, i3, i4] P3) 0, f32 := Fmt.wAt (Fmt.weightRow (nodeIdx m) [i1, i2, i3, i4] P3) 1, f33 := Fmt.wAt (Fmt.weightRow (nodeIdx m) [i1, i2, i3, i4] P3) 2, f34 := Fmt.wAt (Fmt.weightRow (nodeIdx m) [i1, i2, i3, i4] P3) 3, f41 := Fmt.wAt (List.replicate 4 (.fin 0)) 0, f42 := Fmt.wAt (List.replicate 4 (.fin 0)) 1, f43 := Fmt.wAt (List.replicate 4 (.fin 0)) 2, f44 := Fmt.wAt (List.replicate 4 (.fin 0)) 3, le1 := P1.le, le2 := P2.le, le3 := P3.le, le4 := .fin 0, nx1 := P1.nx, nx2 := P2.nx, nx3 := P3.nx, nx4 := .fin 0, ny1 := P1.ny, ny2 := P2.ny, ny3 := P3.ny, ny4 := .fin 0 }, rfl, ?_⟩
      exact ⟨rfl, rfl, rfl, rfl, hacc.dom hA0, a2 _ _, a2 _ _, a2 _ _, a2 _ _, a2 _ _, a2 _ _, b2 _ _, b2 _ _, b2 _ _, b2 _ _, b2 _ _, b2 _ _, d2 _ _, d2 _ _, d2 _ _, d2 _ _, d2 _ _, d2 _ _, hW f1 0, hW f1 1, hW f1 2, hW f1 3, hW f2 0, hW f2 1, hW f2 2, hW f2 3, hW f3 0, hW f3 1, hW f3 2, hW f3 3, z4 0, z4 1, z4 2, z4 3, f1.le.dom hL, f2.le.dom hL, f3.le.dom hL, zL, f1.nx.dom hN, f2.nx.dom hN, f3.nx.dom hN, zN, f1.ny.dom hN, f2.ny.dom hN, f3.ny.dom hN, zN⟩
    | @cons P4 p4 _ _ f4 hF =>
      obtain rfl := Except.ok.inj hE
      refine ⟨{ i1 := i1, i2 := i2, i3 := i3, i4 := i4, Ac := gg.Ac, A11 := A' 0 0, A12 := A' 0 1, A16 := A' 0 2, A22 := A' 1 1, A26 := A' 1 2, A66 := A' 2 2, B11 := B' 0 0, B12 := B' 0 1, B16 := B' 0 2, B22 := B' 1 1, B26 := B' 1 2, B66 := B' 2 2, D11 := D' 0 0, D12 := D' 0 1, D16 := D' 0 2, D22 := D' 1 1, D26 := D' 1 2, D66 := D' 2 2, f11 := Fmt.wAt (Fmt.weightRow (nodeIdx m) [i1, i2, i3, i4] P1) 0, f12 := Fmt.wAt (Fmt.weightRow (nodeIdx m) [i1, i2, i3, i4] P1) 1, f13 := Fmt.wAt (Fmt.weightRow (nodeIdx m) [i1, i2, i3, i4] P1) 2, f14 := Fmt.wAt (Fmt.weightRow (nodeIdx m) [i1, i2, i3, i4] P1) 3, f21 := Fmt.wAt (Fmt.weightRow (nodeIdx m) [i1, i2, i3, i4] P2) 0, f22 := Fmt.wAt (Fmt.weightRow (nodeIdx m) [i1, i2, i3, i4] P2) 1, f23 := Fmt.wAt (Fmt.weightRow (nodeIdx m) [i1, i2, i3, i4] P2) 2, f24 := Fmt.wAt (Fmt.weightRow (nodeIdx m) [i1, i2, i3, i4] P2) 3, f31 := Fmt.wAt (Fmt.weightRow (nodeIdx m) [i1, i2, i3, i4] P3) 0, f32 := Fmt.wAt (Fmt.weightRow (nodeIdx m) [i1, i2, i3, i4] P3) 1, f33 := Fmt.wAt (Fmt.weightRow (nodeIdx m) [i1, i2, i3, i4] P3) 2, f34 := Fmt.wAt (Fmt.weightRow (nodeIdx m) [i1, i2, i3, i4] P3) 3, f41 := Fmt.wAt (Fmt.weightRow (nodeIdx m) [i1, i2, i3, i4] P4) 0, f42 := Fmt.wAt (Fmt.weightRow (nodeIdx m) [i1, i2, i3, i4] P4) 1, f43 := Fmt.wAt (Fmt.weightRow (nodeIdx m) [i1, i2, i3, i4] P4) 2, f44 := Fmt.wAt (Fmt.weightRow (nodeIdx m) [i1, i2, i3, i4] P4) 3, le1 := P1.le, le2 := P2.le, le3 := P3.le, le4 := P4.le, nx1 := P1.nx, nx2 := P2.nx, nx3 := P3.nx, nx4 := P4.nx, ny1 := P1.ny, ny2 := P2.ny, ny3 := P3.ny, ny4 := P4.ny }, rfl, ?_⟩
      exact ⟨rfl, rfl, rfl, rfl, hacc.dom hA0, a2 _ _, a2 _ _, a2 _ _, a2 _ _, a2 _ _, a2 _ _, b2 _ _, b2 _ _, b2 _ _, b2 _ _, b2 _ _, b2 _ _, d2 _ _, d2 _ _, d2 _ _, d2 _ _, d2 _ _, d2 _ _, hW f1 0, hW f1 1, hW f1 2, hW f1 3, hW f2 0, hW f2 1, hW f2 2, hW f2 3, hW f3 0, hW f3 1, hW f3 2, hW f3 3, hW f4 0, hW f4 1, hW f4 2, hW f4 3, f1.le.dom hL, f2.le.dom hL, f3.le.dom hL, f4.le.dom hL, f1.nx.dom hN, f2.nx.dom hN, f3.nx.dom hN, f4.nx.dom hN, f1.ny.dom hN, f2.ny.dom hN, f3.ny.dom hN, f4.ny.dom hN⟩
  · cases hE

end Meshless
