import Verif.Lemmas.MagKG
import Verif.Lemmas.MagRun
import Verif.Lemmas.FloatKG

/-! The local variables of `calc_kG` with explicit bounds. -/

set_option autoImplicit false

namespace Meshless
open Spec Mg

variable {f : Fmt} {s : Units}

/-- displacements and rotations -/
def gU : Mg := inp ⟨1, -1, 0, 1⟩ (1 / 1024)
def gR : Mg := inp ⟨1, 0, -1, 1⟩ (1 / 1024)

section
variable (p : Prof)
def gDc (u : Mg) : Mg := gF * u + gF * u + gF * u + gF * u
def gSx (u : Mg) : Mg := vL p * vN p * gDc u + vL p * vN p * gDc u + vL p * vN p * gDc u + vL p * vN p * gDc u
def gShr (u : Mg) : Mg := vL p * (vN p * gDc u + vN p * gDc u)
def gSxy (u : Mg) : Mg := gShr p u + gShr p u + gShr p u + gShr p u
def gInv : Mg := inp ⟨0, 0, 0, 0⟩ 1 / vA p
/-- the membrane forces -/
def gForce : Mg :=
  vP p grA * (gInv p * gSx p gU) + vP p grA * (gInv p * gSx p gU) + vP p grA * (gInv p * gSxy p gU) +
    (vP p grB * (gInv p * gSx p gR) + vP p grB * (gInv p * gSx p gR) + vP p grB * (gInv p * gSxy p gR))
end

/-- the bounds of a profile are those of the computed numbers -/
def GProf.ok (p : GProf) : Bool := p.p.ok && (gForce p.p).dom (vF p)

theorem resN_has (hf : Spec.Double f) {p : Prof} {ac : Flo} {l : ℝ} (hac : (vA p).Has s ac l) {A' B' : Fin 3 → Fin 3 → Flo} {A B : Fin 3 → Fin 3 → ℝ}
    (hA : ∀ a b, (vP p grA).Has s (A' a b) (A a b)) (hB : ∀ a b, (vP p grB).Has s (B' a b) (B a b))
    {F1 F2 F3 F4 : List Flo} {f1 f2 f3 f4 : List ℝ} (h1 : ∀ j, gF.Has s (Fmt.wAt F1 j) (wAt f1 j)) (h2 : ∀ j, gF.Has s (Fmt.wAt F2 j) (wAt f2 j))
    (h3 : ∀ j, gF.Has s (Fmt.wAt F3 j) (wAt f3 j)) (h4 : ∀ j, gF.Has s (Fmt.wAt F4 j) (wAt f4 j)) {d1 d2 d3 d4 : List ℝ} {P1 P2 P3 : FPt} {p1 p2 p3 : IPt}
    (gu : ∀ r < 2, gU.Has s (.fin (d1.getD r 0)) (d1.getD r 0) ∧ gU.Has s (.fin (d2.getD r 0)) (d2.getD r 0) ∧ gU.Has s (.fin (d3.getD r 0)) (d3.getD r 0) ∧
      gU.Has s (.fin (d4.getD r 0)) (d4.getD r 0))
    (gr : ∀ r, r = 3 ∨ r = 4 → gR.Has s (.fin (d1.getD r 0)) (d1.getD r 0) ∧ gR.Has s (.fin (d2.getD r 0)) (d2.getD r 0) ∧
      gR.Has s (.fin (d3.getD r 0)) (d3.getD r 0) ∧ gR.Has s (.fin (d4.getD r 0)) (d4.getD r 0))
    (l1 : (vL p).Has s P1.le p1.le) (x1 : (vN p).Has s P1.nx p1.nx) (y1 : (vN p).Has s P1.ny p1.ny)
    (l2 : (vL p).Has s P2.le p2.le) (x2 : (vN p).Has s P2.nx p2.nx) (y2 : (vN p).Has s P2.ny p2.ny)
    (l3 : (vL p).Has s P3.le p3.le) (x3 : (vN p).Has s P3.nx p3.nx) (y3 : (vN p).Has s P3.ny p3.ny)
    {le4 nx4 ny4 : Flo} {e4 x4' y4' : ℝ} (l4 : (vL p).Has s le4 e4) (x4 : (vN p).Has s nx4 x4') (y4 : (vN p).Has s ny4 y4') (a : Fin 3) :
    (gForce p).Has s (f.resN ac A' B' F1 F2 F3 F4 d1 d2 d3 d4 P1 P2 P3 le4 nx4 ny4 a)
      (Rounding.exact.resN l A B f1 f2 f3 f4 d1 d2 d3 d4 p1 p2 p3 e4 x4' y4' a) := by
  have c : ∀ {F : List Flo} {w : List ℝ}, (∀ j, gF.Has s (Fmt.wAt F j) (wAt w j)) → ∀ {g : Mg} {r}, (g.Has s (.fin (d1.getD r 0)) (d1.getD r 0) ∧
      g.Has s (.fin (d2.getD r 0)) (d2.getD r 0) ∧ g.Has s (.fin (d3.getD r 0)) (d3.getD r 0) ∧ g.Has s (.fin (d4.getD r 0)) (d4.getD r 0)) →
      (gDc g).Has s (f.dcAt F d1 d2 d3 d4 r) (dcAt w d1 d2 d3 d4 r) := fun {_ _} h {g r} hg =>
    ((((h 0).mul hf hg.1).add hf ((h 1).mul hf hg.2.1)).add hf ((h 2).mul hf hg.2.2.1)).add hf ((h 3).mul hf hg.2.2.2)
  have hi : (gInv p).Has s (f.div (.fin 1) ac) (1 / l) := (Has.inp (by simp [Units.U])).div hf hac
  have sx := fun {g : Mg} {r} hg => (((((l1.mul hf x1).mul hf (c h1 (g := g) (r := r) hg)).add hf ((l2.mul hf x2).mul hf (c h2 hg))).add hf ((l3.mul hf x3).mul hf (c h3 hg))).add hf
    ((l4.mul hf x4).mul hf (c h4 hg)))
  have sy := fun {g : Mg} {r} hg => (((((l1.mul hf y1).mul hf (c h1 (g := g) (r := r) hg)).add hf ((l2.mul hf y2).mul hf (c h2 hg))).add hf ((l3.mul hf y3).mul hf (c h3 hg))).add hf
    ((l4.mul hf y4).mul hf (c h4 hg)))
  have sxy := fun {g : Mg} {r t} hr ht =>
    ((((l1.mul hf ((y1.mul hf (c h1 (g := g) (r := r) hr)).add hf (x1.mul hf (c h1 (g := g) (r := t) ht)))).add hf
      (l2.mul hf ((y2.mul hf (c h2 hr)).add hf (x2.mul hf (c h2 ht))))).add hf
      (l3.mul hf ((y3.mul hf (c h3 hr)).add hf (x3.mul hf (c h3 ht))))).add hf
      (l4.mul hf ((y4.mul hf (c h4 hr)).add hf (x4.mul hf (c h4 ht)))))
  have u0 := gu 0 (by norm_num)
  have u1 := gu 1 (by norm_num)
  have r3 := gr 3 (by norm_num)
  have r4 := gr 4 (by norm_num)
  exact ((((hA a 0).mul hf (hi.mul hf (sx u0))).add hf ((hA a 1).mul hf (hi.mul hf (sy u1)))).add hf ((hA a 2).mul hf (hi.mul hf (sxy u0 u1)))).add hf
    ((((hB a 0).mul hf (hi.mul hf (sx r3))).add hf ((hB a 1).mul hf (hi.mul hf (sy r4)))).add hf ((hB a 2).mul hf (hi.mul hf (sxy r3 r4))))

set_option maxHeartbeats 1000000 in
theorem kGEnv_mag (hf : Spec.Double f) {p : GProf} (hpp : p.ok = true) {m : Mesh} {d : List ℝ} {pn : Bool} {gg : Geo} {e : Edge} (h : HasGeo s p.p.σ p.p.G gg e)
    (pA : ∀ A, edgeProp m pn e Lam.A = .ok A → ∃ B, f.edgeProp m pn e gg.Ac Lam.A = .ok B ∧ ∀ a b, (vP p.p grA).Has s (B a b) (A a b))
    (pB : ∀ A, edgeProp m pn e Lam.B = .ok A → ∃ B, f.edgeProp m pn e gg.Ac Lam.B = .ok B ∧ ∀ a b, (vP p.p grB).Has s (B a b) (A a b))
    (hu : ∀ i : ℤ, ∀ r < 2, gU.Has s (.fin ((dSlice d i).getD r 0)) ((dSlice d i).getD r 0))
    (hv : ∀ i : ℤ, ∀ r, r = 3 ∨ r = 4 → gR.Has s (.fin ((dSlice d i).getD r 0)) ((dSlice d i).getD r 0))
    {E0 : KGEnv ℝ} (hE : kGEnv m d pn e = .ok E0) : ∃ c, f.kGEnv m d pn e gg = .ok c ∧ HasKG s p c E0 := by
  obtain ⟨hp, hFo⟩ := Bool.and_eq_true_iff.1 hpp
  simp only [Prof.ok, Bool.and_eq_true, decide_eq_true_eq] at hp
  obtain ⟨⟨⟨⟨⟨⟨⟨⟨⟨hσ, hA0⟩, hL⟩, hN⟩, -⟩, -⟩, -⟩, h0L⟩, h0N⟩, -⟩ := hp
  have zL : (vL p.p).Has s (.fin 0) 0 := Has.zero (by norm_num [vL]) h0L (by norm_num [vL])
  have zN : (vN p.p).Has s (.fin 0) 0 := Has.zero (by norm_num [vN]) h0N (by norm_num [vN])
  have z4 : ∀ j, gF.Has s (Fmt.wAt (List.replicate 4 (.fin 0)) j) (wAt (List.replicate 4 0) j) := fun j => by
    unfold Fmt.wAt wAt
    simp only [List.getD_eq_getElem?_getD, List.getElem?_replicate]
    split <;> exact gF0
  obtain ⟨l, hl, hacc⟩ := h.Ac
  have hac := hacc.dom hA0
  have hF := h.ipts
  unfold Fmt.kGEnv
  unfold kGEnv at hE
  have h1 : iptsIndexed m (gg.ipts.map FPt.ids) = iptsIndexed m e.ipts := iptsIndexed_like rfl (hasPt_like hF)
  have h2 : iptIndices (nodeIdx m) (gg.ipts.map FPt.ids) = iptIndices (nodeIdx m) e.ipts := iptIndices_like (hasPt_like hF) _
  have h3 : gg.ipts.length = e.ipts.length := hF.length_eq
  simp only [h1, h2, h3]
  rw [hl] at hE
  split at hE
  · cases hE
  rename_i q1
  simp only [if_neg q1]
  split at hE
  · cases hE
  rename_i q2
  simp only [if_neg q2]
  split at hE
  · cases hE
  rename_i q3
  simp only [if_neg q3]
  dsimp only at hE ⊢
  split at hE
  · rename_i i1 i2 i3 i4 hix
    rw [hix] at hE
    simp only [hix]
    rcases hA : edgeProp m pn e Lam.A with er | A
    · rw [hA] at hE; revert hE; split <;> intro hE <;> cases hE
    rcases hB : edgeProp m pn e Lam.B with er | B
    · rw [hA, hB] at hE; revert hE; split <;> intro hE <;> cases hE
    obtain ⟨A', a1, a2⟩ := pA A hA
    obtain ⟨B', b1, b2⟩ := pB B hB
    simp only [a1, b1]
    rw [hA, hB] at hE
    generalize e.ipts = L at hE hF
    generalize gg.ipts = LL at hF
    cases hF with
    | nil => cases hE
    | @cons P1 p1 _ _ f1 hF =>
    cases hF with
    | nil => cases hE
    | @cons P2 p2 _ _ f2 hF =>
    cases hF with
    | nil => cases hE
    | @cons P3 p3 _ _ f3 hF =>
    dsimp only at hE
    split at hE
    swap
    · split at hE <;> cases hE
    rename_i hlen
    simp only [if_pos hlen]
    have hW := fun {P : FPt} {q : IPt} (f : HasPt s p.p.σ p.p.G P q) j => weight_has f (nodeIdx m) [i1, i2, i3, i4] j
    have du := fun r hr => And.intro (hu i1 r hr) (And.intro (hu i2 r hr) (And.intro (hu i3 r hr) (hu i4 r hr)))
    have dv := fun r hr => And.intro (hv i1 r hr) (And.intro (hv i2 r hr) (And.intro (hv i3 r hr) (hv i4 r hr)))
    cases hF with
    | nil =>
      obtain rfl := Except.ok.inj hE
      have hN4 := fun i => (resN_has hf hac a2 b2 (hW f1) (hW f2) (hW f3) z4 du dv (f1.le.dom hL) (f1.nx.dom hN) (f1.ny.dom hN) (f2.le.dom hL) (f2.nx.dom hN) (f2.ny.dom hN)
        (f3.le.dom hL) (f3.nx.dom hN) (f3.ny.dom hN) zL zN zN i).dom hFo
      refine ⟨{ i1 := i1, i2 := i2, i3 := i3, i4 := i4, Ac := gg.Ac, Nxx := f.resN gg.Ac A' B' (Fmt.weightRow (nodeIdx m) [i1, i2, i3, i4] P1) (Fmt.weightRow (nodeIdx m) [i1, i2, i3, i4] P2) (Fmt.weightRow (nodeIdx m) [i1, i2, i3, i4] P3) (List.replicate 4 (.fin 0)) (dSlice d i1) (dSlice d i2) (dSlice d i3) (dSlice d i4) P1 P2 P3 (.fin 0) (.fin 0) (.fin 0) 0, Nyy := f.resN gg.Ac A' B' (Fmt.weightRow (nodeIdx m) [i1, i2, i3, i4] P1) (Fmt.weightRow (nodeIdx m) [i1, i2, i3, i4] P2) (Fmt.weightRow (nodeIdx m) [i1, i2, i3, i4] P3) (List.replicate 4 (.fin 0)) (dSlice d i1) (dSlice d i2) (dSlice d i3) (dSlice d i4) P1 P2 P3 (.fin 0) (.fin 0) (.fin 0) 1, Nxy := f.resN gg.Ac A' B' (Fmt.weightRow (nodeIdx m) [i1, i2, i3, i4] P1) (Fmt.weightRow (nodeIdx m) [i1, i2, i3, i4] P2) (Fmt.weightRow (nodeIdx m) [i1, i2, i3, i4] P3) (List.replicate 4 (.fin 0)) (dSlice d i1) (dSlice d i2) (dSlice d i3) (dSlice d i4) P1 P2 P3 (.fin 0) (.fin 0) (.fin 0) 2, f11 := Fmt.wAt (Fmt.weightRow (nodeIdx m) [i1, i2, i3, i4] P1) 0, f12 := Fmt.wAt (Fmt.weightRow (nodeIdx m) [i1, i2, i3, i4] P1) 1, f13 := Fmt.wAt (Fmt.weightRow (nodeIdx m) [i1, i2, i3, i4] P1) 2, f14 := Fmt.wAt (Fmt.weightRow (nodeIdx m) [i1, i2, i3, i4] P1) 3, f21 := Fmt.wAt (Fmt.weightRow (nodeIdx m) [i1, i2, i3, i4] P2) 0, f22 := Fmt.wAt (Fmt.weightRow (nodeIdx m) [i1, i2, i3, i4] P2) 1, f23 := Fmt.wAt (Fmt.weightRow (nodeIdx m) [i1, i2, i3, i4] P2) 2, f24 := Fmt.wAt (Fmt.weightRow (nodeIdx m) [i1, i2, i3, i4] P2) 3, f31 := Fmt.wAt (Fmt.weightRow (nodeIdx m) [i1, i2, i3, i4] P3) 0, f32 := Fmt.wAt (Fmt.weightRow (nodeIdx m) [i1, i2, i3, i4] P3) 1, f33 := Fmt.wAt (Fmt.weightRow (nodeIdx m) [i1, i2, i3, i4] P3) 2, f34 := Fmt.wAt (Fmt.weightRow (nodeIdx m) [i1, i2, i3, i4] P3) 3, f41 := Fmt.wAt (List.replicate 4 (.fin 0)) 0, f42 := Fmt.wAt (List.replicate 4 (.fin 0)) 1, f43 := Fmt.wAt (List.replicate 4 (.fin 0)) 2, f44 := Fmt.wAt (List.replicate 4 (.fin 0)) 3, le1 := P1.le, le2 := P2.le, le3 := P3.le, le4 := (.fin 0), nx1 := P1.nx, nx2 := P2.nx, nx3 := P3.nx, nx4 := (.fin 0), ny1 := P1.ny, ny2 := P2.ny, ny3 := P3.ny, ny4 := (.fin 0) }, rfl, ?_⟩
      exact ⟨rfl, rfl, rfl, rfl, hac, hN4 0, hN4 2, hN4 1, hW f1 0, hW f1 1, hW f1 2, hW f1 3, hW f2 0, hW f2 1, hW f2 2, hW f2 3, hW f3 0, hW f3 1, hW f3 2, hW f3 3, z4 0, z4 1, z4 2, z4 3, f1.le.dom hL, f2.le.dom hL, f3.le.dom hL, zL,
        f1.nx.dom hN, f2.nx.dom hN, f3.nx.dom hN, zN, f1.ny.dom hN, f2.ny.dom hN, f3.ny.dom hN, zN⟩
    | @cons P4 p4 _ _ f4 hF =>
      obtain rfl := Except.ok.inj hE
      have hN4 := fun i => (resN_has hf hac a2 b2 (hW f1) (hW f2) (hW f3) (hW f4) du dv (f1.le.dom hL) (f1.nx.dom hN) (f1.ny.dom hN) (f2.le.dom hL) (f2.nx.dom hN) (f2.ny.dom hN)
        (f3.le.dom hL) (f3.nx.dom hN) (f3.ny.dom hN) (f4.le.dom hL) (f4.nx.dom hN) (f4.ny.dom hN) i).dom hFo
      refine ⟨{ i1 := i1, i2 := i2, i3 := i3, i4 := i4, Ac := gg.Ac, Nxx := f.resN gg.Ac A' B' (Fmt.weightRow (nodeIdx m) [i1, i2, i3, i4] P1) (Fmt.weightRow (nodeIdx m) [i1, i2, i3, i4] P2) (Fmt.weightRow (nodeIdx m) [i1, i2, i3, i4] P3) (Fmt.weightRow (nodeIdx m) [i1, i2, i3, i4] P4) (dSlice d i1) (dSlice d i2) (dSlice d i3) (dSlice d i4) P1 P2 P3 P4.le P4.nx P4.ny 0, Nyy := f.resN gg.Ac A' B' (Fmt.weightRow (nodeIdx m) [i1, i2, i3, i4] P1) (Fmt.weightRow (nodeIdx m) [i1, i2, i3, i4] P2) (Fmt.weightRow (nodeIdx m) [i1, i2, i3, i4] P3) (Fmt.weightRow (nodeIdx m) [i1, i2, i3, i4] P4) (dSlice d i1) (dSlice d i2) (dSlice d i3) (dSlice d i4) P1 P2 P3 P4.le P4.nx P4.ny 1, Nxy := f.resN gg.Ac A' B' (Fmt.weightRow (nodeIdx m) [i1, i2, i3, i4] P1) (Fmt.weightRow (nodeIdx m) [i1, i2, i3, i4] P2) (Fmt.weightRow (nodeIdx m) [i1, i2, i3, i4] P3) (Fmt.weightRow (nodeIdx m) [i1, i2, i3, i4] P4) (dSlice d i1) (dSlice d i2) (dSlice d i3) (dSlice d i4) P1 P2 P3 P4.le P4.nx P4.ny 2, f11 := Fmt.wAt (Fmt.weightRow (nodeIdx m) [i1, i2, i3, i4] P1) 0, f12 := Fmt.wAt (Fmt.weightRow (nodeIdx m) [i1, i2, i3, i4] P1) 1, f13 := Fmt.wAt (Fmt.weightRow (nodeIdx m) [i1, i2, i3, i4] P1) 2, f14 := Fmt.wAt (Fmt.weightRow (nodeIdx m) [i1, i2, i3, i4] P1) 3, f21 := Fmt.wAt (Fmt.weightRow (nodeIdx m) [i1, i2, i3, i4] P2) 0, f22 := Fmt.wAt (Fmt.weightRow (nodeIdx m) [i1, i2, i3, i4] P2) 1, f23 := Fmt.wAt (Fmt.weightRow (nodeIdx m) [i1, i2, i3, i4] P2) 2, f24 := Fmt.wAt (Fmt.weightRow (nodeIdx m) [i1, i2, i3, i4] P2) 3, f31 := Fmt.wAt (Fmt.weightRow (nodeIdx m) [i1, i2, i3, i4] P3) 0, f32 := Fmt.wAt (Fmt.weightRow (nodeIdx m) [i1, i2, i3, i4] P3) 1, f33 := Fmt.wAt (Fmt.weightRow (nodeIdx m) [i1, i2, i3, i4] P3) 2, f34 := Fmt.wAt (Fmt.weightRow (nodeIdx m) [i1, i2, i3, i4] P3) 3, f41 := Fmt.wAt (Fmt.weightRow (nodeIdx m) [i1, i2, i3, i4] P4) 0, f42 := Fmt.wAt (Fmt.weightRow (nodeIdx m) [i1, i2, i3, i4] P4) 1, f43 := Fmt.wAt (Fmt.weightRow (nodeIdx m) [i1, i2, i3, i4] P4) 2, f44 := Fmt.wAt (Fmt.weightRow (nodeIdx m) [i1, i2, i3, i4] P4) 3, le1 := P1.le, le2 := P2.le, le3 := P3.le, le4 := P4.le, nx1 := P1.nx, nx2 := P2.nx, nx3 := P3.nx, nx4 := P4.nx, ny1 := P1.ny, ny2 := P2.ny, ny3 := P3.ny, ny4 := P4.ny }, rfl, ?_⟩
      exact ⟨rfl, rfl, rfl, rfl, hac, hN4 0, hN4 2, hN4 1, hW f1 0, hW f1 1, hW f1 2, hW f1 3, hW f2 0, hW f2 1, hW f2 2, hW f2 3, hW f3 0, hW f3 1, hW f3 2, hW f3 3, hW f4 0, hW f4 1, hW f4 2, hW f4 3, f1.le.dom hL, f2.le.dom hL, f3.le.dom hL, f4.le.dom hL,
        f1.nx.dom hN, f2.nx.dom hN, f3.nx.dom hN, f4.nx.dom hN, f1.ny.dom hN, f2.ny.dom hN, f3.ny.dom hN, f4.ny.dom hN⟩
  · cases hE

end Meshless
