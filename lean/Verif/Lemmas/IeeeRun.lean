import Verif.Lemmas.IeeeEnv
import Verif.Lemmas.IeeeKG
import Verif.Lemmas.FloatKG

/-! `calc_k0` and `calc_kG` in floating-point formats with special values, on planar meshes. -/

set_option autoImplicit false

namespace Meshless
open Filter Topology Spec

variable {ι : Type} {φ : ι → Fmt}

/-- the numbers `calc_k0` computes for an edge -/
theorem geo_lim {m : Mesh} (w : WF m) (hp : Proper m) (hg : Planar m) (hq : Prepared m) {pn : Bool} (hh : HasProps m pn) {k : Key} (hk : k ∈ m.ekeys) :
    ∃ G : ι → Geo, LimGeo φ G (m.edge k) ∧ ∀ᶠ i in good φ, (φ i).geo m (m.edge k) = G i := by
  obtain ⟨_, Ac, _, hd, _, hgeo, _⟩ := edgeGeoP w hp hg hq hh hk
  have hAc := hd.hAc
  have hpos := hgeo.pos
  rcases edge_shape w hp hk with ⟨t, o, h1, h2, h3⟩ | ⟨t1, t2, o1, o2, h1, h2, h3, h4, h5, h6, h7⟩
  · have he : m.edge k = bEdge m k t o := congrArg Prod.fst ((hq.geom k hk).symm.trans (geomEdge_boundary w hk h1 h3 h2.ino))
    have hi := side_indep hg h2
    refine ⟨fun i => (φ i).bGeo m t o (orient m (m.mid t) k.1 k.2), ?_, ?_⟩
    · refine bGeo_lim ?_ he ?_
      · rcases orient_cases m (m.mid t) k.1 k.2 with h | h <;> rw [h]
        · exact hi
        · exact hi.swap
      · exact lt_of_lt_of_eq hpos (Option.some.inj (he ▸ hAc : (bEdge m k t o).Ac = some Ac)).symm
    · filter_upwards [orient_lim (φ := φ) m t k.1 k.2 hi] with i hi'
      rw [he, ← hi']
      rfl
  · have he : m.edge k = iEdge m k t1 t2 o1 o2 := congrArg Prod.fst ((hq.geom k hk).symm.trans (geomEdge_interior w hk h1 h6 h2.ino h7 h3.ino))
    have hi1 := side_indep hg h2
    have hi2 := side_indep hg h3
    refine ⟨fun i => (φ i).iGeo m t1 t2 o1 o2 (orient m (m.mid t1) k.1 k.2), ?_, ?_⟩
    · refine iGeo_lim ?_ ?_ he ?_
      · rcases orient_cases m (m.mid t1) k.1 k.2 with h | h <;> rw [h]
        · exact hi1
        · exact hi1.swap
      · rcases orient_cases m (m.mid t1) k.1 k.2 with h | h <;> rw [h]
        · exact hi2
        · exact hi2.swap
      · exact lt_of_lt_of_eq hpos (Option.some.inj (he ▸ hAc : (iEdge m k t1 t2 o1 o2).Ac = some Ac)).symm
    · filter_upwards [orient_lim (φ := φ) m t1 k.1 k.2 hi1] with i hi'
      rw [he, ← hi']
      rfl

theorem k0Edge_lim {m : Mesh} (w : WF m) (hp : Proper m) (hg : Planar m) (hq : Prepared m) {pn : Bool} (hh : HasProps m pn) {k : Key} (hk : k ∈ m.ekeys)
    {N : ι → FMat} {N0 : Mat} (hN : LimMat φ N N0) (h0 : (k0Edge m pn N0 k).2 = none) :
    (∀ᶠ i in good φ, ((φ i).k0Edge m (fun k => (φ i).geo m (m.edge k)) pn (N i) k).2 = none) ∧
    LimMat φ (fun i => ((φ i).k0Edge m (fun k => (φ i).geo m (m.edge k)) pn (N i) k).1) (k0Edge m pn N0 k).1 := by
  obtain ⟨G, hG, hev⟩ := geo_lim (φ := φ) w hp hg hq hh hk
  obtain ⟨_, Ac, _, hd, _⟩ := edgeGeoP w hp hg hq hh hk
  obtain ⟨E0, henv, _⟩ := hd.env
  obtain ⟨E', e1, e2, e3⟩ := k0Env_lim hG henv
  refine step_lim (k0Entries_lim e2 e3) hN ?_ (by unfold k0Edge; rw [henv]) h0
  filter_upwards [hev] with i hi
  unfold Fmt.k0Edge
  dsimp only
  rw [hi, e1 i]
  rfl

theorem calcK0_fst (f : Fmt) (m : Mesh) (pn : Bool) :
    (f.calcK0 m pn).1 = (calcK0 m pn).1 ∧ (f.calcK0 m pn).2.1 = fun k => f.geo (calcK0 m pn).1 ((calcK0 m pn).1.edge k) := by
  unfold Fmt.calcK0 calcK0
  by_cases hm : m.ekeys.any (edgeMissing m pn)
  · rw [if_pos hm, if_pos hm]; exact ⟨rfl, rfl⟩
  rw [if_neg hm, if_neg hm]
  rcases geomPass m m.ekeys with ⟨m1, _ | e⟩
  · dsimp only
    by_cases hn : m1.nids = []
    · rw [if_pos hn, if_pos hn]; exact ⟨rfl, rfl⟩
    rw [if_neg hn, if_neg hn]
    split <;> split <;> exact ⟨rfl, rfl⟩
  · exact ⟨rfl, rfl⟩

theorem calcK0_snd (f : Fmt) {m : Mesh} {pn : Bool} {K : Mat} (h : (calcK0 m pn).2 = .ok K) :
    (f.calcK0 m pn).2.2 = match Fmt.loop (f.k0Edge (calcK0 m pn).1 (fun k => f.geo (calcK0 m pn).1 ((calcK0 m pn).1.edge k)) pn)
        (FMat.zeros ((calcK0 m pn).1.nids.length * 5)) (calcK0 m pn).1.ekeys with
      | (K, none) => .ok K
      | (_, some e) => .error e := by
  rw [← (calcK0_fst f m pn).2, ← (calcK0_fst f m pn).1]
  unfold calcK0 at h
  unfold Fmt.calcK0
  by_cases hm : m.ekeys.any (edgeMissing m pn)
  · rw [if_pos hm] at h; cases h
  rw [if_neg hm] at h ⊢
  revert h
  rcases geomPass m m.ekeys with ⟨m1, _ | e⟩
  · dsimp only
    by_cases hn : m1.nids = []
    · rw [if_pos hn]; intro h; cases h
    rw [if_neg hn, if_neg hn]
    intro _
    generalize hL : Fmt.loop (f.k0Edge (numberNodes m1 m1.nids 0) (fun k => f.geo (numberNodes m1 m1.nids 0) ((numberNodes m1 m1.nids 0).edge k)) pn)
        (FMat.zeros ((numberNodes m1 m1.nids 0).nids.length * 5)) (numberNodes m1 m1.nids 0).ekeys = a
    obtain ⟨N, _ | e⟩ := a <;> dsimp only <;> rw [hL]
  · intro h; cases h

/-- `calc_k0` on a planar mesh -/
theorem calcK0_lim (φ : ι → Fmt) {m : Mesh} (w : WF m) (hp : Proper m) (hg : Planar m) {pn : Bool} (hh : HasProps m pn) (hne : m.nids ≠ []) :
    ∃ K F, (calcK0 m pn).2 = .ok K ∧ (∀ᶠ i in good φ, ((φ i).calcK0 m pn).2.2 = .ok (F i)) ∧ LimMat φ F K := by
  obtain ⟨K, k1, k2, k3, k4, k5⟩ := calcK0_proper w hp hh hne
  have x1 := ((calcK0_cases m pn w).2 _ k1).2.2.2
  have := loop_lim (φ := φ) (f := fun i => (φ i).k0Edge (calcK0 m pn).1 (fun k => (φ i).geo (calcK0 m pn).1 ((calcK0 m pn).1.edge k)) pn)
    (g := k0Edge (calcK0 m pn).1 pn) m.ekeys (LimMat.zeros (m.nids.length * 5))
    (fun k hk {N N0} hN h0 => k0Edge_lim (k3.wf w) (k3.proper hp) (k3.planar hg) k4 (k3.hasProps hh) (k3.ekeys.symm ▸ hk) hN h0) (by rw [x1])
  rw [x1] at this
  refine ⟨K, _, k1, ?_, this.2⟩
  filter_upwards [this.1] with i hi
  rw [calcK0_snd _ k1, k3.nids, k3.ekeys]
  rcases hx : Fmt.loop ((φ i).k0Edge (calcK0 m pn).1 (fun k => (φ i).geo (calcK0 m pn).1 ((calcK0 m pn).1.edge k)) pn) (FMat.zeros (m.nids.length * 5)) m.ekeys with ⟨N, _ | e⟩
  · rfl
  · rw [hx] at hi; simp at hi

/-! ### calc_kG -/

theorem four_zero (j : ℕ) : Lim φ (fun _ => Fmt.wAt (List.replicate 4 (Flo.fin 0)) j) (wAt (List.replicate 4 0) j) := by
  unfold Fmt.wAt wAt
  simp only [List.getD_eq_getElem?_getD, List.getElem?_replicate]
  split <;> exact Lim.const _

/-- displacement vectors of one length with entries that tend to those of `d` -/
structure LimD (φ : ι → Fmt) (D : ι → List ℝ) (d : List ℝ) : Prop where
  len : ∀ i, (D i).length = d.length
  get : ∀ n, Lim φ (fun i => .fin ((D i).getD n 0)) (d.getD n 0)

theorem LimD.slice {D : ι → List ℝ} {d : List ℝ} (h : LimD φ D d) (a : ℤ) (r : ℕ) : Lim φ (fun i => .fin ((dSlice (D i) a).getD r 0)) ((dSlice d a).getD r 0) := by
  simp only [dSlice_getD]
  split
  · exact h.get _
  · exact Lim.const _

theorem resN_lim {ac : ι → Flo} {l : ℝ} (hac : Lim φ ac l) (hl : l ≠ 0) {A' B' : ι → Fin 3 → Fin 3 → Flo} {A B : Fin 3 → Fin 3 → ℝ}
    (hA : ∀ a b, Lim φ (fun i => A' i a b) (A a b)) (hB : ∀ a b, Lim φ (fun i => B' i a b) (B a b))
    {F1 F2 F3 F4 : ι → List Flo} {f1 f2 f3 f4 : List ℝ} (h1 : ∀ j, Lim φ (fun i => Fmt.wAt (F1 i) j) (wAt f1 j)) (h2 : ∀ j, Lim φ (fun i => Fmt.wAt (F2 i) j) (wAt f2 j))
    (h3 : ∀ j, Lim φ (fun i => Fmt.wAt (F3 i) j) (wAt f3 j)) (h4 : ∀ j, Lim φ (fun i => Fmt.wAt (F4 i) j) (wAt f4 j)) {d1 d2 d3 d4 : List ℝ}
    {D1 D2 D3 D4 : ι → List ℝ} (hd1 : ∀ r, Lim φ (fun i => .fin ((D1 i).getD r 0)) (d1.getD r 0)) (hd2 : ∀ r, Lim φ (fun i => .fin ((D2 i).getD r 0)) (d2.getD r 0))
    (hd3 : ∀ r, Lim φ (fun i => .fin ((D3 i).getD r 0)) (d3.getD r 0)) (hd4 : ∀ r, Lim φ (fun i => .fin ((D4 i).getD r 0)) (d4.getD r 0))
    {P1 P2 P3 : ι → FPt} {p1 p2 p3 : IPt}
    (q1 : LimPt φ P1 p1) (q2 : LimPt φ P2 p2) (q3 : LimPt φ P3 p3) {le4 nx4 ny4 : ι → Flo} {e4 x4 y4 : ℝ} (he : Lim φ le4 e4) (hx : Lim φ nx4 x4)
    (hy : Lim φ ny4 y4) (a : Fin 3) :
    Lim φ (fun i => (φ i).resN (ac i) (A' i) (B' i) (F1 i) (F2 i) (F3 i) (F4 i) (D1 i) (D2 i) (D3 i) (D4 i) (P1 i) (P2 i) (P3 i) (le4 i) (nx4 i) (ny4 i) a)
      (Rounding.exact.resN l A B f1 f2 f3 f4 d1 d2 d3 d4 p1 p2 p3 e4 x4 y4 a) := by
  have c : ∀ {F : ι → List Flo} {f : List ℝ}, (∀ j, Lim φ (fun i => Fmt.wAt (F i) j) (wAt f j)) → ∀ r,
      Lim φ (fun i => (φ i).dcAt (F i) (D1 i) (D2 i) (D3 i) (D4 i) r) (dcAt f d1 d2 d3 d4 r) := fun h r =>
    ((((h 0).mul (hd1 r)).add ((h 1).mul (hd2 r))).add ((h 2).mul (hd3 r))).add ((h 3).mul (hd4 r))
  have hi : Lim φ (fun i => (φ i).div (.fin 1) (ac i)) (1 / l) := (Lim.const 1).div hac hl
  have c1 := c h1
  have c2 := c h2
  have c3 := c h3
  have c4 := c h4
  have sx : ∀ r, Lim φ (fun i => (φ i).sum4 ((φ i).mul ((φ i).mul (P1 i).le (P1 i).nx) ((φ i).dcAt (F1 i) (D1 i) (D2 i) (D3 i) (D4 i) r)) _ _ _) _ := fun r =>
    ((((q1.le.mul q1.nx).mul (c1 r)).add ((q2.le.mul q2.nx).mul (c2 r))).add ((q3.le.mul q3.nx).mul (c3 r))).add ((he.mul hx).mul (c4 r))
  have sy : ∀ r, Lim φ (fun i => (φ i).sum4 ((φ i).mul ((φ i).mul (P1 i).le (P1 i).ny) ((φ i).dcAt (F1 i) (D1 i) (D2 i) (D3 i) (D4 i) r)) _ _ _) _ := fun r =>
    ((((q1.le.mul q1.ny).mul (c1 r)).add ((q2.le.mul q2.ny).mul (c2 r))).add ((q3.le.mul q3.ny).mul (c3 r))).add ((he.mul hy).mul (c4 r))
  have sxy : ∀ r s, Lim φ (fun i => (φ i).sum4 ((φ i).mul (P1 i).le ((φ i).add ((φ i).mul (P1 i).ny ((φ i).dcAt (F1 i) (D1 i) (D2 i) (D3 i) (D4 i) r)) _)) _ _ _) _ := fun r s =>
    (((q1.le.mul ((q1.ny.mul (c1 r)).add (q1.nx.mul (c1 s)))).add (q2.le.mul ((q2.ny.mul (c2 r)).add (q2.nx.mul (c2 s))))).add
      (q3.le.mul ((q3.ny.mul (c3 r)).add (q3.nx.mul (c3 s))))).add (he.mul ((hy.mul (c4 r)).add (hx.mul (c4 s))))
  exact ((((hA a 0).mul (hi.mul (sx 0))).add ((hA a 1).mul (hi.mul (sy 1)))).add ((hA a 2).mul (hi.mul (sxy 0 1)))).add
    ((((hB a 0).mul (hi.mul (sx 3))).add ((hB a 1).mul (hi.mul (sy 4)))).add ((hB a 2).mul (hi.mul (sxy 3 4))))

set_option maxHeartbeats 1000000 in
theorem kGEnv_lim {m : Mesh} {pn : Bool} {G : ι → Geo} {e : Edge} (h : LimGeo φ G e) {D : ι → List ℝ} {d : List ℝ} (hD : LimD φ D d) {E0 : KGEnv ℝ}
    (hE : kGEnv m d pn e = .ok E0) :
    ∃ E' : KGEnv (ι → Flo), (∀ i, (φ i).kGEnv m (D i) pn e (G i) = .ok (E'.map fun a => a i)) ∧ KGEnv.Rel (Lim φ) E' E0 ∧ E0.Ac ≠ 0 := by
  obtain ⟨l, hl, hacc, hpos⟩ := h.Ac
  obtain ⟨P, hP, hF⟩ := h.ipts
  have pA := fun A hA => edgeProp_lim (m := m) (pn := pn) h Lam.A (A := A) hA
  have pB := fun A hA => edgeProp_lim (m := m) (pn := pn) h Lam.B (A := A) hA
  unfold Fmt.kGEnv
  unfold kGEnv at hE
  have h1 : ∀ i, iptsIndexed m ((P.map (· i)).map FPt.ids) = iptsIndexed m e.ipts := fun i => iptsIndexed_like rfl (limPt_like hF i)
  have h2 : ∀ i, iptIndices (nodeIdx m) ((P.map (· i)).map FPt.ids) = iptIndices (nodeIdx m) e.ipts := fun i => iptIndices_like (limPt_like hF i) _
  have h3 : P.length = e.ipts.length := hF.length_eq
  simp only [hP, h1, h2, List.length_map, h3]
  rw [hl] at hE
  split at hE
  · cases hE
  rename_i q1
  simp only [if_neg q1]
  split at hE
  · cases hE
  rename_i q2
  simp only [if_neg q2]
  split at hE
  · cases hE
  rename_i q3
  simp only [if_neg q3]
  dsimp only at hE ⊢
  split at hE
  · rename_i i1 i2 i3 i4 hix
    rw [hix] at hE
    simp only [hix]
    rcases hA : edgeProp m pn e Lam.A with er | A
    · rw [hA] at hE; revert hE; split <;> intro hE <;> cases hE
    rcases hB : edgeProp m pn e Lam.B with er | B
    · rw [hA, hB] at hE; revert hE; split <;> intro hE <;> cases hE
    obtain ⟨A', a1, a2⟩ := pA A hA
    obtain ⟨B', b1, b2⟩ := pB B hB
    simp only [a1, b1]
    rw [hA, hB] at hE
    generalize e.ipts = L at hE hF
    cases hF with
    | nil => cases hE
    | @cons P1 p1 _ _ f1 hF =>
    cases hF with
    | nil => cases hE
    | @cons P2 p2 _ _ f2 hF =>
    cases hF with
    | nil => cases hE
    | @cons P3 p3 _ _ f3 hF =>
    dsimp only at hE
    split at hE
    swap
    · split at hE <;> cases hE
    rename_i hlen
    have hlen' : ∀ i, (dSlice (D i) i1).length = 5 ∧ (dSlice (D i) i2).length = 5 ∧ (dSlice (D i) i3).length = 5 ∧ (dSlice (D i) i4).length = 5 := fun i => by
      simp only [dSlice, List.length_take, List.length_drop, hD.len] at hlen ⊢
      exact hlen
    simp only [List.map_cons, if_pos (hlen' _)]
    have hW := fun {P : ι → FPt} {p : IPt} (f : LimPt φ P p) j => weight_lim f (nodeIdx m) [i1, i2, i3, i4] j
    let wr := fun (P : ι → FPt) i => Fmt.weightRow (nodeIdx m) [i1, i2, i3, i4] (P i)
    cases hF with
    | nil =>
      obtain rfl := Except.ok.inj hE
      have hN := resN_lim hacc hpos.ne' a2 b2 (hW f1) (hW f2) (hW f3) (F4 := fun _ => List.replicate 4 (Flo.fin 0)) (f4 := List.replicate 4 0) four_zero
        (hD.slice i1) (hD.slice i2) (hD.slice i3) (hD.slice i4) f1 f2 f3 (Lim.const 0) (Lim.const 0) (Lim.const 0)
      refine ⟨{ i1 := i1, i2 := i2, i3 := i3, i4 := i4, Ac := fun i => (G i).Ac,
                Nxx := fun i => (φ i).resN (G i).Ac (A' i) (B' i) (wr P1 i) (wr P2 i) (wr P3 i) ((fun _ => List.replicate 4 (Flo.fin 0)) i) (dSlice (D i) i1) (dSlice (D i) i2) (dSlice (D i) i3) (dSlice (D i) i4) (P1 i) (P2 i) (P3 i) ((fun _ => .fin 0) i) ((fun _ => .fin 0) i) ((fun _ => .fin 0) i) 0,
                Nyy := fun i => (φ i).resN (G i).Ac (A' i) (B' i) (wr P1 i) (wr P2 i) (wr P3 i) ((fun _ => List.replicate 4 (Flo.fin 0)) i) (dSlice (D i) i1) (dSlice (D i) i2) (dSlice (D i) i3) (dSlice (D i) i4) (P1 i) (P2 i) (P3 i) ((fun _ => .fin 0) i) ((fun _ => .fin 0) i) ((fun _ => .fin 0) i) 1,
                Nxy := fun i => (φ i).resN (G i).Ac (A' i) (B' i) (wr P1 i) (wr P2 i) (wr P3 i) ((fun _ => List.replicate 4 (Flo.fin 0)) i) (dSlice (D i) i1) (dSlice (D i) i2) (dSlice (D i) i3) (dSlice (D i) i4) (P1 i) (P2 i) (P3 i) ((fun _ => .fin 0) i) ((fun _ => .fin 0) i) ((fun _ => .fin 0) i) 2,
                f11 := fun i => Fmt.wAt (Fmt.weightRow (nodeIdx m) [i1, i2, i3, i4] (P1 i)) 0, f12 := fun i => Fmt.wAt (Fmt.weightRow (nodeIdx m) [i1, i2, i3, i4] (P1 i)) 1, f13 := fun i => Fmt.wAt (Fmt.weightRow (nodeIdx m) [i1, i2, i3, i4] (P1 i)) 2, f14 := fun i => Fmt.wAt (Fmt.weightRow (nodeIdx m) [i1, i2, i3, i4] (P1 i)) 3,
                f21 := fun i => Fmt.wAt (Fmt.weightRow (nodeIdx m) [i1, i2, i3, i4] (P2 i)) 0, f22 := fun i => Fmt.wAt (Fmt.weightRow (nodeIdx m) [i1, i2, i3, i4] (P2 i)) 1, f23 := fun i => Fmt.wAt (Fmt.weightRow (nodeIdx m) [i1, i2, i3, i4] (P2 i)) 2, f24 := fun i => Fmt.wAt (Fmt.weightRow (nodeIdx m) [i1, i2, i3, i4] (P2 i)) 3,
                f31 := fun i => Fmt.wAt (Fmt.weightRow (nodeIdx m) [i1, i2, i3, i4] (P3 i)) 0, f32 := fun i => Fmt.wAt (Fmt.weightRow (nodeIdx m) [i1, i2, i3, i4] (P3 i)) 1, f33 := fun i => Fmt.wAt (Fmt.weightRow (nodeIdx m) [i1, i2, i3, i4] (P3 i)) 2, f34 := fun i => Fmt.wAt (Fmt.weightRow (nodeIdx m) [i1, i2, i3, i4] (P3 i)) 3,
                f41 := fun _ => Fmt.wAt (List.replicate 4 (.fin 0)) 0, f42 := fun _ => Fmt.wAt (List.replicate 4 (.fin 0)) 1, f43 := fun _ => Fmt.wAt (List.replicate 4 (.fin 0)) 2, f44 := fun _ => Fmt.wAt (List.replicate 4 (.fin 0)) 3,
                le1 := fun i => (P1 i).le, le2 := fun i => (P2 i).le, le3 := fun i => (P3 i).le, le4 := fun _ => .fin 0, nx1 := fun i => (P1 i).nx, nx2 := fun i => (P2 i).nx, nx3 := fun i => (P3 i).nx, nx4 := fun _ => .fin 0, ny1 := fun i => (P1 i).ny, ny2 := fun i => (P2 i).ny, ny3 := fun i => (P3 i).ny, ny4 := fun _ => .fin 0 }, fun i => rfl, ?_, hpos.ne'⟩
      exact ⟨rfl, rfl, rfl, rfl, hacc, hN 0, hN 2, hN 1, hW f1 0, hW f1 1, hW f1 2, hW f1 3, hW f2 0, hW f2 1, hW f2 2, hW f2 3, hW f3 0, hW f3 1, hW f3 2, hW f3 3, four_zero 0, four_zero 1, four_zero 2, four_zero 3, f1.le, f2.le, f3.le, Lim.const _, f1.nx, f2.nx, f3.nx, Lim.const _, f1.ny, f2.ny, f3.ny, Lim.const _⟩
    | @cons P4 p4 _ _ f4 hF =>
      obtain rfl := Except.ok.inj hE
      have hN := resN_lim hacc hpos.ne' a2 b2 (hW f1) (hW f2) (hW f3) (hW f4)
        (hD.slice i1) (hD.slice i2) (hD.slice i3) (hD.slice i4) f1 f2 f3 f4.le f4.nx f4.ny
      refine ⟨{ i1 := i1, i2 := i2, i3 := i3, i4 := i4, Ac := fun i => (G i).Ac,
                Nxx := fun i => (φ i).resN (G i).Ac (A' i) (B' i) (wr P1 i) (wr P2 i) (wr P3 i) ((fun i => Fmt.weightRow (nodeIdx m) [i1, i2, i3, i4] (P4 i)) i) (dSlice (D i) i1) (dSlice (D i) i2) (dSlice (D i) i3) (dSlice (D i) i4) (P1 i) (P2 i) (P3 i) ((fun i => (P4 i).le) i) ((fun i => (P4 i).nx) i) ((fun i => (P4 i).ny) i) 0,
                Nyy := fun i => (φ i).resN (G i).Ac (A' i) (B' i) (wr P1 i) (wr P2 i) (wr P3 i) ((fun i => Fmt.weightRow (nodeIdx m) [i1, i2, i3, i4] (P4 i)) i) (dSlice (D i) i1) (dSlice (D i) i2) (dSlice (D i) i3) (dSlice (D i) i4) (P1 i) (P2 i) (P3 i) ((fun i => (P4 i).le) i) ((fun i => (P4 i).nx) i) ((fun i => (P4 i).ny) i) 1,
                Nxy := fun i => (φ i).resN (G i).Ac (A' i) (B' i) (wr P1 i) (wr P2 i) (wr P3 i) ((fun i => Fmt.weightRow (nodeIdx m) [i1, i2, i3, i4] (P4 i)) i) (dSlice (D i) i1) (dSlice (D i) i2) (dSlice (D i) i3) (dSlice (D i) i4) (P1 i) (P2 i) (P3 i) ((fun i => (P4 i).le) i) ((fun i => (P4 i).nx) i) ((fun i => (P4 i).ny) i) 2,
                f11 := fun i => Fmt.wAt (Fmt.weightRow (nodeIdx m) [i1, i2, i3, i4] (P1 i)) 0, f12 := fun i => Fmt.wAt (Fmt.weightRow (nodeIdx m) [i1, i2, i3, i4] (P1 i)) 1, f13 := fun i => Fmt.wAt (Fmt.weightRow (nodeIdx m) [i1, i2, i3, i4] (P1 i)) 2, f14 := fun i => Fmt.wAt (Fmt.weightRow (nodeIdx m) [i1, i2, i3, i4] (P1 i)) 3,
                f21 := fun i => Fmt.wAt (Fmt.weightRow (nodeIdx m) [i1, i2, i3, i4] (P2 i)) 0, f22 := fun i => Fmt.wAt (Fmt.weightRow (nodeIdx m) [i1, i2, i3, i4] (P2 i)) 1, f23 := fun i => Fmt.wAt (Fmt.weightRow (nodeIdx m) [i1, i2, i3, i4] (P2 i)) 2, f24 := fun i => Fmt.wAt (Fmt.weightRow (nodeIdx m) [i1, i2, i3, i4] (P2 i)) 3,
                f31 := fun i => Fmt.wAt (Fmt.weightRow (nodeIdx m) [i1, i2, i3, i4] (P3 i)) 0, f32 := fun i => Fmt.wAt (Fmt.weightRow (nodeIdx m) [i1, i2, i3, i4] (P3 i)) 1, f33 := fun i => Fmt.wAt (Fmt.weightRow (nodeIdx m) [i1, i2, i3, i4] (P3 i)) 2, f34 := fun i => Fmt.wAt (Fmt.weightRow (nodeIdx m) [i1, i2, i3, i4] (P3 i)) 3,
                f41 := fun i => Fmt.wAt (Fmt.weightRow (nodeIdx m) [i1, i2, i3, i4] (P4 i)) 0, f42 := fun i => Fmt.wAt (Fmt.weightRow (nodeIdx m) [i1, i2, i3, i4] (P4 i)) 1, f43 := fun i => Fmt.wAt (Fmt.weightRow (nodeIdx m) [i1, i2, i3, i4] (P4 i)) 2, f44 := fun i => Fmt.wAt (Fmt.weightRow (nodeIdx m) [i1, i2, i3, i4] (P4 i)) 3,
                le1 := fun i => (P1 i).le, le2 := fun i => (P2 i).le, le3 := fun i => (P3 i).le, le4 := fun i => (P4 i).le, nx1 := fun i => (P1 i).nx, nx2 := fun i => (P2 i).nx, nx3 := fun i => (P3 i).nx, nx4 := fun i => (P4 i).nx, ny1 := fun i => (P1 i).ny, ny2 := fun i => (P2 i).ny, ny3 := fun i => (P3 i).ny, ny4 := fun i => (P4 i).ny }, fun i => rfl, ?_, hpos.ne'⟩
      exact ⟨rfl, rfl, rfl, rfl, hacc, hN 0, hN 2, hN 1, hW f1 0, hW f1 1, hW f1 2, hW f1 3, hW f2 0, hW f2 1, hW f2 2, hW f2 3, hW f3 0, hW f3 1, hW f3 2, hW f3 3, hW f4 0, hW f4 1, hW f4 2, hW f4 3, f1.le, f2.le, f3.le, f4.le, f1.nx, f2.nx, f3.nx, f4.nx, f1.ny, f2.ny, f3.ny, f4.ny⟩
  · cases hE

theorem kGEdge_lim {m : Mesh} (w : WF m) (hp : Proper m) (hg : Planar m) (hq : Prepared m) {pn : Bool} (hh : HasProps m pn) {D : ι → List ℝ} {d : List ℝ} (hD : LimD φ D d) {k : Key} (hk : k ∈ m.ekeys)
    {N : ι → FMat} {N0 : Mat} (hN : LimMat φ N N0) (h0 : (kGEdge m d pn N0 k).2 = none) :
    (∀ᶠ i in good φ, ((φ i).kGEdge m (fun k => (φ i).geo m (m.edge k)) (D i) pn (N i) k).2 = none) ∧
    LimMat φ (fun i => ((φ i).kGEdge m (fun k => (φ i).geo m (m.edge k)) (D i) pn (N i) k).1) (kGEdge m d pn N0 k).1 := by
  obtain ⟨G, hG, hev⟩ := geo_lim (φ := φ) w hp hg hq hh hk
  rcases henv : kGEnv m d pn (m.edge k) with er | E0
  · unfold kGEdge at h0; rw [henv] at h0; cases h0
  obtain ⟨E', e1, e2, e3⟩ := kGEnv_lim hG hD henv
  refine step_lim (kGEntries_lim e2 e3) hN ?_ (by unfold kGEdge; rw [henv]) h0
  filter_upwards [hev] with i hi
  unfold Fmt.kGEdge
  dsimp only
  rw [hi, e1 i]
  rfl

/-- `calc_kG` after `calc_k0` on a planar mesh -/
theorem calcKG_lim (φ : ι → Fmt) {m : Mesh} (w : WF m) (hp : Proper m) (hg : Planar m) (hq : Prepared m) {pn : Bool} (hh : HasProps m pn) {D : ι → List ℝ} {d : List ℝ} (hD : LimD φ D d) {K : Mat}
    (hK : calcKG m d pn = .ok K) :
    ∃ F, (∀ᶠ i in good φ, (φ i).calcKG m (fun k => (φ i).geo m (m.edge k)) (D i) pn = .ok (F i)) ∧ LimMat φ F K := by
  unfold calcKG at hK
  rcases x1 : matLoop (kGEdge m d pn) (Mat.zeros (d.length / 5 * 5)) m.ekeys with ⟨K1, _ | er⟩
  swap
  · rw [x1] at hK; cases hK
  rw [x1] at hK
  obtain rfl : K1 = K := Except.ok.inj hK
  have := loop_lim (φ := φ) (f := fun i => (φ i).kGEdge m (fun k => (φ i).geo m (m.edge k)) (D i) pn) (g := kGEdge m d pn) m.ekeys
    (LimMat.zeros (d.length / 5 * 5)) (fun k hk {N N0} hN h0 => kGEdge_lim w hp hg hq hh hD hk hN h0) (by rw [x1])
  rw [x1] at this
  refine ⟨_, ?_, this.2⟩
  filter_upwards [this.1] with i hi
  unfold Fmt.calcKG
  rw [hD.len]
  rcases x2 : Fmt.loop ((φ i).kGEdge m (fun k => (φ i).geo m (m.edge k)) (D i) pn) (FMat.zeros (d.length / 5 * 5)) m.ekeys with ⟨K2, _ | er⟩
  · rfl
  · rw [x2] at hi; simp at hi

end Meshless
