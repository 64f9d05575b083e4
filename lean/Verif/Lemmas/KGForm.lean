import Verif.Spec.Geometric
import Verif.Lemmas.KGEdge
import Verif.Lemmas.K0Form

set_option autoImplicit false

namespace Meshless
open Spec Finset

theorem kGEdge_eq (m : Mesh) (d : List ℝ) (pn : Bool) : kGEdge m d pn = fun K k => applyE ((kGEnv m d pn (m.edge k)).map kGEntries) K := by
  funext K k
  unfold kGEdge applyE
  cases kGEnv m d pn (m.edge k) <;> rfl

/-- a returned matrix is the sum of the increments of all edges, whatever the mesh -/
theorem calcKG_sum {m : Mesh} {d : List ℝ} {pn : Bool} {K : Mat} (hK : calcKG m d pn = .ok K) :
    K.dim = d.length / 5 * 5 ∧ (∀ k ∈ m.ekeys, ∃ e, kGEnv m d pn (m.edge k) = .ok e) ∧ ∀ i j, K.get i j = (m.ekeys.map fun k => entrySum (d.length / 5 * 5)
      (okEntries ((kGEnv m d pn (m.edge k)).map kGEntries)) i j).sum := by
  unfold calcKG at hK
  rw [kGEdge_eq] at hK
  rcases hl : matLoop (fun K k => applyE ((kGEnv m d pn (m.edge k)).map kGEntries) K) (Mat.zeros (d.length / 5 * 5)) m.ekeys with ⟨K', o⟩
  rw [hl] at hK
  cases o with
  | some e => simp at hK
  | none =>
    have : K' = K := by simpa using hK
    subst this
    have good := matLoop_none (fun k => (kGEnv m d pn (m.edge k)).map kGEntries) m.ekeys (Mat.zeros (d.length / 5 * 5)) (by rw [hl])
    obtain ⟨K2, e1, e2, e3⟩ := matLoop_ok _ _ _ good
    rw [hl] at e1
    have : K' = K2 := congrArg Prod.fst e1
    subst this
    refine ⟨e2, fun k hk => ?_, fun i j => ?_⟩
    · obtain ⟨es, h, _⟩ := good k hk
      cases hv : kGEnv m d pn (m.edge k) with
      | error e => rw [hv] at h; simp [Except.map] at h
      | ok e => exact ⟨e, rfl⟩
    · rw [e3]; simp [Mat.zeros]

theorem calcKG_out {m : Mesh} {d : List ℝ} {pn : Bool} {K : Mat} (hK : calcKG m d pn = .ok K) {i j : ℕ}
    (h : d.length / 5 * 5 ≤ i ∨ d.length / 5 * 5 ≤ j) : K.get i j = 0 := by
  rw [(calcKG_sum hK).2.2]
  apply List.sum_eq_zero
  intro x hx
  obtain ⟨k, _, rfl⟩ := List.mem_map.1 hx
  exact entrySum_out h

theorem kGEntries_pos {n : ℕ} {e : KGEnv ℝ} {x : ℤ × ℤ × ℝ} (hx : x ∈ kGEntries e) {i j : ℕ} (hi : pyIdx (n * 5) x.1 = some i)
    (hj : pyIdx (n * 5) x.2.1 = some j) : i % 5 = 2 ∧ j % 5 = 2 := by
  rw [kGEntries_eq] at hx
  simp only [outer, List.mem_flatMap, List.mem_map] at hx
  obtain ⟨a, ha, b, hb, rfl⟩ := hx
  have key : ∀ c ∈ kGDofs e, ∀ i, pyIdx (n * 5) c.1 = some i → i % 5 = 2 := by
    intro c hc i h
    obtain ⟨y, hcs⟩ : ∃ (y : ℤ), c.1 = y * 5 + (2 : ℕ) := by
      simp only [kGDofs, List.mem_cons, List.not_mem_nil, or_false] at hc
      rcases hc with rfl | rfl | rfl | rfl <;> exact ⟨_, rfl⟩
    rw [hcs] at h
    exact pyIdx_mod (by norm_num) h
  exact ⟨key a ha i hi, key b hb j hj⟩

/-! ### one edge -/

theorem vAt_nodeG {m : Mesh} (hq : Prepared m) {N : ℕ} (hN : m.nids.length ≤ N) (v : ℕ → ℝ) {i : ℕ} (hi : i ∈ m.nids) {r : ℕ} (hr : r < 5) :
    vAt (N * 5) v (nodeIdx m i * 5 + r) = disp m v r i := by
  rw [hq.nodeIdx' hi]
  have hlt := List.idxOf_lt_length_iff.2 hi
  have : ((m.nids.idxOf i : ℤ) * 5 + r) = ((5 * m.nids.idxOf i + r : ℕ) : ℤ) := by push_cast; ring
  unfold vAt disp
  rw [this, pyIdx_nonneg (by omega)]

theorem gradG_eq {m : Mesh} (hq : Prepared m) {N : ℕ} (hN : m.nids.length ≤ N) {pn : Bool} {k : Key} {ns : List ℕ} {Ac : ℝ} {pm : (Lam → ℝ) → ℝ}
    (hd : EdgeData m pn k ns Ac pm) {A B : Fin 3 → Fin 3 → ℝ} {d : List ℝ} {e : KGEnv ℝ} (he : KGOk m ns (m.edge k) d A B e) (v : ℕ → ℝ) :
    strainOf (N * 5) (kGDofs e) v = v2 (gX m k Ac (disp m v 2)) (gY m k Ac (disp m v 2)) := by
  have hAc : e.Ac = Ac := by have := he.Ac; rw [hd.hAc] at this; exact (Option.some.inj this).symm
  have hX : wsum IPt.nx (disp m v 2) (m.edge k).ipts = _ :=
    (wsum_congr hd.ipts fun i hi => (vAt_nodeG hq hN v (hd.ns_nids i hi) (r := 2) (by norm_num)).symm).trans
      (he.X (fun i => vAt (N * 5) v (i * 5 + (2 : ℕ)))).symm
  have hY : wsum IPt.ny (disp m v 2) (m.edge k).ipts = _ :=
    (wsum_congr hd.ipts fun i hi => (vAt_nodeG hq hN v (hd.ns_nids i hi) (r := 2) (by norm_num)).symm).trans
      (he.Y (fun i => vAt (N * 5) v (i * 5 + (2 : ℕ)))).symm
  push_cast at hX hY
  funext p
  fin_cases p <;>
    simp only [strainOf, kGDofs, List.map_cons, List.map_nil, List.sum_cons, List.sum_nil, gX, gY, Fin.mk_one, Fin.zero_eta, v2_0, v2_1, hX, hY,
      hAc] <;> ring

theorem entriesOk_kG {m : Mesh} (hq : Prepared m) {N : ℕ} (hN : m.nids.length ≤ N) (hne : m.nids ≠ []) {pn : Bool} {k : Key} {ns : List ℕ} {Ac : ℝ}
    {pm : (Lam → ℝ) → ℝ} (hd : EdgeData m pn k ns Ac pm) {A B : Fin 3 → Fin 3 → ℝ} {d : List ℝ} {e : KGEnv ℝ}
    (he : KGOk m ns (m.edge k) d A B e) : EntriesOk (N * 5) (kGEntries e) := by
  rw [kGEntries_eq]
  apply entriesOk_outer
  have key : ∀ j ∈ [e.i1, e.i2, e.i3, e.i4], (pyIdx (N * 5) (j * 5 + 2)).isSome := by
    intro j hj
    have hpos := List.length_pos_of_ne_nil hne
    obtain ⟨c, hc, rfl⟩ : ∃ c : ℕ, c < N ∧ j = c := by
      rcases he.idx j hj with rfl | ⟨i, hi, rfl⟩
      · exact ⟨0, by omega, rfl⟩
      · exact ⟨_, lt_of_lt_of_le (List.idxOf_lt_length_iff.2 (hd.ns_nids i hi)) hN, hq.nodeIdx' (hd.ns_nids i hi)⟩
    have : ((c : ℤ) * 5 + 2) = ((5 * c + 2 : ℕ) : ℤ) := by push_cast; ring
    rw [this, pyIdx_nonneg (by omega)]; rfl
  intro a ha
  simp only [kGDofs, List.mem_cons, List.not_mem_nil, or_false] at ha
  rcases ha with rfl | rfl | rfl | rfl
  · exact key e.i1 (by simp)
  · exact key e.i2 (by simp)
  · exact key e.i3 (by simp)
  · exact key e.i4 (by simp)

/-- stress resultants of an edge with known gradients -/
theorem kgN_eq {m : Mesh} (hq : Prepared m) {pn : Bool} {k : Key} {ns : List ℕ} {Ac : ℝ} {pm : (Lam → ℝ) → ℝ}
    (hd : EdgeData m pn k ns Ac pm) (d : List ℝ) (A B : Fin 3 → Fin 3 → ℝ) (i : Fin 3) :
    kgN m (m.edge k) A B d Ac i = ∑ j : Fin 3, (A i j * gStrain m k Ac (vec d) (Fin.castLE (by decide) j) + B i j * gStrain m k Ac (vec d) (Fin.natAdd 3 j)) := by
  have hw : ∀ (c : IPt → ℝ) (r : ℕ), r < 5 → wsum c (fun i => dAt d r (nodeIdx m i)) (m.edge k).ipts = wsum c (disp m (vec d) r) (m.edge k).ipts := by
    intro c r hr
    refine wsum_congr hd.ipts fun i hi => ?_
    rw [hq.nodeIdx' (hd.ns_nids i hi), dAt_eq d hr]; rfl
  have s0 : gStrain m k Ac (vec d) (Fin.castLE (by decide) (0 : Fin 3)) = gX m k Ac (disp m (vec d) 0) := rfl
  have s1 : gStrain m k Ac (vec d) (Fin.castLE (by decide) (1 : Fin 3)) = gY m k Ac (disp m (vec d) 1) := rfl
  have s2 : gStrain m k Ac (vec d) (Fin.castLE (by decide) (2 : Fin 3)) = gY m k Ac (disp m (vec d) 0) + gX m k Ac (disp m (vec d) 1) := rfl
  have s3 : gStrain m k Ac (vec d) (Fin.natAdd 3 (0 : Fin 3)) = gX m k Ac (disp m (vec d) 3) := rfl
  have s4 : gStrain m k Ac (vec d) (Fin.natAdd 3 (1 : Fin 3)) = gY m k Ac (disp m (vec d) 4) := rfl
  have s5 : gStrain m k Ac (vec d) (Fin.natAdd 3 (2 : Fin 3)) = gY m k Ac (disp m (vec d) 3) + gX m k Ac (disp m (vec d) 4) := rfl
  rw [Fin.sum_univ_three, s0, s1, s2, s3, s4, s5]
  unfold kgN kgEm
  simp only [dot3, hw _ 0 (by norm_num), hw _ 1 (by norm_num), hw _ 3 (by norm_num), hw _ 4 (by norm_num), gX, gY, Matrix.cons_val_zero,
    Matrix.cons_val_one, Matrix.cons_val]
  ring

/-- one edge's contribution to the form of `kG` -/
theorem bil_kG {m : Mesh} (hq : Prepared m) {N : ℕ} (hN : m.nids.length ≤ N) {pn : Bool} {k : Key} {ns : List ℕ} {Ac : ℝ} {pm : (Lam → ℝ) → ℝ}
    (hd : EdgeData m pn k ns Ac pm) {A B : Fin 3 → Fin 3 → ℝ} {d : List ℝ} {e : KGEnv ℝ} (he : KGOk m ns (m.edge k) d A B e) (v u : ℕ → ℝ) :
    bil (N * 5) (entrySum (N * 5) (kGEntries e)) v u =
      Ac * (gX m k Ac (disp m v 2) * kgN m (m.edge k) A B d Ac 0 * gX m k Ac (disp m u 2) + gX m k Ac (disp m v 2) * kgN m (m.edge k) A B d Ac 2 * gY m k Ac (disp m u 2)
        + gY m k Ac (disp m v 2) * kgN m (m.edge k) A B d Ac 2 * gX m k Ac (disp m u 2) + gY m k Ac (disp m v 2) * kgN m (m.edge k) A B d Ac 1 * gY m k Ac (disp m u 2)) := by
  have hAc : e.Ac = Ac := by have := he.Ac; rw [hd.hAc] at this; exact (Option.some.inj this).symm
  obtain ⟨n0, n1, n2⟩ := he.N
  rw [kGEntries_eq, bil_outer, gradG_eq hq hN hd he, gradG_eq hq hN hd he, n0, n1, n2, hAc]
  simp only [Fin.sum_univ_two, v2_0, v2_1, m2_00, m2_01, m2_10, m2_11]
  ring

/-- property averages and geometry of an edge of a prepared proper mesh -/
theorem edgeDataP {m : Mesh} (w : WF m) (hp : Proper m) (hq : Prepared m) {pn : Bool} (hh : HasProps m pn) {k : Key} (hk : k ∈ m.ekeys) :
    ∃ ns Ac pm, EdgeData m pn k ns Ac pm ∧ (∀ i, i ∈ ns ↔ edgeNodes m k i) ∧
      (∀ sel : Lam → Fin 3 → Fin 3 → ℝ, edgeProp m pn (m.edge k) sel = .ok fun i j => pm fun l => sel l i j) := by
  rcases prepared_shape w hp hq hk with ⟨t, o, he, hs⟩ | ⟨t1, t2, o1, o2, he, hs1, hs2, ho, _⟩
  · refine ⟨_, _, _, edgeData_boundary hq hh he hs, fun i => ?_, fun sel => ?_⟩
    · have : (m.edge k).trias = [t] := by rw [he]; rfl
      simp [edgeNodes, this, hs.corner_iff]
    · rw [he]; exact edgeProp_boundary hh hs sel
  · refine ⟨_, _, _, edgeData_interior hq hh he hs1 hs2 ho (Ac := polyArea _) (by rw [he]; rfl), fun i => ?_, fun sel => ?_⟩
    · have : (m.edge k).trias = [t1, t2] := by rw [he]; rfl
      simp [edgeNodes, this, hs1.corner_iff, hs2.corner_iff]
      tauto
    · rw [he]; exact edgeProp_interior hh hs1 hs2 rfl sel

/-- what `calc_kG` adds for an edge -/
theorem kgEdgeData {m : Mesh} (w : WF m) (hp : Proper m) (hq : Prepared m) {pn : Bool} (hh : HasProps m pn) {d : List ℝ}
    (hd : 5 * m.nids.length ≤ d.length) {k : Key} (hk : k ∈ m.ekeys) :
    ∃ ns Ac pm e, EdgeData m pn k ns Ac pm ∧ (∀ i, i ∈ ns ↔ edgeNodes m k i) ∧ kGEnv m d pn (m.edge k) = .ok e ∧
      KGOk m ns (m.edge k) d (fun i j => pm fun l => l.A i j) (fun i j => pm fun l => l.B i j) e := by
  obtain ⟨ns, Ac, pm, h1, h2, h3⟩ := edgeDataP w hp hq hh hk
  obtain ⟨e, h4, h5⟩ := kgData w hp hq hd hk h1 h3 h2
  exact ⟨ns, Ac, pm, e, h1, h2, h4, h5⟩

/-- the same with the averages and gradients of the specification -/
theorem kgEdgeGeo {m : Mesh} (w : WF m) (hp : Proper m) (hg : Planar m) (hq : Prepared m) {pn : Bool} (hh : HasProps m pn) {d : List ℝ}
    (hd : 5 * m.nids.length ≤ d.length) {k : Key} (hk : k ∈ m.ekeys) :
    ∃ ns Ac e, EdgeData m pn k ns Ac (avg m pn k) ∧ GeoOk m k Ac ∧ kGEnv m d pn (m.edge k) = .ok e ∧
      KGOk m ns (m.edge k) d (fun i j => avg m pn k fun l => l.A i j) (fun i j => avg m pn k fun l => l.B i j) e := by
  obtain ⟨ns, Ac, pm, h1, h2, h3, h4, _, h5⟩ := edgeGeoP w hp hg hq hh hk
  obtain ⟨e, h6, h7⟩ := kgData w hp hq hd hk h1 h5 h2
  have hpm : pm = avg m pn k := funext h4
  subst hpm
  exact ⟨ns, Ac, e, h1, h3, h6, h7⟩

/-- `calc_kG` succeeds on a prepared proper mesh -/
theorem calcKG_proper {m : Mesh} (w : WF m) (hp : Proper m) (hq : Prepared m) (hne : m.nids ≠ []) {pn : Bool} (hh : HasProps m pn) {d : List ℝ}
    (hd : 5 * m.nids.length ≤ d.length) : ∃ K, calcKG m d pn = .ok K := by
  have good : ∀ k ∈ m.ekeys, GoodE (d.length / 5 * 5) ((kGEnv m d pn (m.edge k)).map kGEntries) := by
    intro k hk
    obtain ⟨ns, Ac, pm, e, h1, _, h2, h3⟩ := kgEdgeData w hp hq hh hd hk
    exact ⟨kGEntries e, by rw [h2]; rfl, entriesOk_kG hq (by omega) hne h1 h3⟩
  obtain ⟨K, e1, _, _⟩ := matLoop_ok (fun k => (kGEnv m d pn (m.edge k)).map kGEntries) m.ekeys (Mat.zeros (d.length / 5 * 5)) good
  refine ⟨K, ?_⟩
  unfold calcKG
  rw [kGEdge_eq, e1]

/-- the form of `kG` -/
theorem calcKG_form {m : Mesh} (w : WF m) (hp : Proper m) (hg : Planar m) (hq : Prepared m) {pn : Bool} (hh : HasProps m pn) {d : List ℝ}
    (hd : 5 * m.nids.length ≤ d.length) {K : Mat} (hK : calcKG m d pn = .ok K) (v u : ℕ → ℝ) :
    form K.dim K.get v u = geometric m pn (vec d) v u := by
  obtain ⟨h1, _, h2⟩ := calcKG_sum hK
  have hget : K.get = fun i j => (m.ekeys.map fun k => entrySum (d.length / 5 * 5) (okEntries ((kGEnv m d pn (m.edge k)).map kGEntries)) i j).sum := by
    funext i j; exact h2 i j
  have e1 : form (d.length / 5 * 5) K.get v u = (m.ekeys.map fun k => bil (d.length / 5 * 5) (entrySum (d.length / 5 * 5)
        (okEntries ((kGEnv m d pn (m.edge k)).map kGEntries))) v u).sum := by
    rw [hget]; exact bil_sum _ _ _ _ _
  rw [h1, e1]
  unfold geometric
  congr 1
  refine List.map_congr_left fun k hk => ?_
  obtain ⟨ns, Ac, e, g1, g2, g3, g4⟩ := kgEdgeGeo w hp hg hq hh hd hk
  rw [g3]
  simp only [Except.map, okEntries]
  rw [bil_kG hq (by omega) g1 g4, ← g2.hAc]
  simp only [kgN_eq hq g1, gStrain_eps g2, g2.X, g2.Y, membrane]

end Meshless
