import Verif.Lemmas.MagKGEnv
import Verif.Lemmas.MagSum
import Verif.Spec.BoundKG

/-! `calc_kG` in formats like float64 with explicit bounds: the sums over the edges. -/

set_option autoImplicit false

namespace Meshless
open Spec Mg

variable {f : Fmt} {s : Units}

/-- the laminate matrices at an edge -/
theorem prop_has (hf : Spec.Double f) {p : Prof} (hp0 : p.ok = true) {m : Mesh} (w : WF m) (hp : Proper m) (hg : Planar m) (hq : Prepared m) {pn : Bool} (hh : HasProps m pn)
    {k : Key} (hk : k ∈ m.ekeys) (ht : ∀ t ∈ (m.edge k).trias, FitsAt m p.σ p.G s.l t) {D : ℝ} (hl : LamsUpTo m pn s.p s.q D)
    (sel : Lam → Fin 3 → Fin 3 → ℝ) (g : Grd) (hsel : ∀ q : Lam, Lam.UpTo q s.p s.q D → ∀ a b, |sel q a b| ≤ s.U g) (hdom : (gPr p.σ p.G g).dom (vP p g) = true)
    (A : Fin 3 → Fin 3 → ℝ) (hA : edgeProp m pn (m.edge k) sel = .ok A) :
    ∃ B, f.edgeProp m pn (m.edge k) (f.geo m (m.edge k)).Ac sel = .ok B ∧ ∀ a b, (vP p g).Has s (B a b) (A a b) := by
  have hp1 := hp0
  simp only [Prof.ok, Bool.and_eq_true, decide_eq_true_eq] at hp1
  obtain ⟨⟨⟨⟨⟨⟨⟨⟨⟨hσ, hA0⟩, hL⟩, hN⟩, hdA⟩, hdB⟩, hdD⟩, h0L⟩, h0N⟩, hor⟩ := hp1
  obtain ⟨hgeo, htr⟩ := geo_has hf hσ hor w hp hg hq hh hk ht
  obtain ⟨_, Ac, pm, hd, _, _, hav, _, hpr⟩ := edgeGeoP w hp hg hq hh hk
  have hkk : (m.edge k).n1 = k.1 ∧ (m.edge k).n2 = k.2 ∧ (m.edge k).trias ≠ [] ∧ (∀ t ∈ (m.edge k).trias, t ∈ m.eids) ∧
      ∀ i, (i = (m.edge k).n1 ∨ i = (m.edge k).n2 ∨ (m.edge k).other1 = some i ∨ (m.edge k).other2 = some i) → ∃ t ∈ m.eids, IsCorner m t i := by
    rcases prepared_shape w hp hq hk with ⟨t, o, he, hs⟩ | ⟨t1, t2, o1, o2, he, hs1, hs2, _, _⟩
    · rw [he]
      refine ⟨rfl, rfl, by simp [bEdge], by simpa [bEdge] using hs.mem, fun i hi => ⟨t, hs.mem, (hs.corner_iff i).2 ?_⟩⟩
      rcases hi with hi | hi | hi | hi
      · exact Or.inl hi
      · exact Or.inr (Or.inl hi)
      · exact Or.inr (Or.inr (Option.some.inj hi).symm)
      · simp [bEdge] at hi
    · rw [he]
      refine ⟨rfl, rfl, by simp [iEdge], by simpa [iEdge] using ⟨hs1.mem, hs2.mem⟩, fun i hi => ?_⟩
      rcases hi with hi | hi | hi | hi
      · exact ⟨t1, hs1.mem, (hs1.corner_iff i).2 (Or.inl hi)⟩
      · exact ⟨t1, hs1.mem, (hs1.corner_iff i).2 (Or.inr (Or.inl hi))⟩
      · exact ⟨t1, hs1.mem, (hs1.corner_iff i).2 (Or.inr (Or.inr (Option.some.inj hi).symm))⟩
      · exact ⟨t2, hs2.mem, (hs2.corner_iff i).2 (Or.inr (Or.inr (Option.some.inj hi).symm))⟩
  obtain ⟨hn1, hn2, hne, hte, hno⟩ := hkk
  have u1 : pn = true → ∀ e ∈ m.eids, ∀ i, IsCorner m e i → ∀ p, (m.node i).prop = some p → ∀ a b, |sel p a b| ≤ s.U g := fun hpn e he i hi q hq' a b => by
    unfold LamsUpTo at hl; rw [if_pos hpn] at hl; exact hsel q (hl e he i hi q hq') a b
  have u2 : pn = false → ∀ e ∈ m.eids, ∀ p, (m.tria e).prop = some p → ∀ a b, |sel p a b| ≤ s.U g := fun hpn e he q hq' a b => by
    unfold LamsUpTo at hl; rw [if_neg (by simp [hpn])] at hl; exact hsel q (hl e he q hq') a b
  have hb : ∀ a b, |A a b| ≤ s.U g := fun a b => by
    have : A = fun i j => pm fun l => sel l i j := Except.ok.inj (hA.symm.trans (hpr sel))
    rw [this]
    dsimp only
    rw [hav]
    exact avg_le w hp hg hk (s.U_pos g).le (fun q e he i hi p hp' => u1 q e he i hi p hp' a b) (fun q e he p hp' => u2 q e he p hp' a b)
  obtain ⟨B, b1, b2⟩ := edgeProp_mag hf hgeo (by rw [hn1, hn2]; exact htr) hne sel
    (fun i hi q hq' hpn a b => by obtain ⟨t, ht', hc⟩ := hno i hi; exact u1 hpn t ht' i hc q hq' a b)
    (fun t ht' q hq' hpn a b => u2 hpn t (hte t ht') q hq' a b) hA hb
  exact ⟨B, b1, fun a b => (b2 a b).dom hdom⟩

/-- the displacements read by `calc_kG` -/
theorem slice_le {m : Mesh} (w : WF m) {d : List ℝ} (hd : d.length = 5 * m.nids.length) {r : ℕ} (hr : r < 5) {b : ℝ} (hb : 0 ≤ b)
    (h : ∀ i ∈ m.nids, |vec d (dofNo m i r)| ≤ b) (a : ℤ) : |(dSlice d a).getD r 0| ≤ b := by
  rw [dSlice_getD, if_pos hr]
  by_cases ha : a.toNat < m.nids.length
  · have := h (m.nids[a.toNat]) (List.getElem_mem ha)
    unfold vec dofNo at this
    rw [w.nids_nodup.idxOf_getElem, mul_comm] at this
    exact this
  · rw [List.getD_eq_default _ _ (by omega)]
    simpa using hb

/-- the local variables of `calc_kG` at an edge -/
theorem envG_has (hf : Spec.Double f) {p : GProf} (hp0 : p.ok = true) {m : Mesh} (w : WF m) (hp : Proper m) (hg : Planar m) (hq : Prepared m) {pn : Bool} (hh : HasProps m pn)
    {k : Key} (hk : k ∈ m.ekeys) (ht : ∀ t ∈ (m.edge k).trias, FitsAt m p.p.σ p.p.G s.l t) {D : ℝ} (hl : LamsUpTo m pn s.p s.q D) {d : List ℝ}
    (hd : d.length = 5 * m.nids.length)
    (hx : ∀ i ∈ m.nids, (∀ r < 2, |vec d (dofNo m i r)| ≤ s.r * s.l / (1024 * s.p)) ∧ ∀ r, r = 3 ∨ r = 4 → |vec d (dofNo m i r)| ≤ s.r * s.l / (1024 * s.q))
    {E0 : KGEnv ℝ} (hE : kGEnv m d pn (m.edge k) = .ok E0) :
    ∃ c, f.kGEnv m d pn (m.edge k) (f.geo m (m.edge k)) = .ok c ∧ HasKG s p c E0 := by
  obtain ⟨hp2, _⟩ := Bool.and_eq_true_iff.1 hp0
  have hp1 := hp2
  simp only [Prof.ok, Bool.and_eq_true, decide_eq_true_eq] at hp1
  obtain ⟨⟨⟨⟨⟨⟨⟨⟨⟨hσ, hA0⟩, hL⟩, hN⟩, hdA⟩, hdB⟩, hdD⟩, h0L⟩, h0N⟩, hor⟩ := hp1
  obtain ⟨hgeo, _⟩ := geo_has hf hσ hor w hp hg hq hh hk ht
  have pl := s.l_pos
  have pp := s.p_pos
  have pq := s.q_pos
  have pr := s.r_pos
  have eU : s.U ⟨1, -1, 0, 1⟩ * ((1 / 1024 : ℚ) : ℝ) = s.r * s.l / (1024 * s.p) := by
    simp only [Units.U, zpow_one, zpow_neg, zpow_zero, mul_one]; push_cast; field_simp
  have eR : s.U ⟨1, 0, -1, 1⟩ * ((1 / 1024 : ℚ) : ℝ) = s.r * s.l / (1024 * s.q) := by
    simp only [Units.U, zpow_one, zpow_neg, zpow_zero, mul_one]; push_cast; field_simp
  refine kGEnv_mag hf hp0 hgeo (prop_has hf hp2 w hp hg hq hh hk ht hl Lam.A grA ?_ hdA) (prop_has hf hp2 w hp hg hq hh hk ht hl Lam.B grB ?_ hdB) ?_ ?_ hE
  · intro q hq' a b; simpa [Units.U, grA] using (hq' a b).1
  · intro q hq' a b; simpa [Units.U, grB] using (hq' a b).2.1
  · intro i r hr
    refine Has.inp ?_
    rw [eU]
    exact slice_le w hd (by omega) (by positivity) (fun j hj => (hx j hj).1 r hr) i
  · intro i r hr
    refine Has.inp ?_
    rw [eR]
    exact slice_le w hd (by omega) (by positivity) (fun j hj => (hx j hj).2 r hr) i

/-- blocks of increments -/
theorem addAll_totG (hf : Spec.Double f) {p : GProf} (hM : 0 ≤ (p.M : ℝ) ∧ (p.M : ℝ) ≤ 2 ^ 60) (hE : 0 ≤ (p.E : ℝ) ∧ (p.E : ℝ) ≤ 2 ^ 60) {N : ℕ}
    {es : List (ℤ × ℤ × Fo f)} {es0 : List (ℤ × ℤ × ℝ)}
    (h : List.Forall₂ (fun x y => x.1 = y.1 ∧ x.2.1 = y.2.1 ∧ (vG p).Has s x.2.2 y.2.2) es es0) :
    ∀ {M : FMat} {M0 : Mat}, M.dim = N * 5 → M0.dim = N * 5 → (M0.addAll es0).2 = none →
      (f.addAll M es).2 = none ∧ (f.addAll M es).1.dim = N * 5 ∧ (M0.addAll es0).1.dim = N * 5 ∧
      ∀ i j n, n + (es.map pos2).countP (hits (N * 5) i j) ≤ 2 ^ 40 → Tot s.r p.M p.E n (M.get i j) (M0.get i j) →
        Tot s.r p.M p.E (n + (es.map pos2).countP (hits (N * 5) i j)) ((f.addAll M es).1.get i j) ((M0.addAll es0).1.get i j) := by
  induction h with
  | nil => intro M M0 h1 h2 _; exact ⟨rfl, h1, h2, fun i j n _ h => h⟩
  | @cons a b es es0 hab _ ih =>
    intro M M0 h1 h2 h0
    obtain ⟨r, c, v⟩ := a
    obtain ⟨r', c', v0⟩ := b
    obtain ⟨e1, e2, hv⟩ := hab
    dsimp only at e1 e2 hv
    subst e1 e2
    simp only [Fmt.addAll, Mat.addAll, Fmt.addAt, Mat.addAt, h1, h2] at h0 ⊢
    rcases hr : pyIdx (N * 5) r with _ | x
    · rw [hr] at h0; simp at h0
    rcases hc : pyIdx (N * 5) c with _ | y
    · rw [hr, hc] at h0; simp at h0
    rw [hr, hc] at h0
    dsimp only at h0 ⊢
    obtain ⟨i1, i2, i3, i4⟩ := ih (M := f.bump M x y v) (M0 := M0.bump x y v0) h1 h2 h0
    refine ⟨i1, i2, i3, fun i j n hn hA => ?_⟩
    by_cases hxy : i = x ∧ j = y
    · have hh : hits (N * 5) i j (r, c) = true := by simp [hits, hr, hc, hxy.1, hxy.2]
      have hct : (((r, c, v) :: es).map pos2).countP (hits (N * 5) i j) = (es.map pos2).countP (hits (N * 5) i j) + 1 := by
        rw [List.map_cons, List.countP_cons]; show _ + (if hits (N * 5) i j (r, c) = true then 1 else 0) = _; rw [hh]; rfl
      rw [hct] at hn ⊢
      rw [show n + ((es.map pos2).countP (hits (N * 5) i j) + 1) = n + 1 + (es.map pos2).countP (hits (N * 5) i j) by omega]
      refine i4 i j (n + 1) (by omega) ?_
      · simp only [Fmt.bump, Mat.bump, if_pos hxy]
        refine hA.step hf s.hr hM hE (by omega) ?_
        obtain ⟨w, w1, w2, w3, _⟩ := hv rfl
        have eU : s.U (vG p).g = s.r := by simp [vG, grN, Units.U]
        rw [eU] at w2 w3
        exact ⟨w, w1, w2, w3⟩
    · have hh : hits (N * 5) i j (r, c) = false := by
        simp only [hits, hr, hc, Option.some.injEq, Bool.and_eq_false_iff, decide_eq_false_iff_not]
        by_contra hcon
        push Not at hcon
        exact hxy ⟨hcon.1.symm, hcon.2.symm⟩
      have hct : (((r, c, v) :: es).map pos2).countP (hits (N * 5) i j) = (es.map pos2).countP (hits (N * 5) i j) := by
        rw [List.map_cons, List.countP_cons]; show _ + (if hits (N * 5) i j (r, c) = true then 1 else 0) = _; rw [hh]; rfl
      rw [hct] at hn ⊢
      refine i4 i j n hn ?_
      simp only [Fmt.bump, Mat.bump, if_neg hxy]
      exact hA

theorem rowsG_count {n : ℕ} (a r : ℕ) (hr : r < 5) (l : List ℤ) (h : ∀ x ∈ l, 0 ≤ x ∧ x < n) :
    (l.map fun x => x * 5 + 2).countP (fun z => decide (pyIdx (n * 5) z = some (5 * a + r))) = l.countP fun x => decide (x = (a : ℤ) ∧ r = 2) := by
  rw [List.countP_map]
  refine List.countP_congr fun x hx => ?_
  obtain ⟨h1, h2⟩ := h x hx
  simp only [Function.comp_apply, decide_eq_true_eq]
  unfold pyIdx
  rw [if_pos (by omega), if_pos (by push_cast; omega)]
  simp only [Option.some.injEq]
  omega

open Classical in
/-- how often one edge writes to an entry -/
noncomputable def wrG (m : Mesh) (k : Key) (a b r t : ℕ) : ℕ :=
  if r = 2 ∧ t = 2 ∧ WritesKG m k (m.nids.getD a 0) ∧ WritesKG m k (m.nids.getD b 0) then 1 else 0

/-- the places one edge writes to -/
theorem edge_hitsG {m : Mesh} (w : WF m) (hp : Proper m) (hg : Planar m) (hq : Prepared m) {pn : Bool} (hh : HasProps m pn) {k : Key} (hk : k ∈ m.ekeys)
    {gg : Geo} (hgl : List.Forall₂ LikePt (m.edge k).ipts (gg.ipts.map FPt.ids)) {d : List ℝ} {c : KGEnv Flo} (hc : f.kGEnv m d pn (m.edge k) gg = .ok c)
    {a b : ℕ} (ha : a < m.nids.length) (hb : b < m.nids.length) {r t : ℕ} (hr : r < 5) (ht : t < 5) :
    ((kGEntries (K := Fo f) c).map pos2).countP (hits (m.nids.length * 5) (5 * a + r) (5 * b + t)) ≤ 4 * wrG m k a b r t := by
  obtain ⟨ns, Ac, pm, hd, hns, _⟩ := edgeGeoP w hp hg hq hh hk
  have hix := kGEnv_ix hc
  rw [iptIndices_like hgl] at hix
  have hlen : gg.ipts.length = (m.edge k).ipts.length := by have := hgl.length_eq; rw [List.length_map] at this; exact this.symm
  rw [hlen] at hix
  have hix0 : ∀ x ∈ iptIndices (nodeIdx m) (m.edge k).ipts, ∃ i, AtEdge m k i ∧ i ∈ m.nids ∧ x = (m.nids.idxOf i : ℤ) := by
    intro x hx
    obtain ⟨q, hq1, hq2⟩ := mem_iptIndices.1 hx
    have hn := hd.ipts q hq1
    have key : ∀ i ∈ ns, x = nodeIdx m i → ∃ i, AtEdge m k i ∧ i ∈ m.nids ∧ x = (m.nids.idxOf i : ℤ) := fun i hi he =>
      ⟨i, (hns i).1 hi, hd.ns_nids i hi, by rw [he, hq.nodeIdx' (hd.ns_nids i hi)]⟩
    rcases hq2 with h | h | h
    exacts [key _ hn.1 h, key _ hn.2.1 h, key _ hn.2.2.1 h]
  have h3 : (m.edge k).ipts.length = 3 → OneTria m k := by
    intro h
    unfold OneTria
    rcases prepared_shape w hp hq hk with ⟨t', o, he, hs⟩ | ⟨t1, t2, o1, o2, he, hs1, hs2, _, _⟩
    · rw [he]; simp [bEdge]
    · rw [he] at h; simp [iEdge, iptsA, iptsI] at h
  have hmem : ∀ x ∈ [c.i1, c.i2, c.i3, c.i4], (∃ i, AtEdge m k i ∧ i ∈ m.nids ∧ x = (m.nids.idxOf i : ℤ)) ∨ OneTria m k ∧ x = 0 := by
    intro x hx
    rw [hix] at hx
    split at hx
    · rename_i hl
      rcases List.mem_append.1 hx with h | h
      · exact Or.inl (hix0 x h)
      · exact Or.inr ⟨h3 hl, List.mem_singleton.1 h⟩
    · exact Or.inl (hix0 x hx)
  have hcnt : ∀ x, [c.i1, c.i2, c.i3, c.i4].count x ≤ 2 := by
    intro x
    rw [hix]
    have h1 := List.nodup_iff_count_le_one.1 (iptIndices_nodup (nodeIdx m) (m.edge k).ipts) x
    split
    · rw [List.count_append]
      have := List.count_le_length (a := x) (l := [(0:ℤ)])
      simp only [List.length_singleton] at this
      omega
    · omega
  have hrange : ∀ x ∈ [c.i1, c.i2, c.i3, c.i4], 0 ≤ x ∧ x < (m.nids.length : ℤ) := by
    intro x hx
    rcases hmem x hx with ⟨i, _, hi, rfl⟩ | ⟨_, rfl⟩
    · have := List.idxOf_lt_length_iff.2 hi; omega
    · omega
  have hprod : ((kGEntries (K := Fo f) c).map pos2).countP (hits (m.nids.length * 5) (5 * a + r) (5 * b + t)) =
      ([c.i1, c.i2, c.i3, c.i4].map fun i => i * 5 + 2).countP (fun z => decide (pyIdx (m.nids.length * 5) z = some (5 * a + r))) *
      ([c.i1, c.i2, c.i3, c.i4].map fun i => i * 5 + 2).countP (fun z => decide (pyIdx (m.nids.length * 5) z = some (5 * b + t))) := by
    rw [kGEntries_at (K := Fo f) c, kG_prod]
    exact countP_prodPos ([c.i1, c.i2, c.i3, c.i4].map fun i => i * 5 + 2) (fun z => decide (pyIdx (m.nids.length * 5) z = some (5 * a + r)))
      (fun z => decide (pyIdx (m.nids.length * 5) z = some (5 * b + t)))
  rw [hprod, rowsG_count a r hr _ hrange, rowsG_count b t ht _ hrange]
  have cnt : ∀ {a r : ℕ}, a < m.nids.length → [c.i1, c.i2, c.i3, c.i4].countP (fun x => decide (x = (a : ℤ) ∧ r = 2)) ≤ 2 ∧
      (¬ (r = 2 ∧ WritesKG m k (m.nids.getD a 0)) → [c.i1, c.i2, c.i3, c.i4].countP (fun x => decide (x = (a : ℤ) ∧ r = 2)) = 0) := by
    intro a r ha
    refine ⟨le_trans ?_ (hcnt a), fun hw => List.countP_eq_zero.2 fun x hx => ?_⟩
    · exact List.countP_mono_left fun x _ h => by simpa using (of_decide_eq_true h).1
    simp only [decide_eq_true_eq]
    rintro ⟨h, h2⟩
    refine hw ⟨h2, ?_⟩
    have hget : m.nids[a]? = some (m.nids.getD a 0) := by
      rw [List.getD_eq_getElem?_getD, List.getElem?_eq_getElem ha]; rfl
    rcases hmem x hx with ⟨i, hi, hin, hxi⟩ | ⟨ho, hx0⟩
    · left
      have hia : m.nids.idxOf i = a := by omega
      have : m.nids.getD a 0 = i := by
        have h5 := List.getElem?_idxOf hin
        rw [hia, hget] at h5
        exact Option.some.inj h5
      rw [this]; exact hi
    · right
      refine ⟨ho, ?_⟩
      have : a = 0 := by omega
      subst this
      rw [List.head?_eq_getElem?, hget]
  have ca := cnt (r := r) ha
  have cb := cnt (r := t) hb
  unfold wrG
  split
  · exact (Nat.mul_le_mul ca.1 cb.1).trans (by norm_num)
  · rename_i hw
    by_cases h1 : r = 2 ∧ WritesKG m k (m.nids.getD a 0)
    · rw [cb.2 fun h2 => hw ⟨h1.1, h2.1, h1.2, h2.2⟩, mul_zero]; omega
    · rw [ca.2 h1, zero_mul]; omega

/-! ### the loop -/

section
variable {p : GProf} {m : Mesh} {pn : Bool} {PA PB PD n0 : ℝ} {d : List ℝ}

/-- one edge -/
theorem kGEdge_tot (hf : Spec.Double f) (hp0 : p.ok = true) (hc : p.chk = true) (hM : 0 ≤ (p.M : ℝ) ∧ (p.M : ℝ) ≤ 2 ^ 60) (hE : 0 ≤ (p.E : ℝ) ∧ (p.E : ℝ) ≤ 2 ^ 60)
    (w : WF m) (hp : Proper m) (hg : Planar m) (hq : Prepared m) (hh : HasProps m pn) (hA : Medium PA) (hB : Medium PB) (hn0 : Medium n0) (hl : LamsUpTo m pn PA PB PD)
    (hd : d.length = 5 * m.nids.length) (hfit : Loaded m p.p.σ p.p.G PA PB n0 (vec d)) {k : Key} (hk : k ∈ m.ekeys) {M : FMat} {M0 : Mat}
    (d1 : M.dim = m.nids.length * 5) (d2 : M0.dim = m.nids.length * 5) (h0 : (kGEdge m d pn M0 k).2 = none) :
    (f.kGEdge m (fun k => f.geo m (m.edge k)) d pn M k).2 = none ∧ (f.kGEdge m (fun k => f.geo m (m.edge k)) d pn M k).1.dim = m.nids.length * 5 ∧
    (kGEdge m d pn M0 k).1.dim = m.nids.length * 5 ∧
    ∀ a < m.nids.length, ∀ b < m.nids.length, ∀ r < 5, ∀ t < 5, ∀ n, n + 4 * wrG m k a b r t ≤ 2 ^ 40 →
      Tot n0 p.M p.E n (M.get (5 * a + r) (5 * b + t)) (M0.get (5 * a + r) (5 * b + t)) →
      Tot n0 p.M p.E (n + 4 * wrG m k a b r t)
        ((f.kGEdge m (fun k => f.geo m (m.edge k)) d pn M k).1.get (5 * a + r) (5 * b + t)) ((kGEdge m d pn M0 k).1.get (5 * a + r) (5 * b + t)) := by
  have := hf
  obtain ⟨l, hml, hft, hx⟩ := hfit k hk
  obtain ⟨_, _, _, E0, _, _, henv, _⟩ := kgEdgeData w hp hq hh hd.ge hk
  let s : Units := ⟨l, PA, PB, n0, hml, hA, hB, hn0⟩
  obtain ⟨c, hc1, hc2⟩ := envG_has (s := s) hf hp0 w hp hg hq hh hk hft hl hd hx henv
  have hes := kGEntries_has (f := f) hc hc2
  unfold Fmt.kGEdge
  unfold kGEdge at h0 ⊢
  rw [henv] at h0 ⊢
  dsimp only at h0 ⊢
  rw [hc1]
  dsimp only
  have hσ : 0 < p.p.σ ∧ okOr p.p.σ p.p.G = true := by
    have hp1 := (Bool.and_eq_true_iff.1 hp0).1
    simp only [Prof.ok, Bool.and_eq_true, decide_eq_true_eq] at hp1
    exact ⟨hp1.1.1.1.1.1.1.1.1.1, hp1.2⟩
  have hgeo := (geo_has (s := s) hf hσ.1 hσ.2 w hp hg hq hh hk hft).1
  obtain ⟨i1, i2, i3, i4⟩ := addAll_totG (s := s) (p := p) hf hM hE hes d1 d2 h0
  refine ⟨i1, i2, i3, fun a ha b hb r hr t ht n hn hT => ?_⟩
  have hle := edge_hitsG (f := f) w hp hg hq hh hk (hasPt_like hgeo.ipts) hc1 ha hb hr ht
  have hP : 0 ≤ n0 := le_trans (by positivity) hn0.1
  exact (i4 (5 * a + r) (5 * b + t) n (by omega) hT).mono hP hM.1 hE.1 (by omega)

theorem loop_totG (hf : Spec.Double f) (hp0 : p.ok = true) (hc : p.chk = true) (hM : 0 ≤ (p.M : ℝ) ∧ (p.M : ℝ) ≤ 2 ^ 60) (hE : 0 ≤ (p.E : ℝ) ∧ (p.E : ℝ) ≤ 2 ^ 60)
    (w : WF m) (hp : Proper m) (hg : Planar m) (hq : Prepared m) (hh : HasProps m pn) (hA : Medium PA) (hB : Medium PB) (hn0 : Medium n0) (hl : LamsUpTo m pn PA PB PD)
    (hd : d.length = 5 * m.nids.length) (hfit : Loaded m p.p.σ p.p.G PA PB n0 (vec d)) : ∀ (L : List Key), (∀ k ∈ L, k ∈ m.ekeys) → ∀ {M : FMat} {M0 : Mat},
    M.dim = m.nids.length * 5 → M0.dim = m.nids.length * 5 → (matLoop (kGEdge m d pn) M0 L).2 = none →
    (Fmt.loop (f.kGEdge m (fun k => f.geo m (m.edge k)) d pn) M L).2 = none ∧ (Fmt.loop (f.kGEdge m (fun k => f.geo m (m.edge k)) d pn) M L).1.dim = m.nids.length * 5 ∧
    ∀ a < m.nids.length, ∀ b < m.nids.length, ∀ r < 5, ∀ t < 5, ∀ n, n + 4 * (L.map fun k => wrG m k a b r t).sum ≤ 2 ^ 40 →
      Tot n0 p.M p.E n (M.get (5 * a + r) (5 * b + t)) (M0.get (5 * a + r) (5 * b + t)) →
      Tot n0 p.M p.E (n + 4 * (L.map fun k => wrG m k a b r t).sum)
        ((Fmt.loop (f.kGEdge m (fun k => f.geo m (m.edge k)) d pn) M L).1.get (5 * a + r) (5 * b + t)) ((matLoop (kGEdge m d pn) M0 L).1.get (5 * a + r) (5 * b + t)) := by
  intro L
  induction L with
  | nil => intro _ M M0 d1 d2 _; exact ⟨rfl, d1, fun _ _ _ _ _ _ _ _ n _ h => h⟩
  | cons k L ih =>
    intro hL M M0 d1 d2 h0
    simp only [matLoop, Fmt.loop] at h0 ⊢
    rcases hg0 : kGEdge m d pn M0 k with ⟨N0, _ | e⟩
    · obtain ⟨j1, j2, j3, j4⟩ := kGEdge_tot hf hp0 hc hM hE w hp hg hq hh hA hB hn0 hl hd hfit (hL k (by simp)) d1 d2 (M := M) (by rw [hg0])
      rcases hg1 : f.kGEdge m (fun k => f.geo m (m.edge k)) d pn M k with ⟨N, _ | e⟩
      · rw [hg0] at h0 j3 j4
        rw [hg1] at j2 j4
        dsimp only at h0 j2 j3 j4 ⊢
        obtain ⟨i1, i2, i3⟩ := ih (fun k' hk' => hL k' (List.mem_cons_of_mem _ hk')) j2 j3 h0
        refine ⟨i1, i2, fun a ha b hb r hr t ht n hn hT => ?_⟩
        simp only [List.map_cons, List.sum_cons] at hn ⊢
        have h1 := j4 a ha b hb r hr t ht n (by omega) hT
        have h2 := i3 a ha b hb r hr t ht _ (by omega) h1
        rw [show ∀ x y : ℕ, n + 4 * (y + x) = n + 4 * y + 4 * x from fun x y => by omega]
        exact h2
      · rw [hg1] at j1; simp at j1
    · rw [hg0] at h0; simp at h0

end

section
variable {m m' : Mesh} (h : SameStatic m m')
include h

theorem SameStatic.loaded {σ G a b n : ℝ} {x : ℕ → ℝ} (hf : Loaded m σ G a b n x) : Loaded m' σ G a b n x := by
  intro k hk
  rw [h.ekeys] at hk
  obtain ⟨l, h1, h2, h3⟩ := hf k hk
  refine ⟨l, h1, fun t ht => ?_, ?_⟩
  · rw [h.trias] at ht
    have c : ∀ i, IsCorner m' t i ↔ IsCorner m t i := fun i => by unfold IsCorner; rw [h.tria]
    obtain ⟨q1, q2, q3⟩ := h2 t ht
    refine ⟨fun i j hi hj => ?_, by rw [h.striArea]; exact q2, fun i hi => ?_⟩
    · rw [h.snx, h.sny]; exact q1 i j ((c i).1 hi) ((c j).1 hj)
    · rw [h.snx, h.sny, h.xyz]; exact q3 i ((c i).1 hi)
  · unfold dofNo at *
    rw [h.nids]; exact h3

theorem SameStatic.writesG (k : Key) (i : ℕ) : WritesKG m' k i ↔ WritesKG m k i := by
  unfold WritesKG AtEdge OneTria IsCorner
  simp only [h.trias, h.tria, h.nids]

end

open Classical in
/-- `calc_kG` after `calc_k0` on a planar mesh whose triangles fit the profile -/
theorem calcKG_tot (hf : Spec.Double f) {p : GProf} (hp0 : p.ok = true) (hc : p.chk = true) (hM : 0 ≤ (p.M : ℝ) ∧ (p.M : ℝ) ≤ 2 ^ 60) (hE : 0 ≤ (p.E : ℝ) ∧ (p.E : ℝ) ≤ 2 ^ 60)
    {m : Mesh} (w : WF m) (hp : Proper m) (hg : Planar m) {pn : Bool} (hh : HasProps m pn) (hne : m.nids ≠ []) {PA PB PD n0 : ℝ} (hA : Medium PA) (hB : Medium PB)
    (hn0 : Medium n0) (hl : LamsUpTo m pn PA PB PD) {d : List ℝ} (hd : d.length = 5 * m.nids.length) (hfit : Loaded m p.p.σ p.p.G PA PB n0 (vec d))
    (hlen : m.ekeys.length ≤ 2 ^ 38) :
    ∃ K F, calcKG (calcK0 m pn).1 d pn = .ok K ∧ f.calcKG (f.calcK0 m pn).1 (f.calcK0 m pn).2.1 d pn = .ok F ∧ F.dim = K.dim ∧
      ∀ i ∈ m.nids, ∀ j ∈ m.nids, ∀ r < 5, ∀ t < 5, Tot n0 p.M p.E (4 * if r = 2 ∧ t = 2 then contributionsKG m i j else 0)
        (F.get (dofNo m i r) (dofNo m j t)) (K.get (dofNo m i r) (dofNo m j t)) := by
  obtain ⟨K0, k1, k2, k3, k4, k5⟩ := calcK0_proper w hp hh hne
  obtain ⟨K, hK⟩ := calcKG_proper (k3.wf w) (k3.proper hp) k4 (by rw [k3.nids]; exact hne) (k3.hasProps hh) (d := d) (by rw [k3.nids]; omega)
  have hd5 : d.length / 5 * 5 = m.nids.length * 5 := by omega
  have hK' := hK
  unfold calcKG at hK'
  rw [hd5, k3.ekeys] at hK'
  have := loop_totG (f := f) hf hp0 hc hM hE (k3.wf w) (k3.proper hp) (k3.planar hg) k4 (k3.hasProps hh) hA hB hn0 (k3.lamsUpTo hl) (by rw [k3.nids]; exact hd) (k3.loaded hfit) m.ekeys
    (fun k hk => k3.ekeys.symm ▸ hk) (M := FMat.zeros (m.nids.length * 5)) (M0 := Mat.zeros (m.nids.length * 5)) (by rw [k3.nids]; rfl) (by rw [k3.nids]; rfl)
    (by rcases hx : matLoop (kGEdge (calcK0 m pn).1 d pn) (Mat.zeros (m.nids.length * 5)) m.ekeys with ⟨_, _ | e⟩
        · rfl
        · rw [hx] at hK'; simp at hK')
  obtain ⟨t1, t2, t3⟩ := this
  rcases hx0 : matLoop (kGEdge (calcK0 m pn).1 d pn) (Mat.zeros (m.nids.length * 5)) m.ekeys with ⟨K', _ | e⟩
  swap
  · rw [hx0] at hK'; simp at hK'
  rw [hx0] at hK' t3
  obtain rfl : K' = K := Except.ok.inj hK'
  rcases hx : Fmt.loop (f.kGEdge (calcK0 m pn).1 (fun k => f.geo (calcK0 m pn).1 ((calcK0 m pn).1.edge k)) d pn) (FMat.zeros (m.nids.length * 5)) m.ekeys with ⟨F, _ | e⟩
  · rw [hx] at t2 t3
    dsimp only at t2 t3
    refine ⟨K', F, hK, ?_, ?_, fun i hi j hj r hr t ht => ?_⟩
    · rw [(calcK0_fst f m pn).1, (calcK0_fst f m pn).2]
      unfold Fmt.calcKG
      rw [hd5, k3.ekeys, hx]
    · rw [t2, (calcKG_sum hK).1, hd5, k3.nids]
    · have li := List.idxOf_lt_length_iff.2 hi
      have lj := List.idxOf_lt_length_iff.2 hj
      have gi : ∀ i ∈ m.nids, m.nids.getD (m.nids.idxOf i) 0 = i := fun i hi => by
        rw [List.getD_eq_getElem?_getD, List.getElem?_idxOf hi]; rfl
      rw [k3.nids] at t3
      have hct : (m.ekeys.map fun k => wrG (calcK0 m pn).1 k (m.nids.idxOf i) (m.nids.idxOf j) r t).sum = if r = 2 ∧ t = 2 then contributionsKG m i j else 0 := by
        have e1 : ∀ k, wrG (calcK0 m pn).1 k (m.nids.idxOf i) (m.nids.idxOf j) r t = if r = 2 ∧ t = 2 ∧ WritesKG m k i ∧ WritesKG m k j then 1 else 0 := fun k => by
          unfold wrG
          rw [k3.nids, gi i hi, gi j hj, k3.writesG, k3.writesG]
        simp only [e1]
        by_cases hrt : r = 2 ∧ t = 2
        · rw [if_pos hrt]
          unfold contributionsKG
          simp only [hrt.1, hrt.2, true_and]
          generalize m.ekeys = L
          induction L with
          | nil => rfl
          | cons k L ih => rw [List.map_cons, List.sum_cons, ih, List.countP_cons, add_comm]; simp only [decide_eq_true_eq]
        · rw [if_neg hrt]
          have : ∀ k, (if r = 2 ∧ t = 2 ∧ WritesKG m k i ∧ WritesKG m k j then 1 else 0) = 0 := fun k => if_neg fun h => hrt ⟨h.1, h.2.1⟩
          simp [this]
      have h1 := t3 _ li _ lj r hr t ht 0
      rw [hct, Nat.zero_add] at h1
      refine h1 ?_ (Tot.zero _ _ _)
      have : contributionsKG m i j ≤ m.ekeys.length := List.countP_le_length
      split <;> omega
  · rw [hx] at t1; simp at t1

end Meshless
