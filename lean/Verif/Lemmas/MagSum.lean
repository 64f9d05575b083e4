import Verif.Lemmas.MagRun
import Verif.Lemmas.IeeeRun

/-! `calc_k0` in formats like float64 with explicit bounds: the sums over the edges. -/

set_option autoImplicit false

namespace Meshless
open Spec Mg

variable {f : Fmt} {s : Units}

/-- a sum of `n` increments, each up to `P * M` with an error up to `P * E` roundoffs -/
def Tot (P M E : ℝ) (n : ℕ) (F : Flo) (X : ℝ) : Prop :=
  ∃ v, F = .fin v ∧ |X| ≤ P * (n * M) ∧ |v - X| ≤ u64 * (P * (2 * n * (E + n * M + 1)))

theorem Tot.zero (P M E : ℝ) : Tot P M E 0 (.fin 0) 0 := ⟨0, rfl, by simp, by simp⟩

theorem Tot.mono {P M E : ℝ} (hP : 0 ≤ P) (hM : 0 ≤ M) (hE : 0 ≤ E) {n n' : ℕ} (h : n ≤ n') {F : Flo} {X : ℝ} (hA : Tot P M E n F X) : Tot P M E n' F X := by
  obtain ⟨v, h1, h2, h3⟩ := hA
  have hu := u64_pos.le
  have hn : (n : ℝ) ≤ n' := by exact_mod_cast h
  refine ⟨v, h1, h2.trans ?_, h3.trans ?_⟩
  · gcongr
  · gcongr

theorem Tot.step (hf : Spec.Double f) {P M E : ℝ} (hP : Medium P) (hM : 0 ≤ M ∧ M ≤ 2 ^ 60) (hE : 0 ≤ E ∧ E ≤ 2 ^ 60) {n : ℕ} (hn : n < 2 ^ 40) {F W : Flo} {X x : ℝ}
    (hA : Tot P M E n F X) (hW : ∃ w, W = .fin w ∧ |x| ≤ P * M ∧ |w - x| ≤ u64 * (P * E)) : Tot P M E (n + 1) (f.add F W) (X + x) := by
  obtain ⟨v, rfl, h2, h3⟩ := hA
  obtain ⟨w, rfl, h4, h5⟩ := hW
  have hu := u64_pos
  have hP0 : 0 < P := lt_of_lt_of_le (by positivity) hP.1
  have hn' : (n : ℝ) ≤ 2 ^ 40 := by exact_mod_cast hn.le
  have hn0 : (0:ℝ) ≤ n := Nat.cast_nonneg n
  have hB : 0 ≤ E + n * M + 1 := by have := mul_nonneg hn0 hM.1; linarith [hE.1]
  have s1 : |X + x| ≤ P * ((n + 1) * M) := (abs_add_le _ _).trans (by linarith)
  have s2 : |v + w - (X + x)| ≤ u64 * (P * (2 * n * (E + n * M + 1) + E)) := by
    rw [show v + w - (X + x) = (v - X) + (w - x) by ring]
    refine (abs_add_le _ _).trans ((add_le_add h3 h5).trans_eq (by ring))
  have q : u64 * (2 * n * (E + n * M + 1) + E) ≤ E + n * M + 1 := by
    have q1 : 2 * n * (E + n * M + 1) + E ≤ (2 * n + 1) * (E + n * M + 1) := by nlinarith [mul_nonneg hn0 hM.1]
    have q2 : u64 * (2 * n + 1) ≤ 1 := by
      rw [u64_eq, div_mul_eq_mul_div, one_mul, div_le_one (by positivity)]
      refine (show (2:ℝ) * n + 1 ≤ 2 * 2 ^ 40 + 1 by linarith).trans (by norm_num)
    calc u64 * (2 * n * (E + n * M + 1) + E) ≤ u64 * ((2 * n + 1) * (E + n * M + 1)) := by gcongr
      _ = u64 * (2 * n + 1) * (E + n * M + 1) := by ring
      _ ≤ 1 * (E + n * M + 1) := by gcongr
      _ = _ := one_mul _
  have s3 : |v + w| ≤ P * ((n + 1) * M + (E + n * M + 1)) := by
    have : |v + w| ≤ |X + x| + |v + w - (X + x)| := by
      have := abs_add_le (X + x) (v + w - (X + x)); simpa using this
    calc |v + w| ≤ _ := this
      _ ≤ P * ((n + 1) * M) + u64 * (P * (2 * n * (E + n * M + 1) + E)) := add_le_add s1 s2
      _ = P * ((n + 1) * M) + P * (u64 * (2 * n * (E + n * M + 1) + E)) := by ring
      _ ≤ P * ((n + 1) * M) + P * (E + n * M + 1) := by gcongr
      _ = _ := by ring
  have heta : f.eta ≤ u64 * P := by
    refine hf.eta.trans ?_
    have : (2:ℝ) ^ (-1074 : ℤ) ≤ 2 ^ (-53 : ℤ) * 2 ^ (-100 : ℤ) := by
      rw [← zpow_add₀ two_ne_zero]; exact zpow_le_zpow_right₀ one_le_two (by norm_num)
    exact this.trans (mul_le_mul_of_nonneg_left hP.1 hu.le)
  have s4 : |f.fl (v + w) - (v + w)| ≤ u64 * (P * ((n + 1) * M + (E + n * M + 1) + 1)) := by
    refine (f.err _).trans ?_
    have : f.u * |v + w| ≤ u64 * (P * ((n + 1) * M + (E + n * M + 1))) := mul_le_mul hf.u s3 (abs_nonneg _) hu.le
    calc f.u * |v + w| + f.eta ≤ u64 * (P * ((n + 1) * M + (E + n * M + 1))) + u64 * P := add_le_add this heta
      _ = _ := by ring
  have hbig : |f.fl (v + w)| ≤ f.big := by
    have e1 : |f.fl (v + w)| ≤ |v + w| + |f.fl (v + w) - (v + w)| := by
      have := abs_add_le (v + w) (f.fl (v + w) - (v + w)); simpa using this
    have hu1 : u64 ≤ 1 := by rw [u64_eq]; norm_num
    have c1 : (n + 1) * M + (E + n * M + 1) + 1 ≤ (2:ℝ) ^ 105 := by
      have a1 : (n + 1) * M ≤ ((2:ℝ) ^ 40 + 1) * 2 ^ 60 := mul_le_mul (by linarith) hM.2 hM.1 (by positivity)
      have a2 : n * M ≤ (2:ℝ) ^ 40 * 2 ^ 60 := mul_le_mul hn' hM.2 hM.1 (by positivity)
      refine (show (n + 1) * M + (E + n * M + 1) + 1 ≤ ((2:ℝ) ^ 40 + 1) * 2 ^ 60 + (2 ^ 60 + 2 ^ 40 * 2 ^ 60 + 1) + 1 by linarith [hE.2]).trans (by norm_num)
    have hc0 : 0 ≤ (n + 1) * M + (E + n * M + 1) + 1 := by have := mul_nonneg (by linarith : (0:ℝ) ≤ n + 1) hM.1; linarith
    have hPc : P * ((n + 1) * M + (E + n * M + 1) + 1) ≤ 2 ^ (100 : ℤ) * 2 ^ 105 := mul_le_mul hP.2 c1 hc0 (by positivity)
    have hPc0 : 0 ≤ P * ((n + 1) * M + (E + n * M + 1) + 1) := by positivity
    calc |f.fl (v + w)| ≤ _ := e1
      _ ≤ P * ((n + 1) * M + (E + n * M + 1) + 1) + 1 * (P * ((n + 1) * M + (E + n * M + 1) + 1)) := by
        refine add_le_add (s3.trans ?_) (s4.trans ?_)
        · exact mul_le_mul_of_nonneg_left (by linarith) hP0.le
        · exact mul_le_mul_of_nonneg_right hu1 hPc0
      _ ≤ 2 ^ (100 : ℤ) * 2 ^ 105 + 1 * (2 ^ (100 : ℤ) * 2 ^ 105) := by gcongr
      _ = (2:ℝ) ^ (206 : ℤ) := by norm_num
      _ ≤ 2 ^ (1023 : ℤ) := zpow_le_zpow_right₀ one_le_two (by norm_num)
      _ ≤ _ := hf.big
  refine ⟨f.fl (v + w), ?_, by push_cast; exact s1, ?_⟩
  · show f.rnd (v + w) = _
    unfold Fmt.rnd; rw [if_pos hbig]
  · rw [show f.fl (v + w) - (X + x) = (f.fl (v + w) - (v + w)) + (v + w - (X + x)) by ring]
    refine (abs_add_le _ _).trans ((add_le_add s4 s2).trans ?_)
    rw [← mul_add, ← mul_add]
    refine mul_le_mul_of_nonneg_left (mul_le_mul_of_nonneg_left ?_ hP0.le) hu.le
    push_cast
    nlinarith [mul_nonneg hn0 hM.1, hM.1]

/-- an increment at the place `i`, `j` of a matrix -/
def hits (d i j : ℕ) (t : ℤ × ℤ) : Bool := decide (pyIdx d t.1 = some i) && decide (pyIdx d t.2 = some j)

theorem pyIdx_mod5 {n : ℕ} {r : ℤ} {i : ℕ} (h : pyIdx (n * 5) r = some i) : r % 5 = ((i % 5 : ℕ) : ℤ) := by
  unfold pyIdx at h
  split at h <;> split at h <;> simp at h <;> omega

theorem U_blk (s : Units) {i j : ℕ} : s.U (blk ((i % 5 : ℕ) : ℤ) ((j % 5 : ℕ) : ℤ)) = behind s.p s.q s.r (i % 5) (j % 5) := by
  have e : ∀ n : ℕ, ((n : ℤ) < 2 ↔ n < 2) := fun n => by omega
  unfold blk behind
  simp only [e]
  split <;> split <;> simp [Units.U, grA, grB, grD]

theorem behind_medium (s : Units) (i j : ℕ) : Medium (behind s.p s.q s.r i j) := by
  unfold behind
  split <;> split
  exacts [s.hp, s.hq, s.hq, s.hr]

/-- blocks of increments -/
theorem addAll_tot (hf : Spec.Double f) {p : Prof} (hM : 0 ≤ (p.M : ℝ) ∧ (p.M : ℝ) ≤ 2 ^ 60) (hE : 0 ≤ (p.E : ℝ) ∧ (p.E : ℝ) ≤ 2 ^ 60) {N : ℕ}
    {es : List (ℤ × ℤ × Fo f)} {es0 : List (ℤ × ℤ × ℝ)}
    (h : List.Forall₂ (fun x y => x.1 = y.1 ∧ x.2.1 = y.2.1 ∧ (vE p x.1 x.2.1).Has s x.2.2 y.2.2) es es0) :
    ∀ {M : FMat} {M0 : Mat}, M.dim = N * 5 → M0.dim = N * 5 → (M0.addAll es0).2 = none →
      (f.addAll M es).2 = none ∧ (f.addAll M es).1.dim = N * 5 ∧ (M0.addAll es0).1.dim = N * 5 ∧
      ∀ i j n, n + (es.map pos2).countP (hits (N * 5) i j) ≤ 2 ^ 40 → Tot (behind s.p s.q s.r (i % 5) (j % 5)) p.M p.E n (M.get i j) (M0.get i j) →
        Tot (behind s.p s.q s.r (i % 5) (j % 5)) p.M p.E (n + (es.map pos2).countP (hits (N * 5) i j)) ((f.addAll M es).1.get i j) ((M0.addAll es0).1.get i j) := by
  induction h with
  | nil => intro M M0 h1 h2 _; exact ⟨rfl, h1, h2, fun i j n _ h => h⟩
  | @cons a b es es0 hab _ ih =>
    intro M M0 h1 h2 h0
    obtain ⟨r, c, v⟩ := a
    obtain ⟨r', c', v0⟩ := b
    obtain ⟨e1, e2, hv⟩ := hab
    dsimp only at e1 e2 hv
    subst e1 e2
    simp only [Fmt.addAll, Mat.addAll, Fmt.addAt, Mat.addAt, h1, h2] at h0 ⊢
    rcases hr : pyIdx (N * 5) r with _ | x
    · rw [hr] at h0; simp at h0
    rcases hc : pyIdx (N * 5) c with _ | y
    · rw [hr, hc] at h0; simp at h0
    rw [hr, hc] at h0
    dsimp only at h0 ⊢
    obtain ⟨i1, i2, i3, i4⟩ := ih (M := f.bump M x y v) (M0 := M0.bump x y v0) h1 h2 h0
    refine ⟨i1, i2, i3, fun i j n hn hA => ?_⟩
    by_cases hxy : i = x ∧ j = y
    · have hh : hits (N * 5) i j (r, c) = true := by simp [hits, hr, hc, hxy.1, hxy.2]
      have hct : (((r, c, v) :: es).map pos2).countP (hits (N * 5) i j) = (es.map pos2).countP (hits (N * 5) i j) + 1 := by
        rw [List.map_cons, List.countP_cons]; show _ + (if hits (N * 5) i j (r, c) = true then 1 else 0) = _; rw [hh]; rfl
      rw [hct] at hn ⊢
      rw [show n + ((es.map pos2).countP (hits (N * 5) i j) + 1) = n + 1 + (es.map pos2).countP (hits (N * 5) i j) by omega]
      refine i4 i j (n + 1) (by omega) ?_
      · simp only [Fmt.bump, Mat.bump, if_pos hxy]
        refine hA.step hf (behind_medium s _ _) hM hE (by omega) ?_
        obtain ⟨w, w1, w2, w3, _⟩ := hv rfl
        refine ⟨w, w1, ?_, ?_⟩
        · rw [← U_blk, hxy.1, hxy.2, ← pyIdx_mod5 hr, ← pyIdx_mod5 hc]; exact w2
        · rw [← U_blk, hxy.1, hxy.2, ← pyIdx_mod5 hr, ← pyIdx_mod5 hc]; exact w3
    · have hh : hits (N * 5) i j (r, c) = false := by
        simp only [hits, hr, hc, Option.some.injEq, Bool.and_eq_false_iff, decide_eq_false_iff_not]
        by_contra hcon
        push Not at hcon
        exact hxy ⟨hcon.1.symm, hcon.2.symm⟩
      have hct : (((r, c, v) :: es).map pos2).countP (hits (N * 5) i j) = (es.map pos2).countP (hits (N * 5) i j) := by
        rw [List.map_cons, List.countP_cons]; show _ + (if hits (N * 5) i j (r, c) = true then 1 else 0) = _; rw [hh]; rfl
      rw [hct] at hn ⊢
      refine i4 i j n hn ?_
      simp only [Fmt.bump, Mat.bump, if_neg hxy]
      exact hA

/-! ### how often an edge writes to a place -/

theorem countP_prodPos (l : List ℤ) (a b : ℤ → Bool) : (prodPos l).countP (fun t => a t.1 && b t.2) = l.countP a * l.countP b := by
  have : ∀ l' : List ℤ, (l'.flatMap fun r => l.map fun c => (r, c)).countP (fun t => a t.1 && b t.2) = l'.countP a * l.countP b := by
    intro l'
    induction l' with
    | nil => simp
    | cons r l' ih =>
      rw [List.flatMap_cons, List.countP_append, ih, List.countP_cons, List.countP_map]
      rcases h : a r
      · simp [Function.comp_def, h]
      · simp [Function.comp_def, h, add_mul, add_comm]
  exact this l

theorem row_count {n : ℕ} (hn : 0 < n) (i : ℕ) {x : ℤ} (h1 : -1 ≤ x) (h2 : x < n) :
    [x * 5 + 0, x * 5 + 1, x * 5 + 3, x * 5 + 4].countP (fun r => decide (pyIdx (n * 5) r = some i)) ≤
      if x = ((i / 5 : ℕ) : ℤ) ∨ x = -1 ∧ i / 5 + 1 = n then 1 else 0 := by
  have e : ∀ d : ℤ, 0 ≤ d → d < 5 → (pyIdx (n * 5) (x * 5 + d) = some i ↔ (if 0 ≤ x then x * 5 + d = i else x * 5 + d + n * 5 = i)) := by
    intro d d0 d5
    unfold pyIdx
    by_cases hx : 0 ≤ x
    · rw [if_pos (by omega), if_pos (by push_cast; omega), if_pos hx]; simp only [Option.some.injEq]; omega
    · rw [if_neg (by omega), if_pos (by push_cast; omega), if_neg hx]; simp only [Option.some.injEq]; push_cast; omega
  simp only [List.countP_cons, List.countP_nil, decide_eq_true_eq, e 0 (by norm_num) (by norm_num), e 1 (by norm_num) (by norm_num), e 3 (by norm_num) (by norm_num),
    e 4 (by norm_num) (by norm_num)]
  by_cases hx : 0 ≤ x
  · simp only [hx, if_true]
    split_ifs <;> omega
  · simp only [hx, if_false]
    split_ifs <;> omega

theorem rows_count {n : ℕ} (hn : 0 < n) (i : ℕ) (l : List ℤ) (h : ∀ x ∈ l, -1 ≤ x ∧ x < n) :
    (rowsK l).countP (fun r => decide (pyIdx (n * 5) r = some i)) ≤ l.countP fun x => decide (x = ((i / 5 : ℕ) : ℤ) ∨ x = -1 ∧ i / 5 + 1 = n) := by
  induction l with
  | nil => simp [rowsK]
  | cons x l ih =>
    have : rowsK (x :: l) = [x * 5 + 0, x * 5 + 1, x * 5 + 3, x * 5 + 4] ++ rowsK l := rfl
    rw [this, List.countP_append]
    have a := ih fun y hy => h y (List.mem_cons_of_mem _ hy)
    have b := row_count hn i (h x (by simp)).1 (h x (by simp)).2
    refine (Nat.add_le_add b a).trans ?_
    rw [List.countP_cons]
    simp only [decide_eq_true_eq]
    omega

theorem two_count {l : List ℤ} (h : l.Nodup) (a b : ℤ) (q : Prop) [Decidable q] : l.countP (fun x => decide (x = a ∨ x = b ∧ q)) ≤ 2 := by
  have h1 : l.countP (fun x => decide (x = a ∨ x = b ∧ q)) ≤ l.count a + l.count b := by
    clear h
    induction l with
    | nil => simp
    | cons x l ih =>
      simp only [List.countP_cons, List.count_cons, decide_eq_true_eq, beq_iff_eq]
      split_ifs <;> omega
  have h2 := List.nodup_iff_count_le_one.1 h a
  have h3 := List.nodup_iff_count_le_one.1 h b
  omega

theorem iptIndices_nodup (idx : ℕ → ℤ) (l : List IPt) : (iptIndices idx l).Nodup :=
  (List.perm_insertionSort _ _).nodup_iff.2 (List.nodup_dedup _)

/-- the places one edge writes to -/
theorem edge_hits {m : Mesh} (w : WF m) (hp : Proper m) (hg : Planar m) (hq : Prepared m) {pn : Bool} (hh : HasProps m pn) {k : Key} (hk : k ∈ m.ekeys)
    {gg : Geo} (hgl : List.Forall₂ LikePt (m.edge k).ipts (gg.ipts.map FPt.ids)) {c : K0Env Flo} (hc : f.k0Env m pn (m.edge k) gg = .ok c) {a b : ℕ} (ha : a < m.nids.length)
    (hb : b < m.nids.length) {r t : ℕ} (hr : r < 5) (ht : t < 5) :
    ((k0Entries (K := Fo f) c).map pos2).countP (hits (m.nids.length * 5) (5 * a + r) (5 * b + t)) ≤ 4 ∧
    (¬ (WritesK0 m k (m.nids.getD a 0) ∧ WritesK0 m k (m.nids.getD b 0)) →
      ((k0Entries (K := Fo f) c).map pos2).countP (hits (m.nids.length * 5) (5 * a + r) (5 * b + t)) = 0) := by
  obtain ⟨ns, Ac, pm, hd, hns, _⟩ := edgeGeoP w hp hg hq hh hk
  have hix := k0Env_ix hc
  rw [iptIndices_like hgl] at hix
  have hlen : gg.ipts.length = (m.edge k).ipts.length := by have := hgl.length_eq; rw [List.length_map] at this; exact this.symm
  rw [hlen] at hix
  have hix0 : ∀ x ∈ iptIndices (nodeIdx m) (m.edge k).ipts, ∃ i, AtEdge m k i ∧ i ∈ m.nids ∧ x = (m.nids.idxOf i : ℤ) := by
    intro x hx
    obtain ⟨q, hq1, hq2⟩ := mem_iptIndices.1 hx
    have hn := hd.ipts q hq1
    have key : ∀ i ∈ ns, x = nodeIdx m i → ∃ i, AtEdge m k i ∧ i ∈ m.nids ∧ x = (m.nids.idxOf i : ℤ) := fun i hi he =>
      ⟨i, (hns i).1 hi, hd.ns_nids i hi, by rw [he, hq.nodeIdx' (hd.ns_nids i hi)]⟩
    rcases hq2 with h | h | h
    exacts [key _ hn.1 h, key _ hn.2.1 h, key _ hn.2.2.1 h]
  have h3 : (m.edge k).ipts.length = 3 → OneTria m k := by
    intro h
    unfold OneTria
    rcases prepared_shape w hp hq hk with ⟨t', o, he, hs⟩ | ⟨t1, t2, o1, o2, he, hs1, hs2, _, _⟩
    · rw [he]; simp [bEdge]
    · rw [he] at h; simp [iEdge, iptsA, iptsI] at h
  have hmem : ∀ x ∈ [c.i1, c.i2, c.i3, c.i4], (∃ i, AtEdge m k i ∧ i ∈ m.nids ∧ x = (m.nids.idxOf i : ℤ)) ∨ OneTria m k ∧ x = -1 := by
    intro x hx
    rw [hix] at hx
    split at hx
    · rename_i hl
      rcases List.mem_append.1 hx with h | h
      · exact Or.inl (hix0 x h)
      · exact Or.inr ⟨h3 hl, List.mem_singleton.1 h⟩
    · exact Or.inl (hix0 x hx)
  have hnd : [c.i1, c.i2, c.i3, c.i4].Nodup := by
    rw [hix]
    split
    · refine List.nodup_append.2 ⟨iptIndices_nodup _ _, by simp, ?_⟩
      intro x hx y hy
      obtain ⟨i, _, _, rfl⟩ := hix0 x hx
      rw [List.mem_singleton.1 hy]; omega
    · exact iptIndices_nodup _ _
  have hrange : ∀ x ∈ [c.i1, c.i2, c.i3, c.i4], -1 ≤ x ∧ x < (m.nids.length : ℤ) := by
    intro x hx
    rcases hmem x hx with ⟨i, _, hi, rfl⟩ | ⟨_, rfl⟩
    · have := List.idxOf_lt_length_iff.2 hi; omega
    · omega
  have hprod : ((k0Entries (K := Fo f) c).map pos2).countP (hits (m.nids.length * 5) (5 * a + r) (5 * b + t)) =
      (rowsK [c.i1, c.i2, c.i3, c.i4]).countP (fun z => decide (pyIdx (m.nids.length * 5) z = some (5 * a + r))) *
      (rowsK [c.i1, c.i2, c.i3, c.i4]).countP (fun z => decide (pyIdx (m.nids.length * 5) z = some (5 * b + t))) := by
    rw [k0Entries_at (K := Fo f) c, k0_prod]
    exact countP_prodPos (rowsK [c.i1, c.i2, c.i3, c.i4]) (fun z => decide (pyIdx (m.nids.length * 5) z = some (5 * a + r))) (fun z => decide (pyIdx (m.nids.length * 5) z = some (5 * b + t)))
  rw [hprod]
  have cnt : ∀ {a r : ℕ}, a < m.nids.length → r < 5 → (rowsK [c.i1, c.i2, c.i3, c.i4]).countP (fun z => decide (pyIdx (m.nids.length * 5) z = some (5 * a + r))) ≤ 2 ∧
      (¬ WritesK0 m k (m.nids.getD a 0) → (rowsK [c.i1, c.i2, c.i3, c.i4]).countP (fun z => decide (pyIdx (m.nids.length * 5) z = some (5 * a + r))) = 0) := by
    intro a r ha hr
    have h1 := rows_count (by omega : 0 < m.nids.length) (5 * a + r) _ hrange
    rw [show (5 * a + r) / 5 = a by omega] at h1
    refine ⟨h1.trans (two_count hnd _ _ _), fun hw => ?_⟩
    refine Nat.le_zero.1 (h1.trans (Nat.le_zero.2 (List.countP_eq_zero.2 fun x hx => ?_)))
    simp only [decide_eq_true_eq]
    have hget : m.nids[a]? = some (m.nids.getD a 0) := by
      rw [List.getD_eq_getElem?_getD, List.getElem?_eq_getElem ha]; rfl
    rintro (h | ⟨h, hn⟩)
    · rcases hmem x hx with ⟨i, hi, hin, hxi⟩ | ⟨_, hx1⟩
      · apply hw
        left
        have hia : m.nids.idxOf i = a := by omega
        have : m.nids.getD a 0 = i := by
          have h5 := List.getElem?_idxOf hin
          rw [hia, hget] at h5
          exact Option.some.inj h5
        rw [this]; exact hi
      · omega
    · rcases hmem x hx with ⟨i, hi, hin, hxi⟩ | ⟨ho, _⟩
      · omega
      · apply hw
        right
        refine ⟨ho, ?_⟩
        rw [List.getLast?_eq_getElem?, ← hget]
        congr 1; omega
  have ca := cnt ha hr
  have cb := cnt hb ht
  refine ⟨(Nat.mul_le_mul ca.1 cb.1).trans (by norm_num), fun hw => ?_⟩
  by_cases h1 : WritesK0 m k (m.nids.getD a 0)
  · rw [cb.2 fun h2 => hw ⟨h1, h2⟩, mul_zero]
  · rw [ca.2 h1, zero_mul]

/-! ### the loop -/

section
variable {p : Prof} {m : Mesh} {pn : Bool} {PA PB PD : ℝ}

open Classical in
/-- one edge -/
theorem k0Edge_tot (hf : Spec.Double f) (hp0 : p.ok = true) (hc : p.chk = true) (hM : 0 ≤ (p.M : ℝ) ∧ (p.M : ℝ) ≤ 2 ^ 60) (hE : 0 ≤ (p.E : ℝ) ∧ (p.E : ℝ) ≤ 2 ^ 60)
    (w : WF m) (hp : Proper m) (hg : Planar m) (hq : Prepared m) (hh : HasProps m pn) (hA : Medium PA) (hB : Medium PB) (hD : Medium PD) (hl : LamsUpTo m pn PA PB PD)
    (hfit : Fits m p.σ p.G) {k : Key} (hk : k ∈ m.ekeys) {M : FMat} {M0 : Mat} (d1 : M.dim = m.nids.length * 5) (d2 : M0.dim = m.nids.length * 5)
    (h0 : (k0Edge m pn M0 k).2 = none) :
    (f.k0Edge m (fun k => f.geo m (m.edge k)) pn M k).2 = none ∧ (f.k0Edge m (fun k => f.geo m (m.edge k)) pn M k).1.dim = m.nids.length * 5 ∧
    (k0Edge m pn M0 k).1.dim = m.nids.length * 5 ∧
    ∀ a < m.nids.length, ∀ b < m.nids.length, ∀ r < 5, ∀ t < 5, ∀ n,
      n + 4 * (if WritesK0 m k (m.nids.getD a 0) ∧ WritesK0 m k (m.nids.getD b 0) then 1 else 0) ≤ 2 ^ 40 →
      Tot (behind PA PB PD r t) p.M p.E n (M.get (5 * a + r) (5 * b + t)) (M0.get (5 * a + r) (5 * b + t)) →
      Tot (behind PA PB PD r t) p.M p.E (n + 4 * (if WritesK0 m k (m.nids.getD a 0) ∧ WritesK0 m k (m.nids.getD b 0) then 1 else 0))
        ((f.k0Edge m (fun k => f.geo m (m.edge k)) pn M k).1.get (5 * a + r) (5 * b + t)) ((k0Edge m pn M0 k).1.get (5 * a + r) (5 * b + t)) := by
  have := hf
  obtain ⟨l, hml, hft⟩ := hfit k hk
  obtain ⟨_, Ac, _, hd, _⟩ := edgeGeoP w hp hg hq hh hk
  obtain ⟨E0, henv, _⟩ := hd.env
  let s : Units := ⟨l, PA, PB, PD, hml, hA, hB, hD⟩
  obtain ⟨c, hc1, hc2⟩ := env_has (s := s) hf hp0 w hp hg hq hh hk hft hl henv
  have hes := k0Entries_has (f := f) hc hc2
  unfold Fmt.k0Edge
  unfold k0Edge at h0 ⊢
  rw [henv] at h0 ⊢
  dsimp only at h0 ⊢
  rw [hc1]
  dsimp only
  have hσ : 0 < p.σ ∧ okOr p.σ p.G = true := by
    simp only [Prof.ok, Bool.and_eq_true, decide_eq_true_eq] at hp0
    exact ⟨hp0.1.1.1.1.1.1.1.1.1, hp0.2⟩
  have hgeo := (geo_has (s := s) hf hσ.1 hσ.2 w hp hg hq hh hk hft).1
  obtain ⟨i1, i2, i3, i4⟩ := addAll_tot (s := s) (p := p) hf hM hE hes d1 d2 h0
  refine ⟨i1, i2, i3, fun a ha b hb r hr t ht n hn hT => ?_⟩
  obtain ⟨e1, e2⟩ := edge_hits (f := f) w hp hg hq hh hk (hasPt_like hgeo.ipts) hc1 ha hb hr ht
  have hP : 0 ≤ behind PA PB PD r t := le_trans (by positivity) (behind_medium s r t).1
  have hle : ((k0Entries (K := Fo f) c).map pos2).countP (hits (m.nids.length * 5) (5 * a + r) (5 * b + t)) ≤
      4 * (if WritesK0 m k (m.nids.getD a 0) ∧ WritesK0 m k (m.nids.getD b 0) then 1 else 0) := by
    split
    · exact e1
    · rename_i h; rw [e2 h]
  have := i4 (5 * a + r) (5 * b + t) n (by omega)
  rw [show (5 * a + r) % 5 = r by omega, show (5 * b + t) % 5 = t by omega] at this
  exact (this hT).mono hP hM.1 hE.1 (by omega)

open Classical in
theorem loop_tot (hf : Spec.Double f) (hp0 : p.ok = true) (hc : p.chk = true) (hM : 0 ≤ (p.M : ℝ) ∧ (p.M : ℝ) ≤ 2 ^ 60) (hE : 0 ≤ (p.E : ℝ) ∧ (p.E : ℝ) ≤ 2 ^ 60)
    (w : WF m) (hp : Proper m) (hg : Planar m) (hq : Prepared m) (hh : HasProps m pn) (hA : Medium PA) (hB : Medium PB) (hD : Medium PD) (hl : LamsUpTo m pn PA PB PD)
    (hfit : Fits m p.σ p.G) : ∀ (L : List Key), (∀ k ∈ L, k ∈ m.ekeys) → ∀ {M : FMat} {M0 : Mat}, M.dim = m.nids.length * 5 → M0.dim = m.nids.length * 5 →
    (matLoop (k0Edge m pn) M0 L).2 = none →
    (Fmt.loop (f.k0Edge m (fun k => f.geo m (m.edge k)) pn) M L).2 = none ∧ (Fmt.loop (f.k0Edge m (fun k => f.geo m (m.edge k)) pn) M L).1.dim = m.nids.length * 5 ∧
    ∀ a < m.nids.length, ∀ b < m.nids.length, ∀ r < 5, ∀ t < 5, ∀ n,
      n + 4 * L.countP (fun k => WritesK0 m k (m.nids.getD a 0) ∧ WritesK0 m k (m.nids.getD b 0)) ≤ 2 ^ 40 →
      Tot (behind PA PB PD r t) p.M p.E n (M.get (5 * a + r) (5 * b + t)) (M0.get (5 * a + r) (5 * b + t)) →
      Tot (behind PA PB PD r t) p.M p.E (n + 4 * L.countP (fun k => WritesK0 m k (m.nids.getD a 0) ∧ WritesK0 m k (m.nids.getD b 0)))
        ((Fmt.loop (f.k0Edge m (fun k => f.geo m (m.edge k)) pn) M L).1.get (5 * a + r) (5 * b + t)) ((matLoop (k0Edge m pn) M0 L).1.get (5 * a + r) (5 * b + t)) := by
  intro L
  induction L with
  | nil => intro _ M M0 d1 d2 _; exact ⟨rfl, d1, fun _ _ _ _ _ _ _ _ n _ h => h⟩
  | cons k L ih =>
    intro hL M M0 d1 d2 h0
    simp only [matLoop, Fmt.loop] at h0 ⊢
    rcases hg0 : k0Edge m pn M0 k with ⟨N0, _ | e⟩
    · obtain ⟨j1, j2, j3, j4⟩ := k0Edge_tot hf hp0 hc hM hE w hp hg hq hh hA hB hD hl hfit (hL k (by simp)) d1 d2 (M := M) (by rw [hg0])
      rcases hg1 : f.k0Edge m (fun k => f.geo m (m.edge k)) pn M k with ⟨N, _ | e⟩
      · rw [hg0] at h0 j3 j4
        rw [hg1] at j2 j4
        dsimp only at h0 j2 j3 j4 ⊢
        obtain ⟨i1, i2, i3⟩ := ih (fun k' hk' => hL k' (List.mem_cons_of_mem _ hk')) j2 j3 h0
        refine ⟨i1, i2, fun a ha b hb r hr t ht n hn hT => ?_⟩
        have hct : (k :: L).countP (fun k => WritesK0 m k (m.nids.getD a 0) ∧ WritesK0 m k (m.nids.getD b 0)) =
            L.countP (fun k => WritesK0 m k (m.nids.getD a 0) ∧ WritesK0 m k (m.nids.getD b 0)) +
            if WritesK0 m k (m.nids.getD a 0) ∧ WritesK0 m k (m.nids.getD b 0) then 1 else 0 := by
          rw [List.countP_cons]; simp only [decide_eq_true_eq]
        rw [hct] at hn ⊢
        have h1 := j4 a ha b hb r hr t ht n (by omega) hT
        have h2 := i3 a ha b hb r hr t ht _ (by omega) h1
        rw [show ∀ x y : ℕ, n + 4 * (x + y) = n + 4 * y + 4 * x from fun x y => by omega]
        exact h2
      · rw [hg1] at j1; simp at j1
    · rw [hg0] at h0; simp at h0

end

section
variable {m m' : Mesh} (h : SameStatic m m')
include h

theorem SameStatic.lamsUpTo {pn : Bool} {a b d : ℝ} (hl : LamsUpTo m pn a b d) : LamsUpTo m' pn a b d := by
  unfold LamsUpTo IsCorner at *
  simp only [h.eids, h.tria, h.prop]
  exact hl

theorem SameStatic.fits {σ G : ℝ} (hf : Fits m σ G) : Fits m' σ G := by
  intro k hk
  rw [h.ekeys] at hk
  obtain ⟨l, h1, h2⟩ := hf k hk
  refine ⟨l, h1, fun t ht => ?_⟩
  rw [h.trias] at ht
  have c : ∀ i, IsCorner m' t i ↔ IsCorner m t i := fun i => by unfold IsCorner; rw [h.tria]
  obtain ⟨q1, q2, q3⟩ := h2 t ht
  refine ⟨fun i j hi hj => ?_, by rw [h.striArea]; exact q2, fun i hi => ?_⟩
  · rw [h.snx, h.sny]; exact q1 i j ((c i).1 hi) ((c j).1 hj)
  · rw [h.snx, h.sny, h.xyz]; exact q3 i ((c i).1 hi)

theorem SameStatic.writes (k : Key) (i : ℕ) : WritesK0 m' k i ↔ WritesK0 m k i := by
  unfold WritesK0 AtEdge OneTria IsCorner
  simp only [h.trias, h.tria, h.nids]

end

open Classical in
/-- `calc_k0` on a planar mesh whose triangles fit the profile -/
theorem calcK0_tot (hf : Spec.Double f) {p : Prof} (hp0 : p.ok = true) (hc : p.chk = true) (hM : 0 ≤ (p.M : ℝ) ∧ (p.M : ℝ) ≤ 2 ^ 60) (hE : 0 ≤ (p.E : ℝ) ∧ (p.E : ℝ) ≤ 2 ^ 60)
    {m : Mesh} (w : WF m) (hp : Proper m) (hg : Planar m) {pn : Bool} (hh : HasProps m pn) (hne : m.nids ≠ []) {PA PB PD : ℝ} (hA : Medium PA) (hB : Medium PB) (hD : Medium PD)
    (hl : LamsUpTo m pn PA PB PD) (hfit : Fits m p.σ p.G) (hlen : m.ekeys.length ≤ 2 ^ 38) :
    ∃ K F, (calcK0 m pn).2 = .ok K ∧ (f.calcK0 m pn).2.2 = .ok F ∧ F.dim = K.dim ∧
      ∀ i ∈ m.nids, ∀ j ∈ m.nids, ∀ r < 5, ∀ t < 5, Tot (behind PA PB PD r t) p.M p.E (4 * contributions m i j)
        (F.get (5 * m.nids.idxOf i + r) (5 * m.nids.idxOf j + t)) (K.get (5 * m.nids.idxOf i + r) (5 * m.nids.idxOf j + t)) := by
  obtain ⟨K, k1, k2, k3, k4, k5⟩ := calcK0_proper w hp hh hne
  have x1 := ((calcK0_cases m pn w).2 _ k1).2.2.2
  have := loop_tot hf hp0 hc hM hE (k3.wf w) (k3.proper hp) (k3.planar hg) k4 (k3.hasProps hh) hA hB hD (k3.lamsUpTo hl) (k3.fits hfit) m.ekeys (fun k hk => k3.ekeys.symm ▸ hk)
    (M := FMat.zeros (m.nids.length * 5)) (M0 := Mat.zeros (m.nids.length * 5)) (by rw [k3.nids]; rfl) (by rw [k3.nids]; rfl) (by rw [x1])
  rw [x1] at this
  obtain ⟨t1, t2, t3⟩ := this
  rcases hx : Fmt.loop (f.k0Edge (calcK0 m pn).1 (fun k => f.geo (calcK0 m pn).1 ((calcK0 m pn).1.edge k)) pn) (FMat.zeros (m.nids.length * 5)) m.ekeys with ⟨F, _ | e⟩
  · rw [hx] at t2 t3
    dsimp only at t2 t3
    refine ⟨K, F, k1, ?_, by rw [t2, k2, k3.nids], fun i hi j hj r hr t ht => ?_⟩
    · rw [calcK0_snd _ k1, k3.nids, k3.ekeys, hx]
    · have li := List.idxOf_lt_length_iff.2 hi
      have lj := List.idxOf_lt_length_iff.2 hj
      have gi : ∀ i ∈ m.nids, m.nids.getD (m.nids.idxOf i) 0 = i := fun i hi => by
        rw [List.getD_eq_getElem?_getD, List.getElem?_idxOf hi]; rfl
      rw [k3.nids] at t3
      have hct : m.ekeys.countP (fun k => WritesK0 (calcK0 m pn).1 k (m.nids.getD (m.nids.idxOf i) 0) ∧ WritesK0 (calcK0 m pn).1 k (m.nids.getD (m.nids.idxOf j) 0)) =
          contributions m i j := by
        unfold contributions
        congr 1
        funext k
        rw [gi i hi, gi j hj, k3.writes, k3.writes]
      have h1 := t3 _ li _ lj r hr t ht 0
      rw [hct, Nat.zero_add] at h1
      refine h1 ?_ (Tot.zero _ _ _)
      have : contributions m i j ≤ m.ekeys.length := List.countP_le_length
      omega
  · rw [hx] at t1; simp at t1

end Meshless
