import Verif.Lemmas.MagTria

/-! `add_k0s` in formats like float64 with explicit bounds: the sums over the triangles, starting from a given matrix. -/

set_option autoImplicit false

namespace Meshless
open Spec Mg

variable {f : Fmt} {s : Units}

/-- a number up to `P k` with an error up to `P e` roundoffs, after the addition of `n` increments, each up to `P M` with an error up to `P E` roundoffs -/
def Tos (P k e M E : ℝ) (n : ℕ) (F : Flo) (X : ℝ) : Prop :=
  ∃ v, F = .fin v ∧ |X| ≤ P * (k + n * M) ∧ |v - X| ≤ u64 * (P * (e * (1 + n / 2 ^ 40) + 2 * n * (E + k + n * M + 1)))

theorem Wide.pos {x : ℝ} (h : Wide x) : 0 < x := lt_of_lt_of_le (by positivity) h.1

theorem Tos.mono {P k e M E : ℝ} (hP : 0 ≤ P) (hk : 0 ≤ k) (he : 0 ≤ e) (hM : 0 ≤ M) (hE : 0 ≤ E) {n n' : ℕ} (h : n ≤ n') {F : Flo} {X : ℝ} (hA : Tos P k e M E n F X) :
    Tos P k e M E n' F X := by
  obtain ⟨v, h1, h2, h3⟩ := hA
  have hu := u64_pos.le
  have hn : (n : ℝ) ≤ n' := by exact_mod_cast h
  refine ⟨v, h1, h2.trans ?_, h3.trans ?_⟩
  · gcongr
  · gcongr

theorem Tos.step (hf : Spec.Double f) {P k e M E : ℝ} (hP : Wide P) (hk : 0 ≤ k ∧ k ≤ 2 ^ 200) (he : 0 ≤ e ∧ e ≤ 2 ^ 200) (hM : 0 ≤ M ∧ M ≤ 2 ^ 60) (hE : 0 ≤ E ∧ E ≤ 2 ^ 60)
    {n : ℕ} (hn : n < 2 ^ 40) {F W : Flo} {X x : ℝ} (hA : Tos P k e M E n F X) (hW : ∃ w, W = .fin w ∧ |x| ≤ P * M ∧ |w - x| ≤ u64 * (P * E)) :
    Tos P k e M E (n + 1) (f.add F W) (X + x) := by
  obtain ⟨v, rfl, h2, h3⟩ := hA
  obtain ⟨w, rfl, h4, h5⟩ := hW
  have hu := u64_pos
  have hP0 : 0 < P := Wide.pos hP
  have hn' : (n : ℝ) ≤ 2 ^ 40 := by exact_mod_cast hn.le
  have hn0 : (0:ℝ) ≤ n := Nat.cast_nonneg n
  have hnM := mul_nonneg hn0 hM.1
  have hk0 := hk.1
  have hM0 := hM.1
  have he0 := he.1
  obtain ⟨B, hB⟩ : ∃ B, B = E + k + n * M + 1 := ⟨_, rfl⟩
  have hB1 : 1 ≤ B := by rw [hB]; linarith [hE.1]
  have hB2 : B ≤ 2 ^ 201 := by
    rw [hB]
    have a2 : n * M ≤ (2:ℝ) ^ 40 * 2 ^ 60 := mul_le_mul hn' hM.2 hM.1 (by positivity)
    refine (show E + k + n * M + 1 ≤ (2:ℝ) ^ 60 + 2 ^ 200 + 2 ^ 40 * 2 ^ 60 + 1 by linarith [hE.2, hk.2]).trans (by norm_num)
  rw [← hB] at h3
  have s1 : |X + x| ≤ P * (k + (n + 1) * M) := (abs_add_le _ _).trans (by linarith)
  obtain ⟨e1, he1⟩ : ∃ e1, e1 = e * (1 + n / 2 ^ 40) := ⟨_, rfl⟩
  have hn1 : (n:ℝ) / 2 ^ 40 ≤ 1 := by rw [div_le_one (by positivity)]; exact hn'
  have he1' : 0 ≤ e1 ∧ e1 ≤ 2 * e := by
    rw [he1]
    exact ⟨by positivity, by nlinarith [div_nonneg hn0 (show (0:ℝ) ≤ 2 ^ 40 by positivity)]⟩
  rw [← he1] at h3
  have s2 : |v + w - (X + x)| ≤ u64 * (P * (e1 + 2 * n * B + E)) := by
    rw [show v + w - (X + x) = (v - X) + (w - x) by ring]
    refine (abs_add_le _ _).trans ((add_le_add h3 h5).trans_eq (by ring))
  have q : u64 * (e1 + 2 * n * B + E) ≤ e / 2 ^ 41 + B := by
    have q0 : u64 * e1 ≤ e / 2 ^ 41 := by
      calc u64 * e1 ≤ u64 * (2 * e) := by gcongr; exact he1'.2
        _ ≤ e / 2 ^ 41 := by rw [u64_eq]; linarith
    have q1 : 2 * n * B + E ≤ (2 * n + 1) * B := by rw [hB]; nlinarith
    have q2 : u64 * (2 * n + 1) ≤ 1 := by
      rw [u64_eq, div_mul_eq_mul_div, one_mul, div_le_one (by positivity)]
      refine (show (2:ℝ) * n + 1 ≤ 2 * 2 ^ 40 + 1 by linarith).trans (by norm_num)
    calc u64 * (e1 + 2 * n * B + E) = u64 * e1 + u64 * (2 * n * B + E) := by ring
      _ ≤ e / 2 ^ 41 + u64 * ((2 * n + 1) * B) := by gcongr
      _ = e / 2 ^ 41 + u64 * (2 * n + 1) * B := by ring
      _ ≤ e / 2 ^ 41 + 1 * B := by gcongr
      _ = _ := by rw [one_mul]
  have s3 : |v + w| ≤ P * (k + (n + 1) * M + (e / 2 ^ 41 + B)) := by
    have : |v + w| ≤ |X + x| + |v + w - (X + x)| := by
      have := abs_add_le (X + x) (v + w - (X + x)); simpa using this
    calc |v + w| ≤ _ := this
      _ ≤ P * (k + (n + 1) * M) + u64 * (P * (e1 + 2 * n * B + E)) := add_le_add s1 s2
      _ = P * (k + (n + 1) * M) + P * (u64 * (e1 + 2 * n * B + E)) := by ring
      _ ≤ P * (k + (n + 1) * M) + P * (e / 2 ^ 41 + B) := by gcongr
      _ = _ := by ring
  obtain ⟨C, hC⟩ : ∃ C, C = k + (n + 1) * M + (e / 2 ^ 41 + B) := ⟨_, rfl⟩
  rw [← hC] at s3
  have heta : f.eta ≤ u64 * P := by
    refine hf.eta.trans ?_
    have : (2:ℝ) ^ (-1074 : ℤ) ≤ 2 ^ (-53 : ℤ) * 2 ^ (-400 : ℤ) := by
      rw [← zpow_add₀ two_ne_zero]; exact zpow_le_zpow_right₀ one_le_two (by norm_num)
    exact this.trans (mul_le_mul_of_nonneg_left hP.1 hu.le)
  have s4 : |f.fl (v + w) - (v + w)| ≤ u64 * (P * (C + 1)) := by
    refine (f.err _).trans ?_
    have : f.u * |v + w| ≤ u64 * (P * C) := mul_le_mul hf.u s3 (abs_nonneg _) hu.le
    calc f.u * |v + w| + f.eta ≤ u64 * (P * C) + u64 * P := add_le_add this heta
      _ = _ := by ring
  have hbig : |f.fl (v + w)| ≤ f.big := by
    have e1 : |f.fl (v + w)| ≤ |v + w| + |f.fl (v + w) - (v + w)| := by
      have := abs_add_le (v + w) (f.fl (v + w) - (v + w)); simpa using this
    have hu1 : u64 ≤ 1 := by rw [u64_eq]; norm_num
    have c1 : C + 1 ≤ (2:ℝ) ^ 204 := by
      rw [hC]
      have a1 : (n + 1) * M ≤ ((2:ℝ) ^ 40 + 1) * 2 ^ 60 := mul_le_mul (by linarith) hM.2 hM.1 (by positivity)
      have a3 : e / 2 ^ 41 ≤ 2 ^ 200 := (div_le_self he0 (by norm_num)).trans he.2
      refine (show k + (n + 1) * M + (e / 2 ^ 41 + B) + 1 ≤ (2:ℝ) ^ 200 + (2 ^ 40 + 1) * 2 ^ 60 + (2 ^ 200 + 2 ^ 201) + 1 by linarith [hk.2]).trans (by norm_num)
    have hc0 : 0 ≤ C + 1 := by rw [hC]; positivity
    have hPc : P * (C + 1) ≤ 2 ^ (400 : ℤ) * 2 ^ (204 : ℤ) := mul_le_mul hP.2 (by exact_mod_cast c1) hc0 (by positivity)
    have hPc0 : 0 ≤ P * (C + 1) := by positivity
    calc |f.fl (v + w)| ≤ _ := e1
      _ ≤ P * (C + 1) + 1 * (P * (C + 1)) := by
        refine add_le_add (s3.trans ?_) (s4.trans ?_)
        · exact mul_le_mul_of_nonneg_left (by linarith) hP0.le
        · exact mul_le_mul_of_nonneg_right hu1 hPc0
      _ ≤ 2 ^ (400 : ℤ) * 2 ^ (204 : ℤ) + 1 * (2 ^ (400 : ℤ) * 2 ^ (204 : ℤ)) := by gcongr
      _ = (2:ℝ) ^ (1 : ℤ) * (2 ^ (400 : ℤ) * 2 ^ (204 : ℤ)) := by rw [zpow_one]; ring
      _ = (2:ℝ) ^ (605 : ℤ) := by rw [← zpow_add₀ two_ne_zero, ← zpow_add₀ two_ne_zero]; norm_num
      _ ≤ 2 ^ (1023 : ℤ) := zpow_le_zpow_right₀ one_le_two (by norm_num)
      _ ≤ _ := hf.big
  refine ⟨f.fl (v + w), ?_, by push_cast; exact s1, ?_⟩
  · show f.rnd (v + w) = _
    unfold Fmt.rnd; rw [if_pos hbig]
  · rw [show f.fl (v + w) - (X + x) = (f.fl (v + w) - (v + w)) + (v + w - (X + x)) by ring]
    refine (abs_add_le _ _).trans ((add_le_add s4 s2).trans ?_)
    rw [← mul_add, ← mul_add]
    refine mul_le_mul_of_nonneg_left (mul_le_mul_of_nonneg_left ?_ hP0.le) hu.le
    push_cast
    rw [hC, he1, hB]
    have : e * ((n + 1) / 2 ^ 40) = e * (n / 2 ^ 40) + 2 * (e / 2 ^ 41) := by ring
    nlinarith [div_nonneg he0 (show (0:ℝ) ≤ 2 ^ 41 by positivity)]

/-! ### blocks of increments -/

theorem U_rot (s : Units) {g L : ℝ} (hg : s.p = g) (hl : s.l ≤ L) {i j : ℕ} : s.U (rotG ((i % 5 : ℕ) : ℤ) ((j % 5 : ℕ) : ℤ)) ≤ shearUnit g L (i % 5) (j % 5) := by
  have p0 := s.p_pos
  have l0 := s.l_pos
  have e : ∀ n : ℕ, ((n : ℤ) = 2 ↔ n = 2) := fun n => by omega
  unfold rotG shearUnit
  simp only [e, ← hg]
  split <;> split <;> simp only [Units.U, zpow_zero, zpow_one, mul_one, one_mul, add_zero, zero_add]
  · exact le_rfl
  · rw [mul_comm]; gcongr
  · rw [mul_comm]; gcongr
  · rw [show (1:ℤ) + 1 = 2 by norm_num, zpow_two]
    have L0 := l0.le.trans hl
    calc s.l * s.l * s.p = s.p * s.l * s.l := by ring
      _ ≤ _ := by gcongr

theorem addAll_tos (hf : Spec.Double f) {p : ProfS} (hM : 0 ≤ (p.M : ℝ) ∧ (p.M : ℝ) ≤ 2 ^ 60) (hE : 0 ≤ (p.E : ℝ) ∧ (p.E : ℝ) ≤ 2 ^ 60) {N : ℕ} {g L : ℝ} (hg : s.p = g)
    (hl : s.l ≤ L) {es : List (ℤ × ℤ × Fo f)} {es0 : List (ℤ × ℤ × ℝ)}
    (h : List.Forall₂ (fun x y => x.1 = y.1 ∧ x.2.1 = y.2.1 ∧ (wX p x.1 x.2.1).Has s x.2.2 y.2.2) es es0) :
    ∀ {M : FMat} {M0 : Mat}, M.dim = N * 5 → M0.dim = N * 5 → (∀ q ∈ es.map pos2, (pyIdx (N * 5) q.1).isSome ∧ (pyIdx (N * 5) q.2).isSome) →
      (f.addAll M es).2 = none ∧ (M0.addAll es0).2 = none ∧ (f.addAll M es).1.dim = N * 5 ∧ (M0.addAll es0).1.dim = N * 5 ∧
      ∀ i j n P k e, Wide P → shearUnit g L (i % 5) (j % 5) ≤ P → (0 ≤ k ∧ k ≤ 2 ^ 200) → (0 ≤ e ∧ e ≤ 2 ^ 200) → n + (es.map pos2).countP (hits (N * 5) i j) ≤ 2 ^ 40 →
        Tos P k e p.M p.E n (M.get i j) (M0.get i j) →
        Tos P k e p.M p.E (n + (es.map pos2).countP (hits (N * 5) i j)) ((f.addAll M es).1.get i j) ((M0.addAll es0).1.get i j) := by
  induction h with
  | nil => intro M M0 h1 h2 _; exact ⟨rfl, rfl, h1, h2, fun i j n P k e _ _ _ _ _ h => h⟩
  | @cons a b es es0 hab _ ih =>
    intro M M0 h1 h2 h0
    obtain ⟨r, c, v⟩ := a
    obtain ⟨r', c', v0⟩ := b
    obtain ⟨e1, e2, hv⟩ := hab
    dsimp only at e1 e2 hv
    subst e1 e2
    simp only [List.map_cons, List.forall_mem_cons] at h0
    obtain ⟨⟨o1, o2⟩, h0⟩ := h0
    obtain ⟨x, hr⟩ := Option.isSome_iff_exists.1 o1
    obtain ⟨y, hc⟩ := Option.isSome_iff_exists.1 o2
    simp only [pos2] at hr hc
    simp only [Fmt.addAll, Mat.addAll, Fmt.addAt, Mat.addAt, h1, h2, hr, hc]
    obtain ⟨i1, i1', i2, i3, i4⟩ := ih (M := f.bump M x y v) (M0 := M0.bump x y v0) h1 h2 h0
    refine ⟨i1, i1', i2, i3, fun i j n P k e hP hu hk he hn hA => ?_⟩
    by_cases hxy : i = x ∧ j = y
    · have hh : hits (N * 5) i j (r, c) = true := by simp [hits, hr, hc, hxy.1, hxy.2]
      have hct : (((r, c, v) :: es).map pos2).countP (hits (N * 5) i j) = (es.map pos2).countP (hits (N * 5) i j) + 1 := by
        rw [List.map_cons, List.countP_cons]; show _ + (if hits (N * 5) i j (r, c) = true then 1 else 0) = _; rw [hh]; rfl
      rw [hct] at hn ⊢
      rw [show n + ((es.map pos2).countP (hits (N * 5) i j) + 1) = n + 1 + (es.map pos2).countP (hits (N * 5) i j) by omega]
      refine i4 i j (n + 1) P k e hP hu hk he (by omega) ?_
      · simp only [Fmt.bump, Mat.bump, if_pos hxy]
        refine hA.step hf hP hk he hM hE (by omega) ?_
        obtain ⟨w, w1, w2, w3, _⟩ := hv rfl
        have hU : s.U (wX p r c).g ≤ P := by
          show s.U (rotG (r % 5) (c % 5)) ≤ P
          rw [pyIdx_mod5 hr, pyIdx_mod5 hc, ← hxy.1, ← hxy.2]
          exact (U_rot s hg hl).trans hu
        have hM0 : (0:ℝ) ≤ ((wX p r c).m : ℝ) := hM.1
        have hE0 : (0:ℝ) ≤ ((wX p r c).e : ℝ) := hE.1
        refine ⟨w, w1, w2.trans ?_, w3.trans ?_⟩
        · exact mul_le_mul_of_nonneg_right hU hM0
        · exact mul_le_mul_of_nonneg_left (mul_le_mul_of_nonneg_right hU hE0) u64_pos.le
    · have hh : hits (N * 5) i j (r, c) = false := by
        simp only [hits, hr, hc, Option.some.injEq, Bool.and_eq_false_iff, decide_eq_false_iff_not]
        by_contra hcon
        push Not at hcon
        exact hxy ⟨hcon.1.symm, hcon.2.symm⟩
      have hct : (((r, c, v) :: es).map pos2).countP (hits (N * 5) i j) = (es.map pos2).countP (hits (N * 5) i j) := by
        rw [List.map_cons, List.countP_cons]; show _ + (if hits (N * 5) i j (r, c) = true then 1 else 0) = _; rw [hh]; rfl
      rw [hct] at hn ⊢
      refine i4 i j n P k e hP hu hk he hn ?_
      simp only [Fmt.bump, Mat.bump, if_neg hxy]
      exact hA

/-! ### how often a triangle writes to a place -/

theorem row3_count {n a r : ℕ} (hr : r < 5) {x : ℕ} (hx : x < n) :
    [(x : ℤ) * 5 + 2, x * 5 + 3, x * 5 + 4].countP (fun z => decide (pyIdx (n * 5) z = some (5 * a + r))) = if 2 ≤ r ∧ x = a then 1 else 0 := by
  have e : ∀ d : ℕ, d < 5 → (pyIdx (n * 5) ((x : ℤ) * 5 + d) = some (5 * a + r) ↔ x = a ∧ d = r) := by
    intro d d5
    unfold pyIdx
    rw [if_pos (by omega), if_pos (by push_cast; omega)]; simp only [Option.some.injEq]; omega
  have e2 := e 2 (by norm_num)
  have e3 := e 3 (by norm_num)
  have e4 := e 4 (by norm_num)
  push_cast at e2 e3 e4
  simp only [List.countP_cons, List.countP_nil, decide_eq_true_eq, e2, e3, e4]
  split_ifs <;> omega

theorem rows3_count {n a r : ℕ} (hr : r < 5) {x y z : ℕ} (hx : x < n) (hy : y < n) (hz : z < n) (h1 : x ≠ y) (h2 : y ≠ z) (h3 : z ≠ x) :
    (rows3 x y z).countP (fun q => decide (pyIdx (n * 5) q = some (5 * a + r))) = if 2 ≤ r ∧ (a = x ∨ a = y ∨ a = z) then 1 else 0 := by
  have : rows3 x y z = [(x : ℤ) * 5 + 2, x * 5 + 3, x * 5 + 4] ++ ([(y : ℤ) * 5 + 2, y * 5 + 3, y * 5 + 4] ++ [(z : ℤ) * 5 + 2, z * 5 + 3, z * 5 + 4]) := rfl
  rw [this, List.countP_append, List.countP_append, row3_count hr hx, row3_count hr hy, row3_count hr hz]
  split_ifs <;> omega

theorem ite_count {r q : ℕ} {A B : Prop} [Decidable A] [Decidable B] :
    (if 2 ≤ r ∧ A then 1 else 0) * (if 2 ≤ q ∧ B then 1 else 0) = if r < 2 ∨ q < 2 then 0 else if A ∧ B then 1 else 0 := by
  by_cases hr : r < 2
  · rw [if_neg (by omega), zero_mul, if_pos (Or.inl hr)]
  by_cases hq : q < 2
  · rw [if_neg (show ¬ (2 ≤ q ∧ B) by omega), mul_zero, if_pos (Or.inr hq)]
  have hr' : 2 ≤ r := by omega
  have hq' : 2 ≤ q := by omega
  by_cases hA : A <;> by_cases hB : B <;> simp [hr, hq, hr', hq', hA, hB]

/-- one triangle of `add_k0s`: increments within bounds at the places of its corners -/
def TriaStep (f : Fmt) (p : ProfS) (m : Mesh) (g L : ℝ) (F : FMat → ℕ → FMat × Option Err) (X : Mat → ℕ → Mat × Option Err) (e : ℕ) : Prop :=
  ∃ (s : Units) (es : List (ℤ × ℤ × Fo f)) (es0 : List (ℤ × ℤ × ℝ)) (n1 n2 n3 : ℕ), s.p = g ∧ s.l ≤ L ∧ (∀ M, F M e = f.addAll M es) ∧ (∀ M, X M e = M.addAll es0) ∧
    List.Forall₂ (fun x y => x.1 = y.1 ∧ x.2.1 = y.2.1 ∧ (wX p x.1 x.2.1).Has s x.2.2 y.2.2) es es0 ∧
    es.map pos2 = prodPos (rows3 (m.nids.idxOf n1 : ℕ) (m.nids.idxOf n2 : ℕ) (m.nids.idxOf n3 : ℕ)) ∧ [n1, n2, n3].Perm (corners m e)

theorem corners_nodup {m : Mesh} (hf : FlatMesh m) {e : ℕ} (he : e ∈ m.eids) : (corners m e).Nodup := by
  have h0 := hf.nondeg e he
  rw [sarea3] at h0
  simp only [mean_single] at h0
  unfold corners
  simp only [List.nodup_cons, List.mem_cons, List.not_mem_nil, or_false, not_or, List.nodup_nil, and_true, not_false_eq_true]
  refine ⟨⟨fun h => h0 ?_, fun h => h0 ?_⟩, fun h => h0 ?_⟩
  all_goals rw [h]; ring

open Classical in
theorem triaStep_tos (hf : Spec.Double f) {p : ProfS} (hM : 0 ≤ (p.M : ℝ) ∧ (p.M : ℝ) ≤ 2 ^ 60) (hE : 0 ≤ (p.E : ℝ) ∧ (p.E : ℝ) ≤ 2 ^ 60) {m : Mesh} (w : WF m) (hm : FlatMesh m)
    {g L : ℝ} {F : FMat → ℕ → FMat × Option Err} {X : Mat → ℕ → Mat × Option Err} {t : ℕ} (ht : t ∈ m.eids) (h : TriaStep f p m g L F X t) {M : FMat} {M0 : Mat}
    (d1 : M.dim = m.nids.length * 5) (d2 : M0.dim = m.nids.length * 5) :
    (F M t).2 = none ∧ (X M0 t).2 = none ∧ (F M t).1.dim = m.nids.length * 5 ∧ (X M0 t).1.dim = m.nids.length * 5 ∧
    ∀ i ∈ m.nids, ∀ j ∈ m.nids, ∀ r < 5, ∀ q < 5, ∀ n P k e, Wide P → shearUnit g L r q ≤ P → (0 ≤ k ∧ k ≤ 2 ^ 200) → (0 ≤ e ∧ e ≤ 2 ^ 200) →
      n + (if r < 2 ∨ q < 2 then 0 else if IsCorner m t i ∧ IsCorner m t j then 1 else 0) ≤ 2 ^ 40 →
      Tos P k e p.M p.E n (M.get (5 * m.nids.idxOf i + r) (5 * m.nids.idxOf j + q)) (M0.get (5 * m.nids.idxOf i + r) (5 * m.nids.idxOf j + q)) →
      Tos P k e p.M p.E (n + (if r < 2 ∨ q < 2 then 0 else if IsCorner m t i ∧ IsCorner m t j then 1 else 0))
        ((F M t).1.get (5 * m.nids.idxOf i + r) (5 * m.nids.idxOf j + q)) ((X M0 t).1.get (5 * m.nids.idxOf i + r) (5 * m.nids.idxOf j + q)) := by
  obtain ⟨s, es, es0, n1, n2, n3, hg, hl, hF, hX, hb, hpos, hperm⟩ := h
  have hnd := hperm.nodup_iff.2 (corners_nodup hm ht)
  simp only [List.nodup_cons, List.mem_cons, List.not_mem_nil, or_false, not_or, List.nodup_nil, and_true, not_false_eq_true] at hnd
  obtain ⟨⟨n12, n13⟩, n23⟩ := hnd
  have hin : ∀ i, i = n1 ∨ i = n2 ∨ i = n3 → i ∈ m.nids := fun i hi => w.corner_mem ht (hperm.mem_iff.1 (by simpa using hi))
  have h1 := hin n1 (by simp)
  have h2 := hin n2 (by simp)
  have h3 := hin n3 (by simp)
  have x1 := List.idxOf_lt_length_iff.2 h1
  have x2 := List.idxOf_lt_length_iff.2 h2
  have x3 := List.idxOf_lt_length_iff.2 h3
  have inj : ∀ {i j : ℕ}, i ∈ m.nids → m.nids.idxOf i = m.nids.idxOf j → i = j := fun hi h => (List.idxOf_inj hi).1 h
  have hcor : ∀ {i : ℕ}, i ∈ m.nids → ((m.nids.idxOf i = m.nids.idxOf n1 ∨ m.nids.idxOf i = m.nids.idxOf n2 ∨ m.nids.idxOf i = m.nids.idxOf n3) ↔ IsCorner m t i) := by
    intro i hi
    rw [← mem_corners_iff, ← hperm.mem_iff]
    simp only [List.mem_cons, List.not_mem_nil, or_false]
    constructor
    · rintro (h | h | h)
      exacts [Or.inl (inj hi h), Or.inr (Or.inl (inj hi h)), Or.inr (Or.inr (inj hi h))]
    · rintro (rfl | rfl | rfl) <;> simp
  have hrange : ∀ q ∈ es.map pos2, (pyIdx (m.nids.length * 5) q.1).isSome ∧ (pyIdx (m.nids.length * 5) q.2).isSome := by
    intro q hq
    rw [hpos, mem_prodPos] at hq
    have : ∀ z ∈ rows3 (m.nids.idxOf n1 : ℕ) (m.nids.idxOf n2 : ℕ) (m.nids.idxOf n3 : ℕ), (pyIdx (m.nids.length * 5) z).isSome := by
      intro z hz
      have hz' : 0 ≤ z ∧ z < (m.nids.length * 5 : ℕ) := by
        simp only [rows3, List.mem_cons, List.not_mem_nil, or_false] at hz
        push_cast
        rcases hz with rfl | rfl | rfl | rfl | rfl | rfl | rfl | rfl | rfl <;> omega
      unfold pyIdx
      rw [if_pos hz'.1, if_pos hz'.2]; rfl
    exact ⟨this _ hq.1, this _ hq.2⟩
  obtain ⟨i1, i2, i3, i4, i5⟩ := addAll_tos hf hM hE hg hl hb d1 d2 hrange
  rw [hF, hX]
  refine ⟨i1, i2, i3, i4, fun i hi j hj r hr q hq n P k e hP hu hk he hn hT => ?_⟩
  have hct : (es.map pos2).countP (hits (m.nids.length * 5) (5 * m.nids.idxOf i + r) (5 * m.nids.idxOf j + q)) =
      if r < 2 ∨ q < 2 then 0 else if IsCorner m t i ∧ IsCorner m t j then 1 else 0 := by
    rw [hpos]
    have := countP_prodPos (rows3 (m.nids.idxOf n1 : ℕ) (m.nids.idxOf n2 : ℕ) (m.nids.idxOf n3 : ℕ)) (fun z => decide (pyIdx (m.nids.length * 5) z = some (5 * m.nids.idxOf i + r)))
      (fun z => decide (pyIdx (m.nids.length * 5) z = some (5 * m.nids.idxOf j + q)))
    refine this.trans ?_
    have y1 : m.nids.idxOf n1 ≠ m.nids.idxOf n2 := fun h => n12 (inj h1 h)
    have y2 : m.nids.idxOf n2 ≠ m.nids.idxOf n3 := fun h => n23 (inj h2 h)
    have y3 : m.nids.idxOf n3 ≠ m.nids.idxOf n1 := fun h => n13 (inj h3 h).symm
    rw [rows3_count hr x1 x2 x3 y1 y2 y3, rows3_count hq x1 x2 x3 y1 y2 y3]
    simp only [hcor hi, hcor hj]
    exact ite_count
  have := i5 (5 * m.nids.idxOf i + r) (5 * m.nids.idxOf j + q) n P k e hP (by
    rw [show (5 * m.nids.idxOf i + r) % 5 = r by omega, show (5 * m.nids.idxOf j + q) % 5 = q by omega]; exact hu) hk he (by rw [hct]; exact hn) hT
  rw [hct] at this
  exact this

open Classical in
theorem loop_tos (hf : Spec.Double f) {p : ProfS} (hM : 0 ≤ (p.M : ℝ) ∧ (p.M : ℝ) ≤ 2 ^ 60) (hE : 0 ≤ (p.E : ℝ) ∧ (p.E : ℝ) ≤ 2 ^ 60) {m : Mesh} (w : WF m) (hm : FlatMesh m)
    {g L : ℝ} {F : FMat → ℕ → FMat × Option Err} {X : Mat → ℕ → Mat × Option Err} : ∀ (l : List ℕ), (∀ t ∈ l, t ∈ m.eids ∧ TriaStep f p m g L F X t) → ∀ {M : FMat} {M0 : Mat},
    M.dim = m.nids.length * 5 → M0.dim = m.nids.length * 5 →
    (Fmt.loop F M l).2 = none ∧ (matLoop X M0 l).2 = none ∧ (Fmt.loop F M l).1.dim = m.nids.length * 5 ∧ (matLoop X M0 l).1.dim = m.nids.length * 5 ∧
    ∀ i ∈ m.nids, ∀ j ∈ m.nids, ∀ r < 5, ∀ q < 5, ∀ n P k e, Wide P → shearUnit g L r q ≤ P → (0 ≤ k ∧ k ≤ 2 ^ 200) → (0 ≤ e ∧ e ≤ 2 ^ 200) →
      n + (if r < 2 ∨ q < 2 then 0 else l.countP fun t => IsCorner m t i ∧ IsCorner m t j) ≤ 2 ^ 40 →
      Tos P k e p.M p.E n (M.get (5 * m.nids.idxOf i + r) (5 * m.nids.idxOf j + q)) (M0.get (5 * m.nids.idxOf i + r) (5 * m.nids.idxOf j + q)) →
      Tos P k e p.M p.E (n + (if r < 2 ∨ q < 2 then 0 else l.countP fun t => IsCorner m t i ∧ IsCorner m t j))
        ((Fmt.loop F M l).1.get (5 * m.nids.idxOf i + r) (5 * m.nids.idxOf j + q)) ((matLoop X M0 l).1.get (5 * m.nids.idxOf i + r) (5 * m.nids.idxOf j + q)) := by
  intro l
  induction l with
  | nil =>
    intro _ M M0 d1 d2
    refine ⟨rfl, rfl, d1, d2, fun i _ j _ r _ q _ n P k e _ _ _ _ _ h => ?_⟩
    simpa [Fmt.loop, matLoop] using h
  | cons t l ih =>
    intro hL M M0 d1 d2
    obtain ⟨ht, hs⟩ := hL t (by simp)
    obtain ⟨j1, j2, j3, j4, j5⟩ := triaStep_tos hf hM hE w hm ht hs d1 d2
    simp only [matLoop, Fmt.loop]
    rcases hg0 : X M0 t with ⟨N0, _ | er⟩
    · rcases hg1 : F M t with ⟨N, _ | er⟩
      · rw [hg1, hg0] at j5
        rw [hg1] at j3
        rw [hg0] at j4
        dsimp only at j3 j4 j5 ⊢
        obtain ⟨i1, i2, i3, i4, i5⟩ := ih (fun t' ht' => hL t' (List.mem_cons_of_mem _ ht')) j3 j4
        refine ⟨i1, i2, i3, i4, fun i hi j hj r hr q hq n P k e hP hu hk he hn hT => ?_⟩
        have hct : (if r < 2 ∨ q < 2 then 0 else (t :: l).countP fun t => decide (IsCorner m t i ∧ IsCorner m t j)) =
            (if r < 2 ∨ q < 2 then 0 else if IsCorner m t i ∧ IsCorner m t j then 1 else 0) +
            (if r < 2 ∨ q < 2 then 0 else l.countP fun t => decide (IsCorner m t i ∧ IsCorner m t j)) := by
          rw [List.countP_cons]
          simp only [decide_eq_true_eq]
          split_ifs <;> omega
        rw [hct] at hn ⊢
        rw [← add_assoc] at hn ⊢
        exact i5 i hi j hj r hr q hq _ P k e hP hu hk he hn (j5 i hi j hj r hr q hq n P k e hP hu hk he (by omega) hT)
      · rw [hg1] at j1; simp at j1
    · rw [hg0] at j2; simp at j2

/-- `add_k0s` from steps within bounds -/
theorem shear_within (hf : Spec.Double f) {p : ProfS} (hM : 0 ≤ (p.M : ℝ) ∧ (p.M : ℝ) ≤ 2 ^ 60) (hE : 0 ≤ (p.E : ℝ) ∧ (p.E : ℝ) ≤ 2 ^ 60) {m : Mesh} (w : WF m) (hm : FlatMesh m)
    {g L : ℝ} {G : Key → Geo} {pn : Bool} {method : String} {al : ℝ} {fa : Bool} {F : FMat → ℕ → FMat × Option Err} {X : Mat → ℕ → Mat × Option Err}
    (h1 : ∀ M, f.addK0s M m G pn method al fa = Fmt.loop F M m.eids) (h2 : ∀ M, addK0s M m pn method al fa = matLoop X M m.eids)
    (hs : ∀ t ∈ m.eids, TriaStep f p m g L F X t) (hlen : m.eids.length ≤ 2 ^ 40) {P : ℕ → ℕ → ℝ} (hP : ∀ r < 5, ∀ q < 5, Wide (P r q) ∧ shearUnit g L r q ≤ P r q) :
    ShearWithin f m G pn method al fa P p.E p.M := by
  classical
  intro K F0 k e hKF hke
  obtain ⟨d2, d1, hKF⟩ := hKF
  obtain ⟨i1, i2, i3, i4, i5⟩ := loop_tos hf hM hE w hm (F := F) (X := X) m.eids (fun t ht => ⟨ht, hs t ht⟩) d1 d2
  refine ⟨(matLoop X K m.eids).1, (Fmt.loop F F0 m.eids).1, ?_, ?_, i4, i3, fun i hi j hj r hr q hq => ?_⟩
  · rw [h2]; exact Prod.ext rfl i2
  · rw [h1]; exact Prod.ext rfl i1
  obtain ⟨k0, k1, e0, e1⟩ := hke i j r q
  obtain ⟨x, x1, x2, x3⟩ := hKF i hi j hj r hr q hq
  have hle : shearCount m i j r q ≤ 2 ^ 40 := by
    unfold shearCount
    split
    · norm_num
    · exact List.countP_le_length.trans hlen
  obtain ⟨hP1, hP2⟩ := hP r hr q hq
  have hT := i5 i hi j hj r hr q hq 0 (P r q) (k i j r q) (e i j r q) hP1 hP2 ⟨k0, k1⟩ ⟨e0, e1⟩ (by rw [zero_add]; exact hle)
    ⟨x, x1, by simpa using x2, by
      refine x3.trans_eq ?_
      rw [u64_eq]; push_cast; ring⟩
  rw [zero_add] at hT
  obtain ⟨y, y1, y2, y3⟩ := (show Tos (P r q) (k i j r q) (e i j r q) p.M p.E (shearCount m i j r q) _ _ from hT)
  refine ⟨y, y1, y2, y3.trans ?_⟩
  have hn : ((shearCount m i j r q : ℕ) : ℝ) / 2 ^ 40 ≤ 1 := by
    rw [div_le_one (by positivity)]; exact_mod_cast hle
  have hP0 := Wide.pos hP1
  calc u64 * (P r q * (e i j r q * (1 + (shearCount m i j r q : ℕ) / 2 ^ 40) + 2 * (shearCount m i j r q : ℕ) * (p.E + k i j r q + (shearCount m i j r q : ℕ) * p.M + 1)))
      ≤ u64 * (P r q * (e i j r q * (1 + 1) + 2 * (shearCount m i j r q : ℕ) * (p.E + k i j r q + (shearCount m i j r q : ℕ) * p.M + 1))) := by
        have := u64_pos
        gcongr
    _ = _ := by rw [u64_eq]; ring

/-- the triangles of the method without smoothing -/
theorem cellNS_step (hf : Spec.Double f) {p : ProfS} (hp : p.okNS = true) (hc : p.chkCellNS = true) {m : Mesh} (w : WF m) (hm : FlatMesh m) (hi : Indexed m) {pn : Bool}
    (hh : HasProps m pn) {g L : ℝ} (hg : Medium g) (hs : ShearsUpTo m pn g) (hz : Sized m p.σ L) {al : ℝ} (hal : al = 0 ∨ Medium al) (fa : Bool) {t : ℕ} (ht : t ∈ m.eids) :
    TriaStep f p m g L (f.cellNSTria m pn al fa) (cellNSTria m pn al fa) t := by
  have := hf
  obtain ⟨l, hl, hL, hsz⟩ := hz t ht
  have hq : ∃ q, Medium q ∧ (al = 0 ∨ q = al) := by
    rcases hal with h | h
    · exact ⟨g, hg, Or.inl h⟩
    · exact ⟨al, h, Or.inr rfl⟩
  obtain ⟨q, hq1, hq2⟩ := hq
  let s : Units := ⟨l, g, q, cavg m pn t fun l => l.h, hl, hg, hq1, thick_of hh hs ht⟩
  obtain ⟨c, E0, n1, n2, n3, h1, h2, h3, h4, e1, e2, e3⟩ := cellNSEnv_has (f := f) (s := s) hf hp ⟨w, hm, ht, hsz⟩ hi hh hs rfl hq2 fa
  refine ⟨s, cellNSEntries (K := Fo f) c, cellNSEntries E0, n1, n2, n3, rfl, hL, fun M => ?_, fun M => ?_, cellNSEntries_has hc h3, ?_, h4⟩
  · unfold Fmt.cellNSTria; rw [h2]
  · unfold cellNSTria; rw [h1]
  · rw [cellNSEntries_at (K := Fo f) c, cellNS_prod, ← e1, ← e2, ← e3]; rfl

end Meshless
