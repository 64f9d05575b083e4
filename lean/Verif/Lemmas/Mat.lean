import Verif.Model.K0
import Mathlib.Algebra.BigOperators.Ring.List
import Mathlib.Algebra.BigOperators.Ring.Finset
import Mathlib.Tactic.Ring
import Mathlib.Tactic.Linarith

set_option autoImplicit false

namespace Meshless
open Finset

theorem pyIdx_nonneg {n : ℕ} {i : ℕ} (h : i < n) : pyIdx n (i : ℤ) = some i := by
  unfold pyIdx
  have : (0 : ℤ) ≤ i := by positivity
  rw [if_pos this, if_pos (by exact_mod_cast h)]
  simp

theorem pyIdx_lt {n : ℕ} {i : ℤ} {k : ℕ} (h : pyIdx n i = some k) : k < n := by
  unfold pyIdx at h
  split at h <;> split at h <;> simp at h <;> omega

/-- sum of the increments of `es` that land in position `(i, j)` of an `n × n` matrix -/
noncomputable def entrySum (n : ℕ) (es : List (ℤ × ℤ × ℝ)) (i j : ℕ) : ℝ :=
  (es.map fun e => if pyIdx n e.1 = some i ∧ pyIdx n e.2.1 = some j then e.2.2 else 0).sum

/-- all index pairs are valid for dimension `n` -/
def EntriesOk (n : ℕ) (es : List (ℤ × ℤ × ℝ)) : Prop :=
  ∀ e ∈ es, (pyIdx n e.1).isSome ∧ (pyIdx n e.2.1).isSome

theorem Mat.addAt_ok {M : Mat} {r c : ℤ} {v : ℝ} (h : (pyIdx M.dim r).isSome ∧ (pyIdx M.dim c).isSome) :
    ∃ M', M.addAt r c v = .ok M' ∧ M'.dim = M.dim ∧
      ∀ i j, M'.get i j = M.get i j + if pyIdx M.dim r = some i ∧ pyIdx M.dim c = some j then v else 0 := by
  obtain ⟨h1, h2⟩ := h
  obtain ⟨a, ha⟩ := Option.isSome_iff_exists.mp h1
  obtain ⟨b, hb⟩ := Option.isSome_iff_exists.mp h2
  refine ⟨M.bump a b v, by simp [Mat.addAt, ha, hb], rfl, fun i j => ?_⟩
  simp only [Mat.bump, ha, hb, Option.some.injEq]
  by_cases h : i = a ∧ j = b
  · rw [if_pos h, if_pos ⟨h.1.symm, h.2.symm⟩]
  · rw [if_neg h, if_neg (fun hh => h ⟨hh.1.symm, hh.2.symm⟩), add_zero]

theorem Mat.addAll_ok {es : List (ℤ × ℤ × ℝ)} : ∀ {M : Mat}, EntriesOk M.dim es →
    ∃ M', M.addAll es = (M', none) ∧ M'.dim = M.dim ∧ ∀ i j, M'.get i j = M.get i j + entrySum M.dim es i j := by
  induction es with
  | nil => intro M _; exact ⟨M, rfl, rfl, fun i j => by simp [entrySum]⟩
  | cons e es ih =>
    intro M h
    obtain ⟨r, c, v⟩ := e
    obtain ⟨M1, h1, h2, h3⟩ := Mat.addAt_ok (M := M) (v := v) (h (r, c, v) (by simp))
    have hok : EntriesOk M1.dim es := by rw [h2]; exact fun e he => h e (by simp [he])
    obtain ⟨M2, g1, g2, g3⟩ := ih hok
    refine ⟨M2, by simp [Mat.addAll, h1, g1], by rw [g2, h2], fun i j => ?_⟩
    rw [g3, h3, h2]
    simp only [entrySum, List.map_cons, List.sum_cons]
    ring

theorem Mat.addAll_dim {es : List (ℤ × ℤ × ℝ)} : ∀ {M : Mat}, (M.addAll es).1.dim = M.dim := by
  induction es with
  | nil => intro M; rfl
  | cons e es ih =>
    intro M
    obtain ⟨r, c, v⟩ := e
    simp only [Mat.addAll]
    cases h : M.addAt r c v with
    | error x => rfl
    | ok M' =>
      simp only [ih]
      unfold Mat.addAt at h
      split at h
      · cases h; rfl
      · cases h

/-- converse: no exception means all indices were valid -/
theorem Mat.addAll_none {es : List (ℤ × ℤ × ℝ)} : ∀ {M : Mat}, (M.addAll es).2 = none → EntriesOk M.dim es := by
  induction es with
  | nil => intro M _; exact fun e he => by simp at he
  | cons e es ih =>
    intro M h
    obtain ⟨r, c, v⟩ := e
    simp only [Mat.addAll] at h
    have key : ∀ a b, pyIdx M.dim r = some a → pyIdx M.dim c = some b → EntriesOk M.dim ((r, c, v) :: es) := by
      intro a b ha hb
      simp only [Mat.addAt, ha, hb] at h
      have := ih h
      intro e he
      rcases List.mem_cons.mp he with rfl | he
      · simp [ha, hb]
      · exact this e he
    rcases ha : pyIdx M.dim r with _ | a
    · simp [Mat.addAt, ha] at h
    · rcases hb : pyIdx M.dim c with _ | b
      · simp [Mat.addAt, ha, hb] at h
      · exact key a b ha hb

/-- bilinear form `v^T G u` of the leading `n × n` block -/
noncomputable def bil (n : ℕ) (G : ℕ → ℕ → ℝ) (v u : ℕ → ℝ) : ℝ := ∑ i ∈ range n, ∑ j ∈ range n, v i * G i j * u j

/-- value of a vector at a Python index -/
noncomputable def vAt (n : ℕ) (v : ℕ → ℝ) (r : ℤ) : ℝ := match pyIdx n r with | some i => v i | none => 0

theorem bil_entrySum (n : ℕ) (es : List (ℤ × ℤ × ℝ)) (v u : ℕ → ℝ) :
    bil n (entrySum n es) v u = (es.map fun e => vAt n v e.1 * e.2.2 * vAt n u e.2.1).sum := by
  induction es with
  | nil => simp [bil, entrySum]
  | cons e es ih =>
    have : bil n (entrySum n (e :: es)) v u =
        bil n (entrySum n [e]) v u + bil n (entrySum n es) v u := by
      simp only [bil, ← Finset.sum_add_distrib]
      refine Finset.sum_congr rfl fun i _ => Finset.sum_congr rfl fun j _ => ?_
      simp only [entrySum, List.map_cons, List.sum_cons, List.map_nil, List.sum_nil]
      ring
    rw [this, ih, List.map_cons, List.sum_cons]
    congr 1
    simp only [bil, entrySum, List.map_cons, List.sum_cons, List.map_nil, List.sum_nil, add_zero, vAt]
    rcases ha : pyIdx n e.1 with _ | a
    · simp
    rcases hb : pyIdx n e.2.1 with _ | b
    · simp
    have hal := pyIdx_lt ha
    have hbl := pyIdx_lt hb
    rw [Finset.sum_eq_single a, Finset.sum_eq_single b]
    · simp
    · intro j _ hj; simp [Ne.symm hj]
    · intro h; simp at h; omega
    · intro i _ hi
      refine Finset.sum_eq_zero fun j _ => ?_
      simp [Ne.symm hi]
    · intro h; simp at h; omega

/-- recover an entry from the bilinear form -/
theorem bil_single {n : ℕ} (G : ℕ → ℕ → ℝ) {i j : ℕ} (hi : i < n) (hj : j < n) :
    bil n G (fun a => if a = i then 1 else 0) (fun a => if a = j then 1 else 0) = G i j := by
  unfold bil
  rw [Finset.sum_eq_single i, Finset.sum_eq_single j]
  · simp
  · intro b _ hb; simp [hb]
  · intro h; simp at h; omega
  · intro a _ ha; exact Finset.sum_eq_zero fun b _ => by simp [ha]
  · intro h; simp at h; omega

theorem bil_add (n : ℕ) (G H : ℕ → ℕ → ℝ) (v u : ℕ → ℝ) :
    bil n (fun i j => G i j + H i j) v u = bil n G v u + bil n H v u := by
  simp only [bil, ← Finset.sum_add_distrib]
  exact Finset.sum_congr rfl fun i _ => Finset.sum_congr rfl fun j _ => by ring

theorem entrySum_append (n : ℕ) (es es' : List (ℤ × ℤ × ℝ)) (i j : ℕ) :
    entrySum n (es ++ es') i j = entrySum n es i j + entrySum n es' i j := by
  simp [entrySum]

/-- outer-product increments: `a * Σ_pq B_r p * C p q * B_c q` for all pairs of degrees of freedom -/
noncomputable def outer {ι : Type} [Fintype ι] (C : ι → ι → ℝ) (dofs : List (ℤ × (ι → ℝ))) : List (ℤ × ℤ × ℝ) :=
  dofs.flatMap fun a => dofs.map fun b => (a.1, b.1, ∑ p, ∑ q, a.2 p * C p q * b.2 q)

/-- generalized strain of a displacement vector: `Σ_dofs B_r p * v[r]` -/
noncomputable def strainOf {ι : Type} (n : ℕ) (dofs : List (ℤ × (ι → ℝ))) (v : ℕ → ℝ) (p : ι) : ℝ :=
  (dofs.map fun a => vAt n v a.1 * a.2 p).sum

theorem sum_outer {ι : Type} [Fintype ι] (n : ℕ) (C : ι → ι → ℝ) (dofs : List (ℤ × (ι → ℝ))) (v u : ℕ → ℝ) :
    ((outer C dofs).map fun e => vAt n v e.1 * e.2.2 * vAt n u e.2.1).sum =
      ∑ p, ∑ q, strainOf n dofs v p * C p q * strainOf n dofs u q := by
  have gen : ∀ ds ds' : List (ℤ × (ι → ℝ)),
      (((ds.flatMap fun a => ds'.map fun b => (a.1, b.1, ∑ p, ∑ q, a.2 p * C p q * b.2 q)) : List (ℤ × ℤ × ℝ)).map
        fun e => vAt n v e.1 * e.2.2 * vAt n u e.2.1).sum =
      ∑ p, ∑ q, strainOf n ds v p * C p q * strainOf n ds' u q := by
    intro ds
    induction ds with
    | nil => intro ds'; simp [strainOf]
    | cons a ds ih =>
      intro ds'
      rw [List.flatMap_cons, List.map_append, List.sum_append, ih]
      have h1 : (((ds'.map fun b => (a.1, b.1, ∑ p, ∑ q, a.2 p * C p q * b.2 q)) : List (ℤ × ℤ × ℝ)).map
          fun e => vAt n v e.1 * e.2.2 * vAt n u e.2.1).sum =
          ∑ p, ∑ q, vAt n v a.1 * a.2 p * C p q * strainOf n ds' u q := by
        clear ih
        induction ds' with
        | nil => simp [strainOf]
        | cons b ds' ih' =>
          rw [List.map_cons, List.map_cons, List.sum_cons, ih', Finset.mul_sum, Finset.sum_mul, ← Finset.sum_add_distrib]
          refine Finset.sum_congr rfl fun p _ => ?_
          rw [Finset.mul_sum, Finset.sum_mul, ← Finset.sum_add_distrib]
          refine Finset.sum_congr rfl fun q _ => ?_
          simp only [strainOf, List.map_cons, List.sum_cons]
          ring
      rw [h1, ← Finset.sum_add_distrib]
      refine Finset.sum_congr rfl fun p _ => ?_
      rw [← Finset.sum_add_distrib]
      refine Finset.sum_congr rfl fun q _ => ?_
      simp only [strainOf, List.map_cons, List.sum_cons]
      ring
  exact gen dofs dofs

theorem bil_outer {ι : Type} [Fintype ι] (n : ℕ) (C : ι → ι → ℝ) (dofs : List (ℤ × (ι → ℝ))) (v u : ℕ → ℝ) :
    bil n (entrySum n (outer C dofs)) v u = ∑ p, ∑ q, strainOf n dofs v p * C p q * strainOf n dofs u q := by
  rw [bil_entrySum, sum_outer]

theorem entriesOk_outer {ι : Type} [Fintype ι] {n : ℕ} {C : ι → ι → ℝ} {dofs : List (ℤ × (ι → ℝ))}
    (h : ∀ a ∈ dofs, (pyIdx n a.1).isSome) : EntriesOk n (outer C dofs) := by
  intro e he
  simp only [outer, List.mem_flatMap, List.mem_map] at he
  obtain ⟨a, ha, b, hb, rfl⟩ := he
  exact ⟨h a ha, h b hb⟩

/-! ### loops over increments -/

/-- the matrix loop whose body computes a list of increments and applies it -/
noncomputable def applyE (g : Except Err (List (ℤ × ℤ × ℝ))) (K : Mat) : Mat × Option Err :=
  match g with
  | .error e => (K, some e)
  | .ok es => K.addAll es

/-- increments computed without exception, empty otherwise -/
def okEntries (g : Except Err (List (ℤ × ℤ × ℝ))) : List (ℤ × ℤ × ℝ) := match g with | .ok es => es | .error _ => []

/-- the body computes increments that are valid for dimension `n` -/
def GoodE (n : ℕ) (g : Except Err (List (ℤ × ℤ × ℝ))) : Prop := ∃ es, g = .ok es ∧ EntriesOk n es

theorem matLoop_ok {α : Type} (g : α → Except Err (List (ℤ × ℤ × ℝ))) : ∀ (l : List α) (K : Mat),
    (∀ a ∈ l, GoodE K.dim (g a)) →
    ∃ K', matLoop (fun K a => applyE (g a) K) K l = (K', none) ∧ K'.dim = K.dim ∧
      ∀ i j, K'.get i j = K.get i j + (l.map fun a => entrySum K.dim (okEntries (g a)) i j).sum := by
  intro l
  induction l with
  | nil => intro K _; exact ⟨K, rfl, rfl, fun i j => by simp⟩
  | cons a l ih =>
    intro K h
    obtain ⟨es, he, hok⟩ := h a (by simp)
    obtain ⟨K1, h1, h2, h3⟩ := Mat.addAll_ok hok
    obtain ⟨K2, g1, g2, g3⟩ := ih K1 (by rw [h2]; exact fun b hb => h b (by simp [hb]))
    refine ⟨K2, ?_, by rw [g2, h2], fun i j => ?_⟩
    · simp only [matLoop, applyE, he, h1]
      exact g1
    · rw [g3, h3, h2]
      simp only [List.map_cons, List.sum_cons, he, okEntries]
      ring

theorem matLoop_none {α : Type} (g : α → Except Err (List (ℤ × ℤ × ℝ))) : ∀ (l : List α) (K : Mat),
    (matLoop (fun K a => applyE (g a) K) K l).2 = none → ∀ a ∈ l, GoodE K.dim (g a) := by
  intro l
  induction l with
  | nil => intro K _ a ha; simp at ha
  | cons a l ih =>
    intro K h
    simp only [matLoop] at h
    cases hg : g a with
    | error e => simp [applyE, hg] at h
    | ok es =>
      rw [hg] at h
      simp only [applyE] at h
      rcases hK : K.addAll es with ⟨K', o⟩
      rw [hK] at h
      cases o with
      | some e => simp at h
      | none =>
        simp only at h
        have hd : K'.dim = K.dim := by have := Mat.addAll_dim (es := es) (M := K); rw [hK] at this; exact this
        have := ih K' h
        intro b hb
        rcases List.mem_cons.mp hb with rfl | hb
        · exact ⟨es, hg, Mat.addAll_none (by rw [hK])⟩
        · rw [← hd]; exact this b hb

theorem matLoop_dim {α : Type} (g : α → Except Err (List (ℤ × ℤ × ℝ))) : ∀ (l : List α) (K : Mat),
    (matLoop (fun K a => applyE (g a) K) K l).1.dim = K.dim := by
  intro l
  induction l with
  | nil => intro K; rfl
  | cons a l ih =>
    intro K
    simp only [matLoop]
    have hd : (applyE (g a) K).1.dim = K.dim := by
      unfold applyE
      split
      · rfl
      · exact Mat.addAll_dim
    rcases hK : applyE (g a) K with ⟨K', o⟩
    rw [hK] at hd
    cases o with
    | some e => exact hd
    | none => simp only [ih]; exact hd

theorem bil_sum {α : Type} (n : ℕ) (l : List α) (G : α → ℕ → ℕ → ℝ) (v u : ℕ → ℝ) :
    bil n (fun i j => (l.map fun a => G a i j).sum) v u = (l.map fun a => bil n (G a) v u).sum := by
  induction l with
  | nil => simp [bil]
  | cons a l ih =>
    simp only [List.map_cons, List.sum_cons]
    rw [bil_add, ih]

end Meshless
