import Verif.Model.Utils
import Verif.Spec.Polygon
import Verif.Lemmas.Mat
import Mathlib.Data.List.GetD
import Mathlib.Data.List.Rotate

set_option autoImplicit false

namespace Meshless
open Finset Spec

theorem sum_cyc (n : ℕ) (f : ℕ → ℝ) : ∑ i ∈ range n, f ((i + 1) % n) = ∑ i ∈ range n, f i := by
  cases n with
  | zero => simp
  | succ m =>
    rw [sum_range_succ, sum_range_succ']
    rw [Nat.mod_self]
    congr 1
    refine sum_congr rfl fun i hi => ?_
    rw [Nat.mod_eq_of_lt]
    simp at hi; omega

theorem pyGet_eq {l : List ℝ} {i : ℕ} (h : i < l.length) : pyGet l (i : ℤ) = some (l.getD i 0) := by
  simp [pyGet, pyIdx_nonneg h, List.getD, h]

theorem pyGet_neg {l : List ℝ} {i : ℕ} (h : i < l.length) (h0 : 0 < i) : pyGet l (-(i : ℤ)) = some (l.getD (l.length - i) 0) := by
  have : pyIdx l.length (-(i : ℤ)) = some (l.length - i) := by
    unfold pyIdx
    rw [if_neg (by omega), if_pos (by omega)]
    congr 1
    omega
  have h2 : l.length - i < l.length := by omega
  simp [pyGet, this, List.getD, h2]

/-- the three values read in one iteration, with cyclic indices -/
theorem areaLoop_step {x y : List ℝ} (hxy : x.length = y.length) (hn : 2 ≤ x.length) {k : ℕ} (hk : k < x.length) (a : ℝ) :
    areaLoop x y (.ok a) k = .ok (a + x.getD ((k + (x.length - 1)) % x.length) 0 *
      (y.getD k 0 - y.getD ((k + (x.length - 2)) % x.length) 0)) := by
  have e1 : pyGet x ((k : ℤ) - 1) = some (x.getD ((k + (x.length - 1)) % x.length) 0) := by
    rcases Nat.eq_zero_or_pos k with rfl | hp
    · have := pyGet_neg (l := x) (i := 1) (by omega) (by omega)
      simp only [Nat.cast_one] at this
      rw [Nat.zero_add, Nat.mod_eq_of_lt (by omega), ← this]; simp
    · obtain ⟨j, rfl⟩ : ∃ j, k = j + 1 := ⟨k - 1, by omega⟩
      have : j + 1 + (x.length - 1) = j + x.length := by omega
      rw [this, Nat.add_mod_right, Nat.mod_eq_of_lt (by omega)]
      have := pyGet_eq (l := x) (i := j) (by omega)
      rw [← this]; congr 1; push_cast; ring
  have e2 : pyGet y ((k : ℤ) - 1 + 1) = some (y.getD k 0) := by
    rw [sub_add_cancel]; exact pyGet_eq (by omega)
  have e3 : pyGet y ((k : ℤ) - 1 - 1) = some (y.getD ((k + (x.length - 2)) % x.length) 0) := by
    rcases lt_or_ge k 2 with h2 | h2
    · rcases Nat.lt_succ_iff_lt_or_eq.mp h2 with h | rfl
      · obtain rfl : k = 0 := by omega
        rw [Nat.zero_add, Nat.mod_eq_of_lt (by omega)]
        rcases Nat.eq_or_lt_of_le hn with h | h
        · -- length two: index -2 is element 0
          unfold pyGet pyIdx
          rw [if_neg (by omega), if_pos (by omega)]
          have : ((0 : ℕ) - 1 - 1 + (y.length : ℤ)).toNat = x.length - 2 := by omega
          rw [this]
          have hl : x.length - 2 < y.length := by omega
          simp [List.getD, hl]
        · have := pyGet_neg (l := y) (i := 2) (by omega) (by omega)
          rw [hxy, ← this]; rfl
      · have hh : 1 + (x.length - 2) = x.length - 1 := by omega
        rw [hh, Nat.mod_eq_of_lt (by omega)]
        have := pyGet_neg (l := y) (i := 1) (by omega) (by omega)
        rw [hxy, ← this]; rfl
    · obtain ⟨j, rfl⟩ : ∃ j, k = j + 2 := ⟨k - 2, by omega⟩
      have : j + 2 + (x.length - 2) = j + x.length := by omega
      rw [this, Nat.add_mod_right, Nat.mod_eq_of_lt (by omega)]
      have := pyGet_eq (l := y) (i := j) (by omega)
      rw [← this]; congr 1; push_cast; ring
  simp only [areaLoop, e1, e2, e3]

theorem areaLoop_fold {x y : List ℝ} (hxy : x.length = y.length) (hn : 2 ≤ x.length) : ∀ k, k ≤ x.length →
    (List.range k).foldl (areaLoop x y) (.ok 0) = .ok (∑ i ∈ range k, x.getD ((i + (x.length - 1)) % x.length) 0 *
      (y.getD i 0 - y.getD ((i + (x.length - 2)) % x.length) 0)) := by
  intro k
  induction k with
  | zero => intro _; simp
  | succ k ih =>
    intro hk
    rw [List.range_succ, List.foldl_append, ih (by omega), List.foldl_cons, List.foldl_nil,
      areaLoop_step hxy hn (by omega), sum_range_succ]

theorem areaOfPolygon_ok {x y : List ℝ} (hxy : x.length = y.length) (hn : 2 ≤ x.length) :
    areaOfPolygon x y = .ok (|shoelace x y| / 2) := by
  unfold areaOfPolygon
  rw [areaLoop_fold hxy hn _ le_rfl]
  simp only
  congr 3
  unfold shoelace
  set n := x.length with hn'
  have hpos : 0 < n := by omega
  -- shift by one: the summand at (i+1) % n
  rw [← sum_cyc n (fun i => x.getD ((i + (n - 1)) % n) 0 * (y.getD i 0 - y.getD ((i + (n - 2)) % n) 0))]
  have h1 : ∀ i, i < n → ((i + 1) % n + (n - 1)) % n = i := by
    intro i hi
    rw [Nat.mod_add_mod]
    have : i + 1 + (n - 1) = i + n := by omega
    rw [this, Nat.add_mod_right, Nat.mod_eq_of_lt hi]
  have h2 : ∀ i, i < n → ((i + 1) % n + (n - 2)) % n = (i + (n - 1)) % n := by
    intro i hi
    rw [Nat.mod_add_mod]
    congr 1; omega
  have : ∑ i ∈ range n, x.getD (((i + 1) % n + (n - 1)) % n) 0 *
        (y.getD ((i + 1) % n) 0 - y.getD (((i + 1) % n + (n - 2)) % n) 0) =
      ∑ i ∈ range n, (x.getD i 0 * y.getD ((i + 1) % n) 0) - ∑ i ∈ range n, x.getD i 0 * y.getD ((i + (n - 1)) % n) 0 := by
    rw [← sum_sub_distrib]
    refine sum_congr rfl fun i hi => ?_
    rw [h1 i (by simpa using hi), h2 i (by simpa using hi)]
    ring
  rw [this, sum_sub_distrib]
  congr 1
  rw [← sum_cyc n (fun i => x.getD i 0 * y.getD ((i + (n - 1)) % n) 0)]
  refine sum_congr rfl fun i hi => ?_
  rw [h1 i (by simpa using hi)]

theorem polyArea_eq {pts : List Vec3} (h : 2 ≤ pts.length) :
    polyArea pts = |shoelace (pts.map (·.x)) (pts.map (·.y))| / 2 := by
  unfold polyArea
  rw [areaOfPolygon_ok (by simp) (by simpa using h)]

/-- closed form for a triangle -/
theorem polyArea3 (a b c : Vec3) : polyArea [a, b, c] =
    |(b.x - a.x) * (c.y - a.y) - (c.x - a.x) * (b.y - a.y)| / 2 := by
  rw [polyArea_eq (by simp)]
  congr 2
  simp [shoelace, sum_range_succ]
  ring

/-- closed form for a triangle whose first vertex is repeated at the end -/
theorem polyArea4 (a b c : Vec3) : polyArea [a, b, c, a] =
    |(b.x - a.x) * (c.y - a.y) - (c.x - a.x) * (b.y - a.y)| / 2 := by
  rw [polyArea_eq (by simp)]
  congr 2
  simp [shoelace, sum_range_succ]
  ring

/-- closed form for a quadrilateral whose first vertex is repeated at the end -/
theorem polyArea5 (a b c d : Vec3) : polyArea [a, b, c, d, a] =
    |(b.x - a.x) * (c.y - a.y) - (c.x - a.x) * (b.y - a.y) + ((c.x - a.x) * (d.y - a.y) - (d.x - a.x) * (c.y - a.y))| / 2 := by
  rw [polyArea_eq (by simp)]
  congr 2
  simp [shoelace, sum_range_succ]
  ring

/-! ### invariances of the shoelace sum -/

theorem shoelace_translate (x y : List ℝ) (hxy : x.length = y.length) (a b : ℝ) :
    shoelace (x.map (· + a)) (y.map (· + b)) = shoelace x y := by
  unfold shoelace
  rw [List.length_map]
  set n := x.length with hn
  rcases Nat.eq_zero_or_pos n with h0 | hpos
  · simp [h0]
  have hx : ∀ i, i < n → (x.map (· + a)).getD i 0 = x.getD i 0 + a := by
    intro i hi; simp [List.getD, hn ▸ hi]
  have hy : ∀ i, i < n → (y.map (· + b)).getD i 0 = y.getD i 0 + b := by
    intro i hi
    have : i < y.length := by omega
    simp [List.getD, this]
  have key : ∑ i ∈ range n, ((x.map (· + a)).getD i 0 * (y.map (· + b)).getD ((i + 1) % n) 0 -
        (x.map (· + a)).getD ((i + 1) % n) 0 * (y.map (· + b)).getD i 0) =
      ∑ i ∈ range n, ((x.getD i 0 * y.getD ((i + 1) % n) 0 - x.getD ((i + 1) % n) 0 * y.getD i 0)
        + (b * x.getD i 0 - b * x.getD ((i + 1) % n) 0) + (a * y.getD ((i + 1) % n) 0 - a * y.getD i 0)) := by
    refine sum_congr rfl fun i hi => ?_
    have hi' : i < n := by simpa using hi
    rw [hx i hi', hy i hi', hx _ (Nat.mod_lt _ hpos), hy _ (Nat.mod_lt _ hpos)]
    ring
  rw [key, sum_add_distrib, sum_add_distrib, sum_sub_distrib, sum_sub_distrib, sum_sub_distrib]
  rw [sum_cyc n (fun i => b * x.getD i 0), sum_cyc n (fun i => a * y.getD i 0)]
  ring

theorem shoelace_scale (x y : List ℝ) (s t : ℝ) :
    shoelace (x.map (s * ·)) (y.map (t * ·)) = s * t * shoelace x y := by
  unfold shoelace
  rw [List.length_map, mul_sum]
  have hx : ∀ i, (x.map (s * ·)).getD i 0 = s * x.getD i 0 := by
    intro i; simp only [List.getD, List.getElem?_map]; cases x[i]? <;> simp
  have hy : ∀ i, (y.map (t * ·)).getD i 0 = t * y.getD i 0 := by
    intro i; simp only [List.getD, List.getElem?_map]; cases y[i]? <;> simp
  refine sum_congr rfl fun i _ => ?_
  rw [hx, hx, hy, hy]; ring

theorem shoelace_swap (x y : List ℝ) (hxy : x.length = y.length) : shoelace y x = -shoelace x y := by
  unfold shoelace
  rw [← hxy, ← sum_neg_distrib]
  exact sum_congr rfl fun i _ => by ring

theorem shoelace_rotate1 (x y : List ℝ) (hxy : x.length = y.length) :
    shoelace (x.rotate 1) (y.rotate 1) = shoelace x y := by
  unfold shoelace
  rw [List.length_rotate]
  set n := x.length with hn
  rcases Nat.eq_zero_or_pos n with h0 | hpos
  · simp [h0]
  have hx : ∀ i, i < n → (x.rotate 1).getD i 0 = x.getD ((i + 1) % n) 0 := by
    intro i hi
    have h1 : i < (x.rotate 1).length := by simpa using hi
    have h2 : (i + 1) % n < x.length := Nat.mod_lt _ hpos
    rw [List.getD_eq_getElem _ _ h1, List.getD_eq_getElem _ _ h2, List.getElem_rotate]
  have hy : ∀ i, i < n → (y.rotate 1).getD i 0 = y.getD ((i + 1) % n) 0 := by
    intro i hi
    have h1 : i < (y.rotate 1).length := by simpa [← hxy] using hi
    have h2 : (i + 1) % n < y.length := by rw [← hxy]; exact Nat.mod_lt _ hpos
    rw [List.getD_eq_getElem _ _ h1, List.getD_eq_getElem _ _ h2, List.getElem_rotate]
    simp [← hxy]
  rw [← sum_cyc n (fun i => x.getD i 0 * y.getD ((i + 1) % n) 0 - x.getD ((i + 1) % n) 0 * y.getD i 0)]
  refine sum_congr rfl fun i hi => ?_
  have hi' : i < n := by simpa using hi
  rw [hx i hi', hy i hi', hx _ (Nat.mod_lt _ hpos), hy _ (Nat.mod_lt _ hpos)]

theorem shoelace_rotate (k : ℕ) : ∀ (x y : List ℝ), x.length = y.length → shoelace (x.rotate k) (y.rotate k) = shoelace x y := by
  induction k with
  | zero => intro x y _; simp
  | succ k ih =>
    intro x y h
    have := shoelace_rotate1 (x.rotate k) (y.rotate k) (by simpa using h)
    rw [List.rotate_rotate, List.rotate_rotate] at this
    rw [this, ih x y h]

theorem shoelace_reverse (x y : List ℝ) (hxy : x.length = y.length) :
    shoelace x.reverse y.reverse = -shoelace x y := by
  unfold shoelace
  rw [List.length_reverse]
  set n := x.length with hn
  rcases Nat.eq_zero_or_pos n with h0 | hpos
  · simp [h0]
  have hx : ∀ i, i < n → x.reverse.getD i 0 = x.getD (n - 1 - i) 0 := by
    intro i hi
    rw [List.getD_eq_getElem _ _ (by simpa using hi), List.getD_eq_getElem _ _ (by omega), List.getElem_reverse]
  have hy : ∀ i, i < n → y.reverse.getD i 0 = y.getD (n - 1 - i) 0 := by
    intro i hi
    rw [List.getD_eq_getElem _ _ (by simpa [← hxy] using hi), List.getD_eq_getElem _ _ (by omega), List.getElem_reverse]
    simp [← hxy]
  rw [← sum_neg_distrib]
  -- reflect, then shift
  set g : ℕ → ℝ := fun i => -(x.getD i 0 * y.getD ((i + 1) % n) 0 - x.getD ((i + 1) % n) 0 * y.getD i 0) with hg
  have hcyc := sum_cyc n (fun i => g ((i + (n - 1)) % n))
  have hs : ∑ i ∈ range n, g ((i + (n - 1)) % n) = ∑ i ∈ range n, g i := by
    rw [← hcyc]
    refine sum_congr rfl fun i hi => ?_
    have hi' : i < n := by simpa using hi
    rw [Nat.mod_add_mod]
    have : i + 1 + (n - 1) = i + n := by omega
    rw [this, Nat.add_mod_right, Nat.mod_eq_of_lt hi']
  change _ = ∑ i ∈ range n, g i
  rw [← hs, ← sum_range_reflect (fun i => g ((i + (n - 1)) % n))]
  refine sum_congr rfl fun i hi => ?_
  have hi' : i < n := by simpa using hi
  have e1 : (i + 1) % n = if i + 1 = n then 0 else i + 1 := by
    split
    · next h => rw [h, Nat.mod_self]
    · exact Nat.mod_eq_of_lt (by omega)
  have e2 : (n - 1 - i + (n - 1)) % n = if i + 1 = n then n - 1 else n - 2 - i := by
    split
    · next h =>
      have : n - 1 - i + (n - 1) = n - 1 := by omega
      rw [this, Nat.mod_eq_of_lt (by omega)]
    · have : n - 1 - i + (n - 1) = (n - 2 - i) + n := by omega
      rw [this, Nat.add_mod_right, Nat.mod_eq_of_lt (by omega)]
  rw [hx i hi', hy i hi', hx _ (Nat.mod_lt _ hpos), hy _ (Nat.mod_lt _ hpos), e2, hg, e1]
  simp only
  split
  · next h =>
    have : (n - 1 + 1) % n = 0 := by rw [Nat.sub_add_cancel hpos, Nat.mod_self]
    rw [this]
    have h3 : n - 1 - i = 0 := by omega
    rw [h3, Nat.sub_zero]; ring
  · next h =>
    have : (n - 2 - i + 1) % n = n - 1 - i := by
      rw [Nat.mod_eq_of_lt (by omega)]; omega
    rw [this]
    have h3 : n - 1 - (i + 1) = n - 2 - i := by omega
    rw [h3]; ring

end Meshless
