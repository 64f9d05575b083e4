import Verif.Lemmas.FloatInterp
import Verif.Lemmas.FloatGeom
import Verif.Lemmas.Utils

/-! Rounding errors of `area_of_polygon`, `unitvec` and `getMid`. -/

set_option autoImplicit false

namespace Meshless
open Finset

/-! ### area_of_polygon -/

/-- the three numbers read in iteration `k` -/
def areaRd (x y : List ℝ) (k : ℕ) : Option (ℝ × ℝ × ℝ) :=
  match pyGet x ((k : ℤ) - 1), pyGet y ((k : ℤ) - 1 + 1), pyGet y ((k : ℤ) - 1 - 1) with
  | some a, some b, some c => some (a, b, c)
  | _, _, _ => none

/-- a loop that reads and accumulates -/
def rdLoop (rd : ℕ → Option (ℝ × ℝ × ℝ)) (g : ℝ → ℝ × ℝ × ℝ → ℝ) (acc : Except Err ℝ) (k : ℕ) : Except Err ℝ :=
  match acc with
  | .error e => .error e
  | .ok area => match rd k with
    | some t => .ok (g area t)
    | none => .error .indexError

theorem areaLoop_rd (x y : List ℝ) : areaLoop x y = rdLoop (areaRd x y) fun s t => s + t.1 * (t.2.1 - t.2.2) := by
  funext acc k
  unfold areaLoop rdLoop areaRd
  cases acc with
  | error e => rfl
  | ok s =>
    simp only
    cases pyGet x ((k : ℤ) - 1) <;> cases pyGet y ((k : ℤ) - 1 + 1) <;> cases pyGet y ((k : ℤ) - 1 - 1) <;> rfl

theorem Rounding.areaStep_rd (R : Rounding) (x y : List ℝ) :
    R.areaStep x y = rdLoop (areaRd x y) fun s t => R.add s (R.mul t.1 (R.sub t.2.1 t.2.2)) := by
  funext acc k
  unfold Rounding.areaStep rdLoop areaRd
  cases acc with
  | error e => rfl
  | ok s =>
    simp only
    cases pyGet x ((k : ℤ) - 1) <;> cases pyGet y ((k : ℤ) - 1 + 1) <;> cases pyGet y ((k : ℤ) - 1 - 1) <;> rfl

/-- the number read, 0 if there is none -/
def rdGet (rd : ℕ → Option (ℝ × ℝ × ℝ)) (k : ℕ) : ℝ × ℝ × ℝ := (rd k).getD (0, 0, 0)

/-- accumulation without errors -/
def rdSum (rd : ℕ → Option (ℝ × ℝ × ℝ)) (g : ℝ → ℝ × ℝ × ℝ → ℝ) : ℕ → ℝ
  | 0 => 0
  | k + 1 => g (rdSum rd g k) (rdGet rd k)

theorem rdLoop_ok (rd : ℕ → Option (ℝ × ℝ × ℝ)) (g : ℝ → ℝ × ℝ × ℝ → ℝ) : ∀ n, (∀ k < n, (rd k).isSome) →
    (List.range n).foldl (rdLoop rd g) (.ok 0) = .ok (rdSum rd g n) := by
  intro n
  induction n with
  | zero => intro _; rfl
  | succ n ih =>
    intro h
    rw [List.range_succ, List.foldl_append, ih fun k hk => h k (by omega), List.foldl_cons, List.foldl_nil]
    obtain ⟨t, ht⟩ := Option.isSome_iff_exists.1 (h n (by omega))
    simp only [rdLoop, ht, rdSum, rdGet, Option.getD_some]

theorem rdLoop_err (rd : ℕ → Option (ℝ × ℝ × ℝ)) (g : ℝ → ℝ × ℝ × ℝ → ℝ) : ∀ n, ¬ (∀ k < n, (rd k).isSome) →
    (List.range n).foldl (rdLoop rd g) (.ok 0) = .error .indexError := by
  intro n
  induction n with
  | zero => intro h; exact absurd (fun k hk => absurd hk (by omega)) h
  | succ n ih =>
    intro h
    rw [List.range_succ, List.foldl_append, List.foldl_cons, List.foldl_nil]
    by_cases h' : ∀ k < n, (rd k).isSome
    · rw [rdLoop_ok rd g n h']
      have : rd n = none := by
        by_contra hn
        refine h fun k hk => ?_
        rcases Nat.lt_succ_iff_lt_or_eq.1 hk with hk | rfl
        · exact h' k hk
        · exact Option.isSome_iff_ne_none.2 hn
      simp only [rdLoop, this]
    · rw [ih h']; rfl

/-- the abscissae with factors: entry `j` is read in iteration `(j + 1) % n` -/
def facList (x : List ℝ) (ρ : ℕ → ℝ) : List ℝ := x.mapIdx fun j a => a * ρ ((j + 1) % x.length)

theorem facList_length (x : List ℝ) (ρ : ℕ → ℝ) : (facList x ρ).length = x.length := by simp [facList]

theorem pyGet_facList (x : List ℝ) (ρ : ℕ → ℝ) {k : ℕ} (hk : k < x.length) :
    pyGet (facList x ρ) ((k : ℤ) - 1) = (pyGet x ((k : ℤ) - 1)).map (· * ρ k) := by
  unfold pyGet
  rw [facList_length]
  rcases Nat.eq_zero_or_pos k with rfl | hp
  · have : pyIdx x.length (((0:ℕ) : ℤ) - 1) = some (x.length - 1) := by
      unfold pyIdx
      rw [if_neg (by omega), if_pos (by omega)]
      congr 1; omega
    rw [this]
    simp [facList, show x.length - 1 + 1 = x.length by omega, show x.length - 1 < x.length by omega]
  · have : pyIdx x.length ((k : ℤ) - 1) = some (k - 1) := by
      unfold pyIdx
      rw [if_pos (by omega), if_pos (by omega)]
      congr 1; omega
    rw [this]
    simp [facList, show k - 1 + 1 = k by omega, show k - 1 < x.length by omega, Nat.mod_eq_of_lt hk]

theorem areaRd_facList (x y : List ℝ) (ρ : ℕ → ℝ) {k : ℕ} (hk : k < x.length) :
    areaRd (facList x ρ) y k = (areaRd x y k).map fun t => (t.1 * ρ k, t.2.1, t.2.2) := by
  unfold areaRd
  rw [pyGet_facList x ρ hk]
  cases pyGet x ((k : ℤ) - 1) <;> cases pyGet y ((k : ℤ) - 1 + 1) <;> cases pyGet y ((k : ℤ) - 1 - 1) <;> rfl

theorem rdSum_exact (rd : ℕ → Option (ℝ × ℝ × ℝ)) : ∀ n, rdSum rd (fun s t => s + t.1 * (t.2.1 - t.2.2)) n =
    ∑ k ∈ range n, (rdGet rd k).1 * ((rdGet rd k).2.1 - (rdGet rd k).2.2) := by
  intro n
  induction n with
  | zero => rfl
  | succ n ih => rw [rdSum, ih, sum_range_succ]

theorem Rounding.rdSum_bs (R : Rounding) (rd : ℕ → Option (ℝ × ℝ × ℝ)) (n : ℕ) : ∃ ρ : ℕ → ℝ, (∀ k, InR R.u (2 + n) (ρ k)) ∧
    rdSum rd (fun s t => R.add s (R.mul t.1 (R.sub t.2.1 t.2.2))) n = ∑ k ∈ range n, (rdGet rd k).1 * ((rdGet rd k).2.1 - (rdGet rd k).2.2) * ρ k := by
  have h0 := R.u_nonneg
  have h1 := R.u_lt
  induction n with
  | zero => exact ⟨fun _ => 1, fun _ => InR.one h0 h1 _, rfl⟩
  | succ n ih =>
    obtain ⟨ρ, r, e⟩ := ih
    have ht : Fac R.u 2 (R.mul (rdGet rd n).1 (R.sub (rdGet rd n).2.1 (rdGet rd n).2.2)) ((rdGet rd n).1 * ((rdGet rd n).2.1 - (rdGet rd n).2.2)) :=
      (R.fl_fac ((Fac.refl h0 h1 0 _).mul h0 h1 (R.fl_fac (Fac.refl h0 h1 0 _))))
    obtain ⟨τ, et, tr⟩ := ht
    obtain ⟨σ, es, sr⟩ := R.fl_inR (rdSum rd (fun s t => R.add s (R.mul t.1 (R.sub t.2.1 t.2.2))) n +
      R.mul (rdGet rd n).1 (R.sub (rdGet rd n).2.1 (rdGet rd n).2.2))
    refine ⟨fun k => if k = n then τ * σ else ρ k * σ, fun k => ?_, ?_⟩
    · beta_reduce
      split_ifs
      · exact (tr.mul h1 sr).mono h0 h1 (by omega)
      · exact ((r k).mul h1 sr).mono h0 h1 (by omega)
    · rw [sum_range_succ, rdSum]
      show R.fl _ = _
      rw [es, et, e, add_mul, sum_mul]
      simp only [if_true]
      congr 1
      · exact sum_congr rfl fun k hk => by rw [if_neg (mem_range.1 hk).ne]; ring
      · ring

theorem Rounding.area_back (R : Rounding) (x y : List ℝ) : ∃ ρ : ℕ → ℝ, (∀ k, InR R.u (x.length + 3) (ρ k)) ∧
    R.areaOfPolygon x y = Meshless.areaOfPolygon (facList x ρ) y := by
  have h0 := R.u_nonneg
  have h1 := R.u_lt
  obtain ⟨ρ, r, e⟩ := R.rdSum_bs (areaRd x y) x.length
  obtain ⟨σ, es, sr⟩ := R.fl_inR (|∑ k ∈ range x.length, (rdGet (areaRd x y) k).1 * ((rdGet (areaRd x y) k).2.1 - (rdGet (areaRd x y) k).2.2) * ρ k| / 2)
  refine ⟨fun k => ρ k * σ, fun k => ((r k).mul h1 sr).mono h0 h1 (by omega), ?_⟩
  unfold Rounding.areaOfPolygon Meshless.areaOfPolygon
  rw [R.areaStep_rd, areaLoop_rd, facList_length]
  by_cases h : ∀ k < x.length, (areaRd x y k).isSome
  · rw [rdLoop_ok _ _ _ h, rdLoop_ok _ _ _ fun k hk => by rw [areaRd_facList x y _ hk]; simpa using h k hk]
    simp only [Except.ok.injEq]
    show R.fl _ = _
    rw [e, es, rdSum_exact]
    have : ∑ k ∈ range x.length, (rdGet (areaRd (facList x fun k => ρ k * σ) y) k).1 *
        ((rdGet (areaRd (facList x fun k => ρ k * σ) y) k).2.1 - (rdGet (areaRd (facList x fun k => ρ k * σ) y) k).2.2) =
        (∑ k ∈ range x.length, (rdGet (areaRd x y) k).1 * ((rdGet (areaRd x y) k).2.1 - (rdGet (areaRd x y) k).2.2) * ρ k) * σ := by
      rw [sum_mul]
      refine sum_congr rfl fun k hk => ?_
      obtain ⟨t, ht⟩ := Option.isSome_iff_exists.1 (h k (mem_range.1 hk))
      simp only [rdGet, areaRd_facList x y _ (mem_range.1 hk), ht, Option.map_some, Option.getD_some]
      ring
    rw [this, abs_mul, abs_of_pos (sr.pos h1)]; ring
  · rw [rdLoop_err _ _ _ h, rdLoop_err _ _ _ fun h' => h fun k hk => by
      have := h' k hk; rw [areaRd_facList x y _ hk] at this; simpa using this]

/-! ### unitvec -/

theorem Rounding.vnorm_fac (R : Rounding) (v : Vec3) : Fac R.u 3 (R.vnorm v) v.norm := by
  have h0 := R.u_nonneg
  have h1 := R.u_lt
  have hq : ∀ a : ℝ, Fac R.u 1 (R.mul a a) (a * a) := fun a => R.fl_fac (Fac.refl h0 h1 0 _)
  have h2 : Fac R.u 2 (R.add (R.mul v.x v.x) (R.mul v.y v.y)) (v.x * v.x + v.y * v.y) :=
    R.fl_fac ((hq _).add_nonneg h0 h1 (hq _) (mul_self_nonneg _) (mul_self_nonneg _))
  have h3 : Fac R.u 3 (R.add (R.add (R.mul v.x v.x) (R.mul v.y v.y)) (R.mul v.z v.z)) (v.x * v.x + v.y * v.y + v.z * v.z) :=
    R.fl_fac (h2.add_nonneg h0 h1 ((hq _).mono h0 h1 (by omega)) (_root_.add_nonneg (mul_self_nonneg _) (mul_self_nonneg _)) (mul_self_nonneg _))
  rw [AccV.norm_sq]
  exact R.fl_fac ((h3.mono h0 h1 (by omega) : Fac R.u (2 * 2) _ _).sqrt h0 h1
    (_root_.add_nonneg (_root_.add_nonneg (mul_self_nonneg _) (mul_self_nonneg _)) (mul_self_nonneg _)))

theorem Rounding.unit_fac (R : Rounding) (v : Vec3) : Fac R.u 4 (R.unit v).x (unitvec v).x ∧ Fac R.u 4 (R.unit v).y (unitvec v).y ∧
    Fac R.u 4 (R.unit v).z (unitvec v).z := by
  have h0 := R.u_nonneg
  have h1 := R.u_lt
  have h : ∀ a : ℝ, Fac R.u 4 (R.div a (R.vnorm v)) (a / v.norm) := fun a => R.fl_fac (((Fac.refl h0 h1 0 a).div h0 h1 (R.vnorm_fac v)).mono h0 h1 (by omega))
  exact ⟨h _, h _, h _⟩

end Meshless
