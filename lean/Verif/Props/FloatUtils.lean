import Verif.Lemmas.FloatUtils
import Verif.Props.Interp
import Verif.Props.Utils

/-! C142: interpolation and the small geometric functions in floating-point arithmetic. -/

set_option autoImplicit false

namespace Meshless
open Finset

/-- C142, backward error: what `interpolate_lagrange_2D` computes is the exact interpolation of nodal values that differ from the given ones by a
few roundings. No assumption on the nodes or on the point. -/
theorem C142_interp_2D (R : Rounding) (x y : ℝ) (xs ys : List ℝ) (field : Arr) (hs : field.shape = [xs.length, ys.length]) :
    ∃ field' : Arr, field'.shape = field.shape ∧
      (∀ m n, |field'.get [m, n] - field.get [m, n]| ≤ gam R.u (4 * xs.length + 4 * ys.length + 2 + xs.length * ys.length) * |field.get [m, n]|) ∧
      R.interp2 (.sc x) (.sc y) xs ys field = interp2 (.sc x) (.sc y) xs ys field' := by
  obtain ⟨ρ, r, e⟩ := R.interp2_back x y xs ys fun m n => field.get [m, n]
  refine ⟨⟨field.shape, fun
    | [m, n] => field.get [m, n] * ρ m n
    | _ => 0⟩, rfl, fun m n => ?_, ?_⟩
  · exact Fac.err R.u_nonneg R.u_lt ⟨ρ m n, rfl, r m n⟩
  · rw [R.interp2_sc _ _ _ _ _ hs, interp2_scalar _ _ _ _ _ (by exact hs), e]

/-- C142, backward error of `interpolate_lagrange_3D` -/
theorem C142_interp_3D (R : Rounding) (x y z : ℝ) (xs ys zs : List ℝ) (field : Arr) (hs : field.shape = [xs.length, ys.length, zs.length]) :
    ∃ field' : Arr, field'.shape = field.shape ∧
      (∀ m n p, |field'.get [m, n, p] - field.get [m, n, p]| ≤
        gam R.u (4 * xs.length + 8 * ys.length + 3 + xs.length * (ys.length * zs.length)) * |field.get [m, n, p]|) ∧
      R.interp3 (.sc x) (.sc y) (.sc z) xs ys zs field = interp3 (.sc x) (.sc y) (.sc z) xs ys zs field' := by
  obtain ⟨ρ, r, e⟩ := R.interp3_back x y z xs ys zs fun m n p => field.get [m, n, p]
  refine ⟨⟨field.shape, fun
    | [m, n, p] => field.get [m, n, p] * ρ m n p
    | _ => 0⟩, rfl, fun m n p => ?_, ?_⟩
  · exact Fac.err R.u_nonneg R.u_lt ⟨ρ m n p, rfl, r m n p⟩
  · rw [R.interp3_sc _ _ _ _ _ _ _ hs, interp3_scalar _ _ _ _ _ _ _ (by exact hs), e]

/-- C142, forward error: with distinct nodes the computed value differs from the interpolating polynomial by at most a few roundings times the sum of the
magnitudes of its terms. -/
theorem C142_forward (R : Rounding) (x y : ℝ) (xs ys : List ℝ) (hx : xs.Nodup) (hy : ys.Nodup) (field : Arr) (hs : field.shape = [xs.length, ys.length]) :
    ∃ v, R.interp2 (.sc x) (.sc y) xs ys field = .ok (.sc v) ∧
      |v - ∑ m : Fin xs.length, ∑ n : Fin ys.length, (Lagrange.basis univ (fun i : Fin xs.length => xs[i]) m).eval x *
          (Lagrange.basis univ (fun i : Fin ys.length => ys[i]) n).eval y * field.get [m, n]| ≤
        gam R.u (4 * xs.length + 4 * ys.length + 2 + xs.length * ys.length) *
          ∑ m : Fin xs.length, ∑ n : Fin ys.length, |(Lagrange.basis univ (fun i : Fin xs.length => xs[i]) m).eval x *
            (Lagrange.basis univ (fun i : Fin ys.length => ys[i]) n).eval y * field.get [m, n]| := by
  obtain ⟨ρ, r, e⟩ := R.interp2_back x y xs ys fun m n => field.get [m, n]
  refine ⟨_, R.interp2_sc _ _ _ _ _ hs, ?_⟩
  rw [e, interp2S_eq]
  simp only [lagF_basis _ _ (getElem_injective hx), lagF_basis _ _ (getElem_injective hy)]
  rw [← sum_sub_distrib, mul_sum]
  refine (abs_sum_le_sum_abs _ _).trans (sum_le_sum fun m _ => ?_)
  rw [← sum_sub_distrib, mul_sum]
  refine (abs_sum_le_sum_abs _ _).trans (sum_le_sum fun n _ => ?_)
  have := Fac.err R.u_nonneg R.u_lt ⟨ρ m n, (mul_assoc ((Lagrange.basis univ (fun i : Fin xs.length => xs[i]) m).eval x *
            (Lagrange.basis univ (fun i : Fin ys.length => ys[i]) n).eval y) (field.get [m, n]) (ρ m n)).symm, r m n⟩
  exact this

/-- C142, nodal values: at a control node the computed value is the given value, rounded once; a given value that is a float is returned unchanged. -/
theorem C142_nodal (R : Rounding) (xs ys : List ℝ) (hx : xs.Nodup) (hy : ys.Nodup) (field : Arr) (hs : field.shape = [xs.length, ys.length])
    (m n : ℕ) (hm : m < xs.length) (hn : n < ys.length) :
    R.interp2 (.sc xs[m]) (.sc ys[n]) xs ys field = .ok (.sc (R.fl (field.get [m, n]))) := by
  rw [R.interp2_sc _ _ _ _ _ hs]
  congr 2
  exact R.outer_node hx hy hm hn rfl rfl _ xs.zipIdx (fun _ h => h) (Rounding.zipIdx_snd xs) (Rounding.zipIdx_snd_mem hm)

/-- C142, arrays of points: every element of the result is what is computed for that point alone (a result that does not depend on the point may come
back as a number). -/
theorem C142_array (R : Rounding) (q : List (ℝ × ℝ)) (xs ys : List ℝ) (field : Arr) (hs : field.shape = [xs.length, ys.length]) :
    ∃ (r : Val) (v : ℝ × ℝ → ℝ), R.interp2 (.vec (q.map Prod.fst)) (.vec (q.map Prod.snd)) xs ys field = .ok r ∧
      (∀ p, R.interp2 (.sc p.1) (.sc p.2) xs ys field = .ok (.sc (v p))) ∧
      (r = .vec (q.map v) ∨ ∃ c, r = .sc c ∧ ∀ p ∈ q, v p = c) := by
  obtain ⟨r, e, h⟩ := R.outer_rep (q := q) (x := .vec (q.map Prod.fst)) (y := .vec (q.map Prod.snd)) (gx := Prod.fst) (gy := Prod.snd) rfl rfl xs ys
    (fun m n => field.get [m, n]) xs.zipIdx (.sc 0) _ (rep_const q 0)
  refine ⟨r, fun p => R.outerR p.1 p.2 xs ys (fun m n => field.get [m, n]) xs.zipIdx 0, ?_, fun p => R.interp2_sc _ _ _ _ _ hs, ?_⟩
  · unfold Rounding.interp2; rw [hs]; simpa using e
  · cases r with
    | sc c => exact Or.inr ⟨c, rfl, fun p hp => h p hp⟩
    | vec l => exact Or.inl (congrArg Val.vec h)

/-- a case meeting the hypotheses of the C142 theorems on interpolation: 53-bit floats, the values of C50 -/
example : Rounding.binary64.interp2 (.sc 1) (.sc 0) [-1, 1] [0, 4] exArr = .ok (.sc 3) := by
  have h := C142_nodal Rounding.binary64 [-1, 1] [0, 4] (by norm_num) (by norm_num) exArr rfl 1 0 (by simp) (by simp)
  have h3 : fl64 3 = 3 := by simpa using fl64_rep 3 0 (by norm_num)
  exact h.trans (by show Except.ok (Val.sc (fl64 3)) = _; rw [h3])

/-- between the nodes, on 53-bit floats, the error is a few units in the last place -/
example : ∃ v, Rounding.binary64.interp2 (.sc (1/3)) (.sc (1/7)) [-1, 1] [0, 4] exArr = .ok (.sc v) ∧
    ∃ w, interp2 (.sc (1/3)) (.sc (1/7)) [-1, 1] [0, 4] exArr = .ok (.sc w) ∧ |v - w| ≤ 11 * 44 * (2:ℝ)⁻¹ ^ 53 := by
  obtain ⟨f', hs, hf, e⟩ := C142_interp_2D Rounding.binary64 (1/3) (1/7) [-1, 1] [0, 4] exArr rfl
  refine ⟨_, e.trans (interp2_scalar _ _ _ _ _ (by exact hs)), _, interp2_scalar _ _ _ _ _ rfl, ?_⟩
  rw [interp2S_eq, interp2S_eq]
  have hg : gam Rounding.binary64.u 22 ≤ 44 * (2:ℝ)⁻¹ ^ 53 := by
    have h := gam_le (v := Rounding.binary64.u) (k := 22) Rounding.binary64.u_nonneg (by show 2 * ((22:ℕ) : ℝ) * (2:ℝ)⁻¹ ^ 53 ≤ 1; norm_num) Rounding.binary64.u_lt
    refine h.trans (le_of_eq ?_)
    show 2 * ((22:ℕ) : ℝ) * (2:ℝ)⁻¹ ^ 53 = _
    push_cast; ring
  have hb : ∀ m n, |f'.get [m, n] - exArr.get [m, n]| ≤ 44 * (2:ℝ)⁻¹ ^ 53 * |exArr.get [m, n]| := fun m n =>
    (hf m n).trans (mul_le_mul_of_nonneg_right hg (abs_nonneg _))
  have h00 := abs_le.1 (hb 0 0)
  have h01 := abs_le.1 (hb 0 1)
  have h10 := abs_le.1 (hb 1 0)
  have h11 := abs_le.1 (hb 1 1)
  rw [show exArr.get [0, 0] = 1 from rfl] at h00
  rw [show exArr.get [0, 1] = 2 from rfl] at h01
  rw [show exArr.get [1, 0] = 3 from rfl] at h10
  rw [show exArr.get [1, 1] = 5 from rfl] at h11
  norm_num [abs_of_pos] at h00 h01 h10 h11
  simp [Fin.sum_univ_two, lagF, Fin.prod_univ_two, exArr]
  norm_num
  rw [abs_le]
  constructor <;> linarith [h00.1, h00.2, h01.1, h01.2, h10.1, h10.2, h11.1, h11.2]

/-- a field on 2 × 2 × 2 nodes meeting the hypothesis of the three-dimensional theorem -/
example : ∃ f' : Arr, |f'.get [1, 1, 1] - 7| ≤ gam Rounding.binary64.u 35 * 7 ∧
    Rounding.binary64.interp3 (.sc (1/3)) (.sc (1/7)) (.sc 2) [-1, 1] [0, 4] [0, 1] ⟨[2, 2, 2], fun _ => 7⟩ =
      interp3 (.sc (1/3)) (.sc (1/7)) (.sc 2) [-1, 1] [0, 4] [0, 1] f' := by
  obtain ⟨f', -, hf, e⟩ := C142_interp_3D Rounding.binary64 (1/3) (1/7) 2 [-1, 1] [0, 4] [0, 1] ⟨[2, 2, 2], fun _ => 7⟩ rfl
  have := hf 1 1 1
  simp at this
  exact ⟨f', this, e⟩

/-! ### area_of_polygon -/

/-- C142, polygons: the computed area is the exact area of a polygon whose abscissae differ from the given ones by a few roundings; an IndexError occurs in
the same cases. -/
theorem C142_area (R : Rounding) (x y : List ℝ) : ∃ x' : List ℝ, x'.length = x.length ∧
    (∀ i, |x'.getD i 0 - x.getD i 0| ≤ gam R.u (x.length + 3) * |x.getD i 0|) ∧ R.areaOfPolygon x y = areaOfPolygon x' y := by
  obtain ⟨ρ, r, e⟩ := R.area_back x y
  refine ⟨facList x ρ, facList_length x ρ, fun i => ?_, e⟩
  have : (facList x ρ).getD i 0 = x.getD i 0 * ρ ((i + 1) % x.length) := by
    unfold facList
    simp only [List.getD, List.getElem?_mapIdx]
    cases x[i]? <;> simp
  rw [this]
  exact Fac.err R.u_nonneg R.u_lt ⟨_, rfl, r _⟩

/-- the unit square on 53-bit floats: the computed area is within seven roundings of 1 -/
example : ∃ a, Rounding.binary64.areaOfPolygon [0, 1, 1, 0] [0, 0, 1, 1] = .ok a ∧ |a - 1| ≤ gam Rounding.binary64.u 7 := by
  obtain ⟨x', hl, hx, e⟩ := C142_area Rounding.binary64 [0, 1, 1, 0] [0, 0, 1, 1]
  obtain ⟨a, b, c, d, rfl⟩ : ∃ a b c d, x' = [a, b, c, d] := by
    match x', hl with
    | [a, b, c, d], _ => exact ⟨a, b, c, d, rfl⟩
  have h0 := hx 0
  have h1 := hx 1
  have h2 := hx 2
  have h3 := hx 3
  simp at h0 h1 h2 h3
  refine ⟨_, e.trans (areaOfPolygon_ok (by simp) (by simp)), ?_⟩
  have hg := gam_nonneg Rounding.binary64.u_nonneg Rounding.binary64.u_lt 7
  have hg1 : gam Rounding.binary64.u 7 ≤ 1 / 2 := by
    refine (gam_le Rounding.binary64.u_nonneg (k := 7) (by show 2 * ((7:ℕ) : ℝ) * (2:ℝ)⁻¹ ^ 53 ≤ 1; norm_num) Rounding.binary64.u_lt).trans ?_
    show 2 * ((7:ℕ) : ℝ) * (2:ℝ)⁻¹ ^ 53 ≤ 1 / 2
    norm_num
  have h1' := abs_le.1 h1
  have h2' := abs_le.1 h2
  have : Spec.shoelace [a, b, c, d] [0, 0, 1, 1] = b + c := by
    simp [Spec.shoelace, sum_range_succ, h0, h3]
  have hbc : 0 < b + c := by linarith [h1'.1, h2'.1]
  rw [this, abs_of_pos hbc, abs_le]
  constructor <;> linarith [h1'.1, h1'.2, h2'.1, h2'.2]

/-! ### unitvec and getMid -/

/-- C142, unit vectors: every component has a relative error of at most four roundings, and so has the length of the result. -/
theorem C142_unitvec (R : Rounding) (v : Vec3) (hv : v ≠ ⟨0, 0, 0⟩) :
    |(R.unit v).x - (unitvec v).x| ≤ gam R.u 4 * |(unitvec v).x| ∧ |(R.unit v).y - (unitvec v).y| ≤ gam R.u 4 * |(unitvec v).y| ∧
      |(R.unit v).z - (unitvec v).z| ≤ gam R.u 4 * |(unitvec v).z| ∧ |(R.unit v).norm - 1| ≤ gam R.u 4 := by
  have h0 := R.u_nonneg
  have h1 := R.u_lt
  obtain ⟨hx, hy, hz⟩ := R.unit_fac v
  refine ⟨hx.err h0 h1, hy.err h0 h1, hz.err h0 h1, ?_⟩
  have hn : (unitvec v).norm = 1 := by
    rw [AccV.norm_sq, ← Real.sqrt_one, ← (C58_unitvec v hv).1]; congr 1; ring
  have hq : ∀ {a b : ℝ}, Fac R.u 4 a b → Fac R.u (2 * 4) (a * a) (b * b) := fun h => h.mul h0 h1 h
  have hs : Fac R.u (2 * 4) ((R.unit v).x * (R.unit v).x + (R.unit v).y * (R.unit v).y + (R.unit v).z * (R.unit v).z)
      ((unitvec v).x * (unitvec v).x + (unitvec v).y * (unitvec v).y + (unitvec v).z * (unitvec v).z) :=
    ((hq hx).add_nonneg h0 h1 (hq hy) (mul_self_nonneg _) (mul_self_nonneg _)).add_nonneg h0 h1 (hq hz)
      (add_nonneg (mul_self_nonneg _) (mul_self_nonneg _)) (mul_self_nonneg _)
  have := (hs.sqrt h0 h1 (add_nonneg (add_nonneg (mul_self_nonneg _) (mul_self_nonneg _)) (mul_self_nonneg _))).err h0 h1
  rw [← AccV.norm_sq, ← AccV.norm_sq, hn, abs_one, mul_one] at this
  exact this

/-- a vector meeting the hypothesis -/
example : |(Rounding.binary64.unit ⟨1, 1, 1⟩).norm - 1| ≤ gam Rounding.binary64.u 4 :=
  (C142_unitvec Rounding.binary64 ⟨1, 1, 1⟩ (by simp)).2.2.2

/-- C142, centroids: each coordinate of `getMid` is exact up to three roundings of the mean magnitude. -/
theorem C142_mid (R : Rounding) (m : Mesh) (e : ℕ) :
    (let a := m.pos (m.tria e).n1; let b := m.pos (m.tria e).n2; let c := m.pos (m.tria e).n3
     |(R.mid m e).x - (a.x + b.x + c.x) / 3| ≤ gam R.u 3 * ((|a.x| + |b.x| + |c.x|) / 3) ∧
     |(R.mid m e).y - (a.y + b.y + c.y) / 3| ≤ gam R.u 3 * ((|a.y| + |b.y| + |c.y|) / 3) ∧
     |(R.mid m e).z - (a.z + b.z + c.z) / 3| ≤ gam R.u 3 * ((|a.z| + |b.z| + |c.z|) / 3)) := by
  have h0 := R.u_nonneg
  have h1 := R.u_lt
  have key : ∀ a b c : ℝ, |R.div (R.add (R.add a b) c) 3 - (a + b + c) / 3| ≤ gam R.u 3 * ((|a| + |b| + |c|) / 3) := by
    intro a b c
    obtain ⟨ρ, e1, r⟩ := R.fl_inR (a + b)
    obtain ⟨σ, e2, s⟩ := R.fl_inR (R.fl (a + b) + c)
    obtain ⟨τ, e3, t⟩ := R.fl_inR (R.fl (R.fl (a + b) + c) / 3)
    show |R.fl (R.fl (R.fl (a + b) + c) / 3) - _| ≤ _
    have f1 := ((r.mul h1 s).mul h1 t).err h0 h1
    have f2 := ((s.mul h1 t).mono h0 h1 (by omega : 1 + 1 ≤ 3)).err h0 h1
    have e : R.fl (R.fl (R.fl (a + b) + c) / 3) - (a + b + c) / 3 = (a * (ρ * σ * τ - 1) + b * (ρ * σ * τ - 1) + c * (σ * τ - 1)) / 3 := by
      rw [e3, e2, e1]; ring
    have ga : |a * (ρ * σ * τ - 1)| ≤ gam R.u 3 * |a| := by rw [abs_mul, mul_comm]; exact mul_le_mul_of_nonneg_right f1 (abs_nonneg _)
    have gb : |b * (ρ * σ * τ - 1)| ≤ gam R.u 3 * |b| := by rw [abs_mul, mul_comm]; exact mul_le_mul_of_nonneg_right f1 (abs_nonneg _)
    have gc : |c * (σ * τ - 1)| ≤ gam R.u 3 * |c| := by rw [abs_mul, mul_comm]; exact mul_le_mul_of_nonneg_right f2 (abs_nonneg _)
    rw [e, abs_div, abs_of_pos (by norm_num : (0:ℝ) < 3)]
    have := abs_add_three (a * (ρ * σ * τ - 1)) (b * (ρ * σ * τ - 1)) (c * (σ * τ - 1))
    linarith
  exact ⟨key _ _ _, key _ _ _, key _ _ _⟩

end Meshless
