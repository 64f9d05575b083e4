import Verif.Lemmas.Interp2
import Mathlib.Tactic.NormNum
import Mathlib.Tactic.IntervalCases
import Mathlib.Tactic.FieldSimp
import Mathlib.Tactic.Linarith

/-! C50–C56: Lagrange interpolation. -/

set_option autoImplicit false

namespace Meshless
open Finset

/-- two nodes in x and two in y, and a 2×2 field: the running example of this file -/
def exArr : Arr := ⟨[2, 2], fun
  | [0, 0] => 1
  | [0, 1] => 2
  | [1, 0] => 3
  | _ => 5⟩

/-! ### C50 -/

/-- C50: at the control node `(x_nodes[m], y_nodes[n])` the interpolated value is `field[m, n]`. -/
theorem C50_nodal (xs ys : List ℝ) (hx : xs.Nodup) (hy : ys.Nodup) (field : Arr)
    (hs : field.shape = [xs.length, ys.length]) (m n : ℕ) (hm : m < xs.length) (hn : n < ys.length) :
    interp2 (.sc xs[m]) (.sc ys[n]) xs ys field = .ok (.sc (field.get [m, n])) := by
  rw [interp2_scalar _ _ _ _ _ hs, interp2S_eq]
  have hx' := getElem_injective hx
  have hy' := getElem_injective hy
  have e1 : ∀ a, lagF xs[m] (fun i : Fin xs.length => xs[i]) a = if a = ⟨m, hm⟩ then 1 else 0 := fun a =>
    lagF_node (fun i : Fin xs.length => xs[i]) hx' a ⟨m, hm⟩
  have e2 : ∀ a, lagF ys[n] (fun i : Fin ys.length => ys[i]) a = if a = ⟨n, hn⟩ then 1 else 0 := fun a =>
    lagF_node (fun i : Fin ys.length => ys[i]) hy' a ⟨n, hn⟩
  simp only [e1, e2]
  rw [Finset.sum_eq_single ⟨m, hm⟩, Finset.sum_eq_single ⟨n, hn⟩]
  · simp
  · intro b _ hb; simp [hb]
  · simp
  · intro b _ hb; simp [hb]
  · simp

/-- a case meeting the hypotheses of C50 -/
example : interp2 (.sc 1) (.sc 0) [-1, 1] [0, 4] exArr = .ok (.sc 3) :=
  C50_nodal [-1, 1] [0, 4] (by norm_num) (by norm_num) exArr rfl 1 0 (by simp) (by simp)

/-! ### C51 -/

/-- C51: a polynomial of degree `< M` in `x` and `< N` in `y` is reproduced at every point. `c i j` is the coefficient
of `x^i y^j`. -/
theorem C51_polynomial (xs ys : List ℝ) (hx : xs.Nodup) (hy : ys.Nodup) (c : ℕ → ℕ → ℝ) (field : Arr)
    (hs : field.shape = [xs.length, ys.length])
    (hf : ∀ (m n : ℕ) (hm : m < xs.length) (hn : n < ys.length), field.get [m, n] =
      ∑ i ∈ range xs.length, ∑ j ∈ range ys.length, c i j * xs[m] ^ i * ys[n] ^ j) (x y : ℝ) :
    interp2 (.sc x) (.sc y) xs ys field =
      .ok (.sc (∑ i ∈ range xs.length, ∑ j ∈ range ys.length, c i j * x ^ i * y ^ j)) := by
  rw [interp2_scalar _ _ _ _ _ hs, interp2S_eq]
  have hx' := getElem_injective hx
  have hy' := getElem_injective hy
  congr 2
  have e1 : ∀ m : Fin xs.length, ∀ n : Fin ys.length, field.get [m, n] =
      ∑ i : Fin xs.length, ∑ j : Fin ys.length, c i j * xs[m] ^ (i : ℕ) * ys[n] ^ (j : ℕ) := by
    intro m n
    rw [hf m n m.2 n.2, ← Fin.sum_univ_eq_sum_range (fun i => ∑ j ∈ range ys.length, c i j * xs[(m : ℕ)] ^ i * ys[(n : ℕ)] ^ j)]
    refine Finset.sum_congr rfl fun i _ => ?_
    rw [← Fin.sum_univ_eq_sum_range (fun j => c i j * xs[(m : ℕ)] ^ (i : ℕ) * ys[(n : ℕ)] ^ j)]
    rfl
  rw [← Fin.sum_univ_eq_sum_range (fun i => ∑ j ∈ range ys.length, c i j * x ^ i * y ^ j)]
  have e2 : ∀ i : Fin xs.length, ∑ j ∈ range ys.length, c i j * x ^ (i : ℕ) * y ^ j =
      ∑ j : Fin ys.length, ∑ m : Fin xs.length, ∑ n : Fin ys.length,
        lagF x (fun i => xs[i]) m * lagF y (fun i => ys[i]) n * (c i j * xs[m] ^ (i : ℕ) * ys[n] ^ (j : ℕ)) := by
    intro i
    rw [← Fin.sum_univ_eq_sum_range (fun j => c i j * x ^ (i : ℕ) * y ^ j)]
    refine Finset.sum_congr rfl fun j _ => ?_
    rw [← lagF_pow x _ hx' i, ← lagF_pow y _ hy' j, mul_assoc, Finset.sum_mul_sum, Finset.mul_sum]
    refine Finset.sum_congr rfl fun m _ => ?_
    rw [Finset.mul_sum]
    refine Finset.sum_congr rfl fun n _ => ?_
    ring
  simp only [e1, e2, Finset.mul_sum]
  have e3 : ∀ (F : Fin xs.length → Fin ys.length → Fin xs.length → Fin ys.length → ℝ),
      ∑ m, ∑ n, ∑ i, ∑ j, F m n i j = ∑ i, ∑ j, ∑ m, ∑ n, F m n i j := by
    intro F
    calc ∑ m, ∑ n, ∑ i, ∑ j, F m n i j = ∑ m, ∑ i, ∑ n, ∑ j, F m n i j :=
          Finset.sum_congr rfl fun m _ => Finset.sum_comm
      _ = ∑ i, ∑ m, ∑ n, ∑ j, F m n i j := Finset.sum_comm
      _ = ∑ i, ∑ m, ∑ j, ∑ n, F m n i j :=
          Finset.sum_congr rfl fun i _ => Finset.sum_congr rfl fun m _ => Finset.sum_comm
      _ = ∑ i, ∑ j, ∑ m, ∑ n, F m n i j := Finset.sum_congr rfl fun i _ => Finset.sum_comm
  rw [e3]

/-- C51: constants are reproduced, for any numbers `M, N ≥ 1` of distinct nodes. -/
theorem C51_constant (xs ys : List ℝ) (hx : xs.Nodup) (hy : ys.Nodup) (hx0 : xs ≠ []) (hy0 : ys ≠ []) (k : ℝ) (x y : ℝ) :
    interp2 (.sc x) (.sc y) xs ys ⟨[xs.length, ys.length], fun _ => k⟩ = .ok (.sc k) := by
  have h1 : 0 < xs.length := List.length_pos_iff.2 hx0
  have h2 : 0 < ys.length := List.length_pos_iff.2 hy0
  have key : ∀ a b : ℝ, (∑ i ∈ range xs.length, ∑ j ∈ range ys.length, (if i = 0 ∧ j = 0 then k else 0) * a ^ i * b ^ j) = k := by
    intro a b
    rw [Finset.sum_eq_single 0, Finset.sum_eq_single 0]
    · simp
    · intro j _ hj; simp [hj]
    · intro h; exact absurd (Finset.mem_range.2 h2) h
    · intro i _ hi; simp [hi]
    · intro h; exact absurd (Finset.mem_range.2 h1) h
  have := C51_polynomial xs ys hx hy (fun i j => if i = 0 ∧ j = 0 then k else 0) ⟨[xs.length, ys.length], fun _ => k⟩ rfl
    (fun m n hm hn => (key _ _).symm) x y
  rw [this, key]

/-- a case of C51: `p = 1 + 2 x + 3 x y` on the nodes `{0, 2} × {1, 3}` -/
example (x y : ℝ) : interp2 (.sc x) (.sc y) [0, 2] [1, 3]
    ⟨[2, 2], fun | [0, _] => 1 | [_, 0] => 11 | _ => 23⟩ = .ok (.sc (1 + 2 * x + 3 * x * y)) := by
  rw [C51_polynomial [0, 2] [1, 3] (by norm_num) (by norm_num)
    (fun i j => if i = 0 then (if j = 0 then 1 else 0) else if j = 0 then 2 else 3) _ rfl]
  · congr 2; simp [Finset.sum_range_succ]; ring
  · intro m n hm hn
    simp at hm hn
    interval_cases m <;> interval_cases n <;> norm_num [Finset.sum_range_succ]

/-! ### C52 -/

/-- C52: the 2-D interpolation is linear in the field. -/
theorem C52_linear_2D (a b x y : ℝ) (xs ys : List ℝ) (f g h : Arr) (hf : f.shape = [xs.length, ys.length])
    (hg : g.shape = [xs.length, ys.length]) (hh : h.shape = [xs.length, ys.length])
    (hfg : ∀ m n, h.get [m, n] = a * f.get [m, n] + b * g.get [m, n]) :
    ∃ u w, interp2 (.sc x) (.sc y) xs ys f = .ok (.sc u) ∧ interp2 (.sc x) (.sc y) xs ys g = .ok (.sc w) ∧
      interp2 (.sc x) (.sc y) xs ys h = .ok (.sc (a * u + b * w)) := by
  refine ⟨_, _, interp2_scalar _ _ _ _ _ hf, interp2_scalar _ _ _ _ _ hg, ?_⟩
  rw [interp2_scalar _ _ _ _ _ hh]
  simp only [interp2S_eq, hfg]
  congr 2
  simp only [Finset.mul_sum, ← Finset.sum_add_distrib]
  refine Finset.sum_congr rfl fun m _ => Finset.sum_congr rfl fun n _ => ?_
  ring

/-- C52: the 3-D interpolation is linear in the field. -/
theorem C52_linear_3D (a b x y z : ℝ) (xs ys zs : List ℝ) (f g h : Arr) (hf : f.shape = [xs.length, ys.length, zs.length])
    (hg : g.shape = [xs.length, ys.length, zs.length]) (hh : h.shape = [xs.length, ys.length, zs.length])
    (hfg : ∀ m n p, h.get [m, n, p] = a * f.get [m, n, p] + b * g.get [m, n, p]) :
    ∃ u w, interp3 (.sc x) (.sc y) (.sc z) xs ys zs f = .ok (.sc u) ∧ interp3 (.sc x) (.sc y) (.sc z) xs ys zs g = .ok (.sc w) ∧
      interp3 (.sc x) (.sc y) (.sc z) xs ys zs h = .ok (.sc (a * u + b * w)) := by
  refine ⟨_, _, interp3_scalar _ _ _ _ _ _ _ hf, interp3_scalar _ _ _ _ _ _ _ hg, ?_⟩
  rw [interp3_scalar _ _ _ _ _ _ _ hh]
  simp only [interp3S_eq, hfg]
  congr 2
  simp only [Finset.mul_sum, ← Finset.sum_add_distrib]
  refine Finset.sum_congr rfl fun m _ => Finset.sum_congr rfl fun n _ => Finset.sum_congr rfl fun p _ => ?_
  ring

/-- C52: the 2-D interpolation of an array of `K ≥ 1` query points is linear in the field (elementwise). -/
theorem C52_linear_array (a b : ℝ) (q : List (ℝ × ℝ)) (hq : q ≠ []) (xs ys : List ℝ) (f g h : Arr)
    (hf : f.shape = [xs.length, ys.length])
    (hg : g.shape = [xs.length, ys.length]) (hh : h.shape = [xs.length, ys.length])
    (hfg : ∀ m n, h.get [m, n] = a * f.get [m, n] + b * g.get [m, n]) :
    ∃ u w r, interp2 (.vec (q.map Prod.fst)) (.vec (q.map Prod.snd)) xs ys f = .ok u ∧
      interp2 (.vec (q.map Prod.fst)) (.vec (q.map Prod.snd)) xs ys g = .ok w ∧
      interp2 (.vec (q.map Prod.fst)) (.vec (q.map Prod.snd)) xs ys h = .ok r ∧
      Val.lift2 (fun s t => a * s + b * t) u w = .ok r := by
  have hx : Rep q (.vec (q.map Prod.fst)) Prod.fst := rfl
  have hy : Rep q (.vec (q.map Prod.snd)) Prod.snd := rfl
  obtain ⟨u, e1, p1, v1⟩ := interp2_rep hx hy xs ys f hf
  obtain ⟨w, e2, p2, v2⟩ := interp2_rep hx hy xs ys g hg
  obtain ⟨r, e3, p3, v3⟩ := interp2_rep hx hy xs ys h hh
  refine ⟨u, w, r, e1, e2, e3, ?_⟩
  obtain ⟨r', e4, p4, v4⟩ := lift2_rep (fun s t => a * s + b * t) p1 p2
  rw [e4]
  have hv : r'.isVec = r.isVec := by rw [v4, v1, v2, v3, Bool.or_self]
  have hfun : (fun p : ℝ × ℝ => a * interp2S p.1 p.2 xs ys (fun m n => f.get [m, n]) + b * interp2S p.1 p.2 xs ys (fun m n => g.get [m, n])) =
      fun p => interp2S p.1 p.2 xs ys (fun m n => h.get [m, n]) := by
    funext p
    simp only [interp2S_eq, hfg]
    simp only [Finset.mul_sum, ← Finset.sum_add_distrib]
    refine Finset.sum_congr rfl fun m _ => Finset.sum_congr rfl fun n _ => ?_
    ring
  rw [hfun] at p4
  obtain ⟨p0, hp0⟩ := List.exists_mem_of_ne_nil q hq
  cases r with
  | sc c =>
    cases r' with
    | sc c' => rw [← p3 p0 hp0, ← p4 p0 hp0]
    | vec l' => simp [Val.isVec] at hv
  | vec l =>
    cases r' with
    | sc c' => simp [Val.isVec] at hv
    | vec l' => simp only [Rep] at p3 p4; rw [p3, p4]

/-- a case of C52: twice the example field -/
example : ∃ u w, interp2 (.sc 7) (.sc 8) [-1, 1] [0, 4] exArr = .ok (.sc u) ∧ interp2 (.sc 7) (.sc 8) [-1, 1] [0, 4] exArr = .ok (.sc w) ∧
    interp2 (.sc 7) (.sc 8) [-1, 1] [0, 4] ⟨[2, 2], fun l => 2 * exArr.get l⟩ = .ok (.sc (1 * u + 1 * w)) :=
  C52_linear_2D 1 1 7 8 _ _ exArr exArr _ rfl rfl rfl fun m n => by ring

/-! ### C53 -/

/-- C53: permuting `x_nodes` with the rows and `y_nodes` with the columns of the field does not change the result. -/
theorem C53_perm (x y : ℝ) (xs ys xs' ys' : List ℝ) (f f' : Arr) (hf : f.shape = [xs.length, ys.length])
    (hf' : f'.shape = [xs'.length, ys'.length]) (σ : Fin xs.length ≃ Fin xs'.length) (τ : Fin ys.length ≃ Fin ys'.length)
    (hx : ∀ i, xs'[σ i] = xs[i]) (hy : ∀ j, ys'[τ j] = ys[j])
    (hff : ∀ i j, f'.get [(σ i : ℕ), (τ j : ℕ)] = f.get [(i : ℕ), (j : ℕ)]) :
    interp2 (.sc x) (.sc y) xs' ys' f' = interp2 (.sc x) (.sc y) xs ys f := by
  rw [interp2_scalar _ _ _ _ _ hf, interp2_scalar _ _ _ _ _ hf', interp2S_eq, interp2S_eq]
  congr 2
  refine (Fintype.sum_equiv σ _ _ fun m => Fintype.sum_equiv τ _ _ fun n => ?_).symm
  rw [lagF_perm x (fun i => xs[i]) (fun i => xs'[i]) σ hx, lagF_perm y (fun i => ys[i]) (fun i => ys'[i]) τ hy, hff]

/-- a case of C53: both x nodes swapped together with the rows -/
example (x y : ℝ) : interp2 (.sc x) (.sc y) [1, -1] [0, 4] ⟨[2, 2], fun | [0, n] => exArr.get [1, n] | [_, n] => exArr.get [0, n] | _ => 0⟩ =
    interp2 (.sc x) (.sc y) [-1, 1] [0, 4] exArr := by
  refine C53_perm x y [-1, 1] [0, 4] [1, -1] [0, 4] exArr _ rfl rfl (Equiv.swap (0 : Fin 2) 1) (Equiv.refl _) ?_ ?_ ?_
  · intro i; fin_cases i <;> simp
  · intro j; rfl
  · intro i j; fin_cases i <;> fin_cases j <;> simp

/-! ### C54 -/

/-- value of the 3-D code's z factor at a z node -/
theorem lagG_node (ys zs : List ℝ) (hz : zs.Nodup) (p q : Fin zs.length) :
    lagG zs[q] p zs[p] (fun i : Fin ys.length => ys[i]) =
      if p ≠ q ∧ ∃ k : Fin ys.length, (k : ℕ) ≠ p ∧ ys[k] = zs[q] then 0 else
        lagG zs[q] p zs[p] (fun i : Fin ys.length => ys[i]) := by
  split
  · rename_i h
    obtain ⟨hpq, k, hk, hyk⟩ := h
    unfold lagG
    refine Finset.prod_eq_zero (mem_univ k) ?_
    have hne : zs[p] - ys[k] ≠ 0 := by
      rw [hyk]; exact sub_ne_zero.2 fun h => hpq (getElem_injective hz h)
    rw [if_pos ⟨hk, hne⟩]
    simp only [hyk, sub_self, zero_div]
  · rfl

/-- C54 (partial; the full claim, for arbitrary distinct z nodes, is false, see `C54_false`): the 3-D interpolation
reproduces all nodal values of all fields exactly when every z node `z_q` occurs among the y nodes at a position other
than `p`, for each `p ≠ q` (for instance when `z_nodes = y_nodes`, or when there is a single z node). -/
theorem C54_nodal_partial (xs ys zs : List ℝ) (hx : xs.Nodup) (hy : ys.Nodup) (hz : zs.Nodup) (hx0 : xs ≠ []) (hy0 : ys ≠ []) :
    (∀ (field : Arr), field.shape = [xs.length, ys.length, zs.length] →
      ∀ (m n p : ℕ) (hm : m < xs.length) (hn : n < ys.length) (hp : p < zs.length),
      interp3 (.sc xs[m]) (.sc ys[n]) (.sc zs[p]) xs ys zs field = .ok (.sc (field.get [m, n, p]))) ↔
    ∀ p q (_ : p < zs.length) (_ : q < zs.length), p ≠ q → ∃ (k : ℕ) (_ : k < ys.length), k ≠ p ∧ ys[k] = zs[q] := by
  have hx' := getElem_injective hx
  have hy' := getElem_injective hy
  have key : ∀ (field : Arr) (_ : field.shape = [xs.length, ys.length, zs.length]) (m n q : ℕ) (hm : m < xs.length)
      (hn : n < ys.length) (hq : q < zs.length),
      interp3 (.sc xs[m]) (.sc ys[n]) (.sc zs[q]) xs ys zs field =
        .ok (.sc (∑ p : Fin zs.length, lagG zs[q] p zs[p] (fun i : Fin ys.length => ys[i]) * field.get [m, n, p])) := by
    intro field hs m n q hm hn hq
    rw [interp3_scalar _ _ _ _ _ _ _ hs, interp3S_eq]
    congr 2
    have e1 : ∀ a, lagF xs[m] (fun i : Fin xs.length => xs[i]) a = if a = ⟨m, hm⟩ then 1 else 0 := fun a =>
      lagF_node (fun i : Fin xs.length => xs[i]) hx' a ⟨m, hm⟩
    have e2 : ∀ a, lagF ys[n] (fun i : Fin ys.length => ys[i]) a = if a = ⟨n, hn⟩ then 1 else 0 := fun a =>
      lagF_node (fun i : Fin ys.length => ys[i]) hy' a ⟨n, hn⟩
    simp only [e1, e2]
    rw [Finset.sum_eq_single ⟨m, hm⟩, Finset.sum_eq_single ⟨n, hn⟩]
    · simp
    · intro b _ hb; simp [hb]
    · simp
    · intro b _ hb; simp [hb]
    · simp
  have hself : ∀ q (hq : q < zs.length), lagG zs[q] q zs[q] (fun i : Fin ys.length => ys[i]) = 1 := by
    intro q hq
    unfold lagG
    refine Finset.prod_eq_one fun i _ => ?_
    split
    · rename_i h; exact div_self h.2
    · rfl
  constructor
  · intro H p q hp hq hpq
    have hM : 0 < xs.length := List.length_pos_iff.2 hx0
    have hN : 0 < ys.length := List.length_pos_iff.2 hy0
    have h1 := H ⟨[xs.length, ys.length, zs.length], fun l => if l = [0, 0, p] then 1 else 0⟩ rfl 0 0 q hM hN hq
    rw [key _ rfl 0 0 q hM hN hq] at h1
    have h2 := congrArg (fun r => match r with | Except.ok (Val.sc c) => c | _ => 0) h1
    simp only at h2
    rw [Finset.sum_eq_single ⟨p, hp⟩ (by
      intro b _ hb
      have : (b : ℕ) ≠ p := fun h => hb (Fin.ext h)
      simp [this]) (by simp)] at h2
    have hqp : q ≠ p := fun h => hpq h.symm
    simp [hqp] at h2
    unfold lagG at h2
    rw [Finset.prod_eq_zero_iff] at h2
    obtain ⟨i, _, hi⟩ := h2
    split at hi
    · rename_i hc
      rw [div_eq_zero_iff] at hi
      rcases hi with hi | hi
      · exact ⟨i, i.2, hc.1, (sub_eq_zero.1 hi).symm⟩
      · exact absurd hi hc.2
    · norm_num at hi
  · intro H field hs m n q hm hn hq
    rw [key field hs m n q hm hn hq]
    congr 2
    rw [Finset.sum_eq_single ⟨q, hq⟩]
    · have := hself q hq
      simp only [Fin.getElem_fin] at this ⊢
      rw [this]; simp
    · intro b _ hb
      have hb' : (b : ℕ) ≠ q := fun h => hb (Fin.ext h)
      obtain ⟨k, hk, hkp, hyk⟩ := H b q b.2 hq hb'
      have := lagG_node ys zs hz b ⟨q, hq⟩
      rw [if_pos ⟨hb, ⟨k, hk⟩, hkp, hyk⟩] at this
      have e : zs[(⟨q, hq⟩ : Fin zs.length)] = zs[q] := rfl
      rw [e] at this
      rw [this]; simp
    · simp

/-- C54 is false as stated: with y nodes `{0, 1}` and z nodes `{5, 6}` the value at a node is not the nodal value. -/
theorem C54_false : ∃ (xs ys zs : List ℝ) (field : Arr) (m n p : ℕ) (hm : m < xs.length) (hn : n < ys.length) (hp : p < zs.length),
    xs.Nodup ∧ ys.Nodup ∧ zs.Nodup ∧ field.shape = [xs.length, ys.length, zs.length] ∧
    interp3 (.sc xs[m]) (.sc ys[n]) (.sc zs[p]) xs ys zs field ≠ .ok (.sc (field.get [m, n, p])) := by
  by_contra hcon
  have h := (C54_nodal_partial [0] [0, 1] [5, 6] (by simp) (by simp) (by norm_num) (by simp) (by simp)).1
    (fun field hs m n p hm hn hp => by
      by_contra hne
      exact hcon ⟨_, _, _, field, m, n, p, hm, hn, hp, by simp, by simp, by norm_num, hs, hne⟩)
  obtain ⟨k, hk, h1, h2⟩ := h 0 1 (by simp) (by simp) (by simp)
  simp at hk
  interval_cases k <;> norm_num at h2

/-- a case meeting the condition of `C54_nodal_partial`: equal y and z nodes -/
example : ∀ p q (_ : p < [(1:ℝ), 2, 4].length) (_ : q < [(1:ℝ), 2, 4].length), p ≠ q →
    ∃ (k : ℕ) (_ : k < [(1:ℝ), 2, 4].length), k ≠ p ∧ [(1:ℝ), 2, 4][k] = [(1:ℝ), 2, 4][q] := by
  intro p q _ hq hpq
  exact ⟨q, hq, hpq.symm, rfl⟩

/-! ### C55 -/

/-- the result is not an AssertionError -/
def NoAssert (r : Except Err Val) : Prop := r ≠ .error .assertion

theorem noAssert_lift2 (f : ℝ → ℝ → ℝ) (v w : Val) : NoAssert (Val.lift2 f v w) := by
  unfold NoAssert Val.lift2
  split
  · simp
  · simp
  · simp
  · split
    · simp
    · split <;> simp

theorem noAssert_bind (r : Except Err Val) (k : Val → Except Err Val) (h : NoAssert r) (hk : ∀ v, NoAssert (k v)) :
    NoAssert (r >>= k) := by
  cases r with
  | error e => simpa [NoAssert, bind, Except.bind] using h
  | ok v => exact hk v

theorem noAssert_lagLoop (x : Val) (m : ℕ) (xm : ℝ) : ∀ (l : List (ℝ × ℕ)) (fx : Val), NoAssert (lagLoop x m xm l fx) := by
  intro l
  induction l with
  | nil => intro fx; simp [lagLoop, NoAssert]
  | cons a l ih =>
    intro fx
    obtain ⟨xi, i⟩ := a
    unfold lagLoop
    split
    · exact noAssert_bind _ _ (noAssert_lift2 _ _ _) fun _ => noAssert_bind _ _ (noAssert_lift2 _ _ _) fun _ =>
        noAssert_bind _ _ (noAssert_lift2 _ _ _) fun _ => ih _
    · exact ih _

theorem noAssert_inner (y : Val) (ys : List ℝ) (fld : ℕ → ℕ → ℝ) (fx : Val) (m : ℕ) :
    ∀ (l : List (ℝ × ℕ)) (v : Val), NoAssert (interp2Inner y ys fld fx m l v) := by
  intro l
  induction l with
  | nil => intro v; simp [interp2Inner, NoAssert]
  | cons a l ih =>
    intro v
    obtain ⟨yn, n⟩ := a
    unfold interp2Inner
    exact noAssert_bind _ _ (noAssert_lagLoop _ _ _ _ _) fun _ => noAssert_bind _ _ (noAssert_lift2 _ _ _) fun _ =>
      noAssert_bind _ _ (noAssert_lift2 _ _ _) fun _ => noAssert_bind _ _ (noAssert_lift2 _ _ _) fun _ => ih _

theorem noAssert_outer (x y : Val) (xs ys : List ℝ) (fld : ℕ → ℕ → ℝ) :
    ∀ (l : List (ℝ × ℕ)) (v : Val), NoAssert (interp2Outer x y xs ys fld l v) := by
  intro l
  induction l with
  | nil => intro v; simp [interp2Outer, NoAssert]
  | cons a l ih =>
    intro v
    obtain ⟨yn, n⟩ := a
    unfold interp2Outer
    exact noAssert_bind _ _ (noAssert_lagLoop _ _ _ _ _) fun _ => noAssert_bind _ _ (noAssert_inner _ _ _ _ _ _ _) fun _ => ih _

theorem noAssert_P (z : Val) (ys : List ℝ) (fld : ℕ → ℕ → ℕ → ℝ) (fx fy : Val) (m n : ℕ) :
    ∀ (l : List (ℝ × ℕ)) (v : Val), NoAssert (interp3P z ys fld fx fy m n l v) := by
  intro l
  induction l with
  | nil => intro v; simp [interp3P, NoAssert]
  | cons a l ih =>
    intro v
    obtain ⟨yn, n⟩ := a
    unfold interp3P
    exact noAssert_bind _ _ (noAssert_lagLoop _ _ _ _ _) fun _ => noAssert_bind _ _ (noAssert_lift2 _ _ _) fun _ =>
      noAssert_bind _ _ (noAssert_lift2 _ _ _) fun _ => noAssert_bind _ _ (noAssert_lift2 _ _ _) fun _ =>
      noAssert_bind _ _ (noAssert_lift2 _ _ _) fun _ => ih _

theorem noAssert_N (y z : Val) (ys zs : List ℝ) (fld : ℕ → ℕ → ℕ → ℝ) (fx : Val) (m : ℕ) :
    ∀ (l : List (ℝ × ℕ)) (v : Val), NoAssert (interp3N y z ys zs fld fx m l v) := by
  intro l
  induction l with
  | nil => intro v; simp [interp3N, NoAssert]
  | cons a l ih =>
    intro v
    obtain ⟨yn, n⟩ := a
    unfold interp3N
    exact noAssert_bind _ _ (noAssert_lagLoop _ _ _ _ _) fun _ => noAssert_bind _ _ (noAssert_P _ _ _ _ _ _ _ _ _) fun _ => ih _

theorem noAssert_M (x y z : Val) (xs ys zs : List ℝ) (fld : ℕ → ℕ → ℕ → ℝ) :
    ∀ (l : List (ℝ × ℕ)) (v : Val), NoAssert (interp3M x y z xs ys zs fld l v) := by
  intro l
  induction l with
  | nil => intro v; simp [interp3M, NoAssert]
  | cons a l ih =>
    intro v
    obtain ⟨yn, n⟩ := a
    unfold interp3M
    exact noAssert_bind _ _ (noAssert_lagLoop _ _ _ _ _) fun _ => noAssert_bind _ _ (noAssert_N _ _ _ _ _ _ _ _ _) fun _ => ih _

/-- C55 (2-D): AssertionError exactly on a shape mismatch, for scalar and array queries of any length. -/
theorem C55_shape_2D (x y : Val) (xs ys : List ℝ) (field : Arr) :
    interp2 x y xs ys field = .error .assertion ↔ field.shape ≠ [xs.length, ys.length] := by
  unfold interp2
  split
  · rename_i a b hs
    rw [hs]
    split
    · split
      · rename_i h1 h2
        subst h1 h2
        simpa [NoAssert] using noAssert_outer x y xs ys _ xs.zipIdx (.sc 0)
      · rename_i h1 h2; simp [h2]
    · rename_i h; simp [h]
  · rename_i h
    simp only [ne_eq, true_iff]
    intro hs; exact h _ _ hs

/-- C55 (3-D): AssertionError exactly on a shape mismatch. -/
theorem C55_shape_3D (x y z : Val) (xs ys zs : List ℝ) (field : Arr) :
    interp3 x y z xs ys zs field = .error .assertion ↔ field.shape ≠ [xs.length, ys.length, zs.length] := by
  unfold interp3
  split
  · rename_i a b c hs
    rw [hs]
    split
    · split
      · split
        · rename_i h1 h2 h3
          subst h1 h2 h3
          simpa [NoAssert] using noAssert_M x y z xs ys zs _ xs.zipIdx (.sc 0)
        · rename_i h1 h2 h3; simp [h3]
      · rename_i h1 h2; simp [h2]
    · rename_i h; simp [h]
  · rename_i h
    simp only [ne_eq, true_iff]
    intro hs; exact h _ _ _ hs

/-- both outcomes of C55 occur -/
example : interp2 (.sc 0) (.sc 0) [-1, 1] [0, 4] exArr ≠ .error .assertion ∧
    interp2 (.sc 0) (.sc 0) [-1, 1, 2] [0, 4] exArr = .error .assertion := by
  rw [ne_eq, C55_shape_2D, C55_shape_2D]
  simp [exArr]

/-! ### C56 -/

theorem lagUsed_of_ne (xs : List ℝ) (i j : Fin xs.length) (h : xs[i] ≠ xs[j]) : lagUsed i xs[i] xs.zipIdx = true := by
  unfold lagUsed
  rw [List.any_eq_true]
  refine ⟨(xs[j], (j : ℕ)), ?_, ?_⟩
  · rw [List.mem_zipIdx_iff_getElem?]; simp
  · have h1 : (j : ℕ) ≠ i := by
      intro hij
      have : j = i := Fin.ext hij
      subst this; exact h rfl
    simp only [decide_eq_true_eq]
    exact ⟨h1, sub_ne_zero.2 h⟩

/-- C56 (partial: the claim fails when all control nodes of both directions coincide, see `C56_false`): if `x_nodes`
has two different values, or `y_nodes` has, then for `K` query points the result is an array with `K` entries and entry
`k` is what the scalar call returns for query point `k`. -/
theorem C56_per_point_partial (q : List (ℝ × ℝ)) (xs ys : List ℝ) (hx0 : xs ≠ []) (hy0 : ys ≠ [])
    (hne : (∃ a ∈ xs, ∃ b ∈ xs, a ≠ b) ∨ ∃ a ∈ ys, ∃ b ∈ ys, a ≠ b)
    (field : Arr) (hs : field.shape = [xs.length, ys.length]) :
    ∃ r : List ℝ, interp2 (.vec (q.map Prod.fst)) (.vec (q.map Prod.snd)) xs ys field = .ok (.vec r) ∧
      r.length = q.length ∧ ∀ k (hk : k < q.length) (hk' : k < r.length),
        interp2 (.sc q[k].1) (.sc q[k].2) xs ys field = .ok (.sc r[k]) := by
  have hx : Rep q (.vec (q.map Prod.fst)) Prod.fst := rfl
  have hy : Rep q (.vec (q.map Prod.snd)) Prod.snd := rfl
  obtain ⟨r, e, p, v⟩ := interp2_rep hx hy xs ys field hs
  have hv : r.isVec = true := by
    rw [v, List.any_eq_true]
    rcases hne with ⟨a, ha, b, hb, hab⟩ | ⟨a, ha, b, hb, hab⟩
    · obtain ⟨i, hi, rfl⟩ := List.getElem_of_mem ha
      obtain ⟨j, hj, rfl⟩ := List.getElem_of_mem hb
      refine ⟨(xs[i], i), by rw [List.mem_zipIdx_iff_getElem?]; simp [hi], ?_⟩
      have hN : 0 < ys.length := List.length_pos_iff.2 hy0
      rw [List.any_eq_true]
      refine ⟨(ys[0], 0), by rw [List.mem_zipIdx_iff_getElem?]; simp [hN], ?_⟩
      have := lagUsed_of_ne xs ⟨i, hi⟩ ⟨j, hj⟩ hab
      simp only [Fin.getElem_fin] at this
      simp [Val.isVec, this]
    · obtain ⟨i, hi, rfl⟩ := List.getElem_of_mem ha
      obtain ⟨j, hj, rfl⟩ := List.getElem_of_mem hb
      have hM : 0 < xs.length := List.length_pos_iff.2 hx0
      refine ⟨(xs[0], 0), by rw [List.mem_zipIdx_iff_getElem?]; simp [hM], ?_⟩
      rw [List.any_eq_true]
      refine ⟨(ys[i], i), by rw [List.mem_zipIdx_iff_getElem?]; simp [hi], ?_⟩
      have := lagUsed_of_ne ys ⟨i, hi⟩ ⟨j, hj⟩ hab
      simp only [Fin.getElem_fin] at this
      simp [Val.isVec, this]
  cases r with
  | sc c => simp [Val.isVec] at hv
  | vec l =>
    refine ⟨l, e, ?_, ?_⟩
    · simp only [Rep] at p; rw [p]; simp
    · intro k hk hk'
      rw [interp2_scalar _ _ _ _ _ hs]
      simp only [Rep] at p
      subst p
      simp

/-- C56 is false as stated: with one control node in each direction, three query points give a scalar. -/
theorem C56_false : interp2 (.vec [1, 2, 3]) (.vec [1, 2, 3]) [0] [0] ⟨[1, 1], fun _ => 7⟩ = .ok (.sc 7) := by
  simp [interp2, interp2Outer, interp2Inner, lagLoop, Val.lift2, List.zipIdx, bind, Except.bind]

theorem lagLoop_first {l : List ℝ} {xs : List ℝ} (h : ∃ a ∈ xs, ∃ b ∈ xs, a ≠ b) : ∃ x0 rest r, xs.zipIdx = (x0, 0) :: rest ∧
    lagLoop (.vec l) 0 x0 xs.zipIdx (.sc 1) = .ok (.vec r) ∧ r.length = l.length := by
  obtain ⟨a, ha, b, hb, hab⟩ := h
  rcases xs with _ | ⟨x0, xs⟩
  · cases ha
  have hne : ∃ c ∈ x0 :: xs, x0 ≠ c := by
    by_contra hcon
    push Not at hcon
    exact hab ((hcon a ha).symm.trans (hcon b hb))
  obtain ⟨c, hc, hc0⟩ := hne
  obtain ⟨j, hj, rfl⟩ := List.getElem_of_mem hc
  have hu := lagUsed_of_ne (x0 :: xs) ⟨0, by simp⟩ ⟨j, hj⟩ (by simpa using hc0)
  obtain ⟨r, e, p, v⟩ := lagLoop_rep (q := l) (x := .vec l) (gx := id) (by simp [Rep]) 0 x0 (x0 :: xs).zipIdx (.sc 1) _ (rep_const l 1)
  have hu' : lagUsed 0 x0 (x0 :: xs).zipIdx = true := hu
  rw [hu'] at v
  cases r with
  | sc c => simp [Val.isVec] at v
  | vec r => exact ⟨x0, xs.zipIdx 1, r, by simp [List.zipIdx_cons], e, by rw [show r = l.map _ from p]; simp⟩

/-- C56: arrays `x` and `y` of different lengths (numpy broadcasts only arrays of one entry) are rejected with a ValueError, when there are two
different control nodes in each direction -/
theorem C56_lengths {l l' : List ℝ} (h : l.length ≠ l'.length) (h1 : l.length ≠ 1) (h2 : l'.length ≠ 1) {xs ys : List ℝ}
    (hx : ∃ a ∈ xs, ∃ b ∈ xs, a ≠ b) (hy : ∃ a ∈ ys, ∃ b ∈ ys, a ≠ b) (field : Arr) (hs : field.shape = [xs.length, ys.length]) :
    interp2 (.vec l) (.vec l') xs ys field = .error .valueError := by
  obtain ⟨x0, rx, r, ex, lx, hr⟩ := lagLoop_first (l := l) hx
  obtain ⟨y0, ry, r', ey, ly, hr'⟩ := lagLoop_first (l := l') hy
  have hl : Val.lift2 (· * ·) (.vec r) (.vec r') = .error .valueError := by
    unfold Val.lift2
    dsimp only
    rw [if_neg (by rw [hr, hr']; exact h)]
    split
    · simp at hr; omega
    · simp at hr'; omega
    · rfl
  unfold interp2
  simp only [hs, if_true]
  have hin : ∀ fl f, interp2Inner (.vec l') ys fl (.vec r) 0 ys.zipIdx f = .error .valueError := by
    intro fl f
    rw [ey]
    unfold interp2Inner
    rw [ly]
    simp only [bind, Except.bind, hl]
  rw [ex]
  unfold interp2Outer
  rw [lx]
  simp only [bind, Except.bind, hin]

/-- three abscissas and two ordinates -/
example : interp2 (.vec [1, 2, 3]) (.vec [4, 5]) [-1, 1] [0, 4] exArr = .error .valueError :=
  C56_lengths (by simp) (by simp) (by simp) ⟨-1, by simp, 1, by simp, by norm_num⟩ ⟨0, by simp, 4, by simp, by norm_num⟩ exArr rfl

/-- a case meeting the hypotheses of `C56_per_point_partial` -/
example : ∃ r : List ℝ, interp2 (.vec [1, 2, 3]) (.vec [4, 5, 6]) [-1, 1] [0, 4] exArr = .ok (.vec r) ∧ r.length = 3 := by
  obtain ⟨r, h1, h2, _⟩ := C56_per_point_partial [(1, 4), (2, 5), (3, 6)] [-1, 1] [0, 4] (by simp) (by simp)
    (Or.inl ⟨-1, by simp, 1, by simp, by norm_num⟩) exArr rfl
  exact ⟨r, h1, h2⟩

end Meshless
