import Verif.Model.Interp
import Mathlib.Algebra.BigOperators.Group.List.Basic
import Mathlib.Algebra.BigOperators.Ring.List
import Mathlib.LinearAlgebra.Lagrange
import Mathlib.Tactic.Ring

set_option autoImplicit false

namespace Meshless

/-- `v` holds, for each query `p` of the list `q`, the number `g p` (a scalar stands for a constant) -/
def Rep {Q : Type} (q : List Q) (v : Val) (g : Q → ℝ) : Prop :=
  match v with
  | .sc c => ∀ p ∈ q, g p = c
  | .vec l => l = q.map g

/-- the value is an array -/
def Val.isVec : Val → Bool
  | .sc _ => false
  | .vec _ => true

theorem zipWith_map_same {Q : Type} (f : ℝ → ℝ → ℝ) (q : List Q) (g h : Q → ℝ) :
    List.zipWith f (q.map g) (q.map h) = q.map fun p => f (g p) (h p) := by
  induction q with
  | nil => rfl
  | cons a q ih => simp [ih]

theorem lift2_rep {Q : Type} {q : List Q} {v w : Val} {g h : Q → ℝ} (f : ℝ → ℝ → ℝ) (hv : Rep q v g) (hw : Rep q w h) :
    ∃ r, Val.lift2 f v w = .ok r ∧ Rep q r (fun p => f (g p) (h p)) ∧ r.isVec = (v.isVec || w.isVec) := by
  cases v with
  | sc a =>
    cases w with
    | sc b =>
      exact ⟨_, rfl, fun p hp => by simp only [hv p hp, hw p hp], rfl⟩
    | vec l =>
      refine ⟨_, rfl, ?_, rfl⟩
      simp only [Rep] at hw ⊢
      subst hw
      rw [List.map_map]
      exact List.map_congr_left fun p hp => by simp [hv p hp]
  | vec l =>
    cases w with
    | sc b =>
      refine ⟨_, rfl, ?_, rfl⟩
      simp only [Rep] at hv ⊢
      subst hv
      rw [List.map_map]
      exact List.map_congr_left fun p hp => by simp [hw p hp]
    | vec l' =>
      simp only [Rep] at hv hw
      subst hv hw
      refine ⟨.vec (q.map fun p => f (g p) (h p)), ?_, rfl, rfl⟩
      simp only [Val.lift2]
      rw [if_pos (by simp), zipWith_map_same]

theorem rep_const {Q : Type} (q : List Q) (c : ℝ) : Rep q (.sc c) (fun _ => c) := fun _ _ => rfl

/-- scalar meaning of one factor -/
noncomputable def lagFactor (x : ℝ) (m : ℕ) (xm : ℝ) (a : ℝ × ℕ) : ℝ :=
  if a.2 ≠ m ∧ xm - a.1 ≠ 0 then (x - a.1) / (xm - a.1) else 1

/-- scalar meaning of the factor loop -/
noncomputable def lagS (x : ℝ) (m : ℕ) (xm : ℝ) (l : List (ℝ × ℕ)) : ℝ := (l.map (lagFactor x m xm)).prod

/-- some factor is not skipped -/
noncomputable def lagUsed (m : ℕ) (xm : ℝ) (l : List (ℝ × ℕ)) : Bool := by
  classical exact l.any fun a => decide (a.2 ≠ m ∧ xm - a.1 ≠ 0)

theorem lagLoop_rep {Q : Type} {q : List Q} {x : Val} {gx : Q → ℝ} (hx : Rep q x gx) (m : ℕ) (xm : ℝ) :
    ∀ (l : List (ℝ × ℕ)) (fx : Val) (g : Q → ℝ), Rep q fx g →
      ∃ r, lagLoop x m xm l fx = .ok r ∧ Rep q r (fun p => g p * lagS (gx p) m xm l) ∧
        r.isVec = (fx.isVec || (x.isVec && lagUsed m xm l)) := by
  intro l
  induction l with
  | nil => intro fx g h; exact ⟨fx, rfl, by simpa [lagS] using h, by simp [lagUsed]⟩
  | cons a l ih =>
    intro fx g h
    obtain ⟨xi, i⟩ := a
    unfold lagLoop
    by_cases hc : i ≠ m ∧ xm - xi ≠ 0
    · obtain ⟨r1, e1, p1, v1⟩ := lift2_rep (· - ·) hx (rep_const q xi)
      obtain ⟨r2, e2, p2, v2⟩ := lift2_rep (· / ·) p1 (rep_const q (xm - xi))
      obtain ⟨r3, e3, p3, v3⟩ := lift2_rep (· * ·) h p2
      obtain ⟨r4, e4, p4, v4⟩ := ih r3 _ p3
      refine ⟨r4, ?_, ?_, ?_⟩
      · rw [if_pos hc]
        simp only [e1, bind, Except.bind, e2, e3, e4]
      · have : (fun p => g p * lagS (gx p) m xm ((xi, i) :: l)) =
            fun p => g p * ((gx p - xi) / (xm - xi)) * lagS (gx p) m xm l := by
          funext p; simp [lagS, lagFactor, hc]; ring
        rw [this]; exact p4
      · rw [v4, v3, v2, v1]
        have : lagUsed m xm ((xi, i) :: l) = true := by simp [lagUsed, hc]
        rw [this]
        simp [Val.isVec]
        cases x <;> simp
    · obtain ⟨r4, e4, p4, v4⟩ := ih fx g h
      refine ⟨r4, ?_, ?_, ?_⟩
      · rw [if_neg hc]; exact e4
      · have : (fun p => g p * lagS (gx p) m xm ((xi, i) :: l)) = fun p => g p * lagS (gx p) m xm l := by
          funext p; simp [lagS, lagFactor, hc]
        rw [this]; exact p4
      · rw [v4]
        have : lagUsed m xm ((xi, i) :: l) = lagUsed m xm l := by simp [lagUsed, hc]
        rw [this]

theorem interp2Inner_rep {Q : Type} {q : List Q} {y : Val} {gy : Q → ℝ} (hy : Rep q y gy) (ys : List ℝ) (fld : ℕ → ℕ → ℝ)
    {fx : Val} {gfx : Q → ℝ} (hfx : Rep q fx gfx) (m : ℕ) :
    ∀ (l : List (ℝ × ℕ)) (field : Val) (g : Q → ℝ), Rep q field g →
      ∃ r, interp2Inner y ys fld fx m l field = .ok r ∧
        Rep q r (fun p => g p + (l.map fun a => gfx p * lagS (gy p) a.2 a.1 ys.zipIdx * fld m a.2).sum) ∧
        r.isVec = (field.isVec || l.any fun a => fx.isVec || (y.isVec && lagUsed a.2 a.1 ys.zipIdx)) := by
  intro l
  induction l with
  | nil => intro field g h; exact ⟨field, rfl, by simpa using h, by simp⟩
  | cons a l ih =>
    intro field g h
    obtain ⟨yn, n⟩ := a
    obtain ⟨r0, e0, p0, v0⟩ := lagLoop_rep hy n yn ys.zipIdx (.sc 1) _ (rep_const q 1)
    obtain ⟨r1, e1, p1, v1⟩ := lift2_rep (· * ·) hfx p0
    obtain ⟨r2, e2, p2, v2⟩ := lift2_rep (· * ·) p1 (rep_const q (fld m n))
    obtain ⟨r3, e3, p3, v3⟩ := lift2_rep (· + ·) h p2
    obtain ⟨r4, e4, p4, v4⟩ := ih r3 _ p3
    refine ⟨r4, ?_, ?_, ?_⟩
    · unfold interp2Inner
      simp only [e0, bind, Except.bind, e1, e2, e3, e4]
    · have : (fun p => g p + (((yn, n) :: l).map fun a => gfx p * lagS (gy p) a.2 a.1 ys.zipIdx * fld m a.2).sum) =
        fun p => g p + gfx p * (1 * lagS (gy p) n yn ys.zipIdx) * fld m n +
          (l.map fun a => gfx p * lagS (gy p) a.2 a.1 ys.zipIdx * fld m a.2).sum := by
        funext p; simp; ring
      rw [this]; exact p4
    · rw [v4, v3, v2, v1, v0]
      simp [Val.isVec, Bool.or_assoc]

theorem interp2Outer_rep {Q : Type} {q : List Q} {x y : Val} {gx gy : Q → ℝ} (hx : Rep q x gx) (hy : Rep q y gy)
    (xs ys : List ℝ) (fld : ℕ → ℕ → ℝ) :
    ∀ (l : List (ℝ × ℕ)) (field : Val) (g : Q → ℝ), Rep q field g →
      ∃ r, interp2Outer x y xs ys fld l field = .ok r ∧
        Rep q r (fun p => g p + (l.map fun b => (ys.zipIdx.map fun a =>
          lagS (gx p) b.2 b.1 xs.zipIdx * lagS (gy p) a.2 a.1 ys.zipIdx * fld b.2 a.2).sum).sum) ∧
        r.isVec = (field.isVec || l.any fun b => ys.zipIdx.any fun a =>
          (x.isVec && lagUsed b.2 b.1 xs.zipIdx) || (y.isVec && lagUsed a.2 a.1 ys.zipIdx)) := by
  intro l
  induction l with
  | nil => intro field g h; exact ⟨field, rfl, by simpa using h, by simp⟩
  | cons b l ih =>
    intro field g h
    obtain ⟨xm, m⟩ := b
    obtain ⟨r0, e0, p0, v0⟩ := lagLoop_rep hx m xm xs.zipIdx (.sc 1) _ (rep_const q 1)
    obtain ⟨r1, e1, p1, v1⟩ := interp2Inner_rep hy ys fld p0 m ys.zipIdx field g h
    obtain ⟨r4, e4, p4, v4⟩ := ih r1 _ p1
    refine ⟨r4, ?_, ?_, ?_⟩
    · unfold interp2Outer
      simp only [e0, bind, Except.bind, e1, e4]
    · convert p4 using 2 with p
      simp; ring
    · rw [v4, v1, v0]
      simp [Val.isVec, Bool.or_assoc]

/-- the value computed for one query point -/
noncomputable def interp2S (x y : ℝ) (xs ys : List ℝ) (fld : ℕ → ℕ → ℝ) : ℝ :=
  (xs.zipIdx.map fun b => (ys.zipIdx.map fun a =>
    lagS x b.2 b.1 xs.zipIdx * lagS y a.2 a.1 ys.zipIdx * fld b.2 a.2).sum).sum

theorem interp2_rep {Q : Type} {q : List Q} {x y : Val} {gx gy : Q → ℝ} (hx : Rep q x gx) (hy : Rep q y gy)
    (xs ys : List ℝ) (field : Arr) (hs : field.shape = [xs.length, ys.length]) :
    ∃ r, interp2 x y xs ys field = .ok r ∧ Rep q r (fun p => interp2S (gx p) (gy p) xs ys fun m n => field.get [m, n]) ∧
      r.isVec = xs.zipIdx.any fun b => ys.zipIdx.any fun a =>
          (x.isVec && lagUsed b.2 b.1 xs.zipIdx) || (y.isVec && lagUsed a.2 a.1 ys.zipIdx) := by
  obtain ⟨r, e, p, v⟩ := interp2Outer_rep hx hy xs ys (fun m n => field.get [m, n]) xs.zipIdx (.sc 0) _ (rep_const q 0)
  refine ⟨r, ?_, ?_, ?_⟩
  · unfold interp2; rw [hs]; simpa using e
  · simpa [interp2S] using p
  · rw [v]; simp [Val.isVec]

theorem interp2_scalar (x y : ℝ) (xs ys : List ℝ) (field : Arr) (hs : field.shape = [xs.length, ys.length]) :
    interp2 (.sc x) (.sc y) xs ys field = .ok (.sc (interp2S x y xs ys fun m n => field.get [m, n])) := by
  obtain ⟨r, e, p, v⟩ := interp2_rep (q := [()]) (x := .sc x) (y := .sc y) (gx := fun _ => x) (gy := fun _ => y)
    (rep_const _ _) (rep_const _ _) xs ys field hs
  rw [e]
  cases r with
  | sc c => have := p () (by simp); rw [← this]
  | vec l => simp [Val.isVec] at v

/-! ### 3-D -/

theorem interp3P_rep {Q : Type} {q : List Q} {z : Val} {gz : Q → ℝ} (hz : Rep q z gz) (ys : List ℝ) (fld : ℕ → ℕ → ℕ → ℝ)
    {fx fy : Val} {gfx gfy : Q → ℝ} (hfx : Rep q fx gfx) (hfy : Rep q fy gfy) (m n : ℕ) :
    ∀ (l : List (ℝ × ℕ)) (field : Val) (g : Q → ℝ), Rep q field g →
      ∃ r, interp3P z ys fld fx fy m n l field = .ok r ∧
        Rep q r (fun p => g p + (l.map fun a => gfx p * gfy p * lagS (gz p) a.2 a.1 ys.zipIdx * fld m n a.2).sum) ∧
        r.isVec = (field.isVec || l.any fun a => fx.isVec || (fy.isVec || (z.isVec && lagUsed a.2 a.1 ys.zipIdx))) := by
  intro l
  induction l with
  | nil => intro field g h; exact ⟨field, rfl, by simpa using h, by simp⟩
  | cons a l ih =>
    intro field g h
    obtain ⟨zp, c⟩ := a
    obtain ⟨r0, e0, p0, v0⟩ := lagLoop_rep hz c zp ys.zipIdx (.sc 1) _ (rep_const q 1)
    obtain ⟨r1, e1, p1, v1⟩ := lift2_rep (· * ·) hfx hfy
    obtain ⟨r2, e2, p2, v2⟩ := lift2_rep (· * ·) p1 p0
    obtain ⟨r2', e2', p2', v2'⟩ := lift2_rep (· * ·) p2 (rep_const q (fld m n c))
    obtain ⟨r3, e3, p3, v3⟩ := lift2_rep (· + ·) h p2'
    obtain ⟨r4, e4, p4, v4⟩ := ih r3 _ p3
    refine ⟨r4, ?_, ?_, ?_⟩
    · unfold interp3P
      simp only [e0, bind, Except.bind, e1, e2, e2', e3, e4]
    · convert p4 using 2 with p
      simp; ring
    · rw [v4, v3, v2', v2, v1, v0]
      simp [Val.isVec, Bool.or_assoc]

theorem interp3N_rep {Q : Type} {q : List Q} {y z : Val} {gy gz : Q → ℝ} (hy : Rep q y gy) (hz : Rep q z gz) (ys zs : List ℝ)
    (fld : ℕ → ℕ → ℕ → ℝ) {fx : Val} {gfx : Q → ℝ} (hfx : Rep q fx gfx) (m : ℕ) :
    ∀ (l : List (ℝ × ℕ)) (field : Val) (g : Q → ℝ), Rep q field g →
      ∃ r, interp3N y z ys zs fld fx m l field = .ok r ∧
        Rep q r (fun p => g p + (l.map fun b => (zs.zipIdx.map fun a =>
          gfx p * lagS (gy p) b.2 b.1 ys.zipIdx * lagS (gz p) a.2 a.1 ys.zipIdx * fld m b.2 a.2).sum).sum) ∧
        r.isVec = (field.isVec || l.any fun b => zs.zipIdx.any fun a =>
          fx.isVec || ((y.isVec && lagUsed b.2 b.1 ys.zipIdx) || (z.isVec && lagUsed a.2 a.1 ys.zipIdx))) := by
  intro l
  induction l with
  | nil => intro field g h; exact ⟨field, rfl, by simpa using h, by simp⟩
  | cons b l ih =>
    intro field g h
    obtain ⟨yn, n⟩ := b
    obtain ⟨r0, e0, p0, v0⟩ := lagLoop_rep hy n yn ys.zipIdx (.sc 1) _ (rep_const q 1)
    obtain ⟨r1, e1, p1, v1⟩ := interp3P_rep hz ys fld hfx p0 m n zs.zipIdx field g h
    obtain ⟨r4, e4, p4, v4⟩ := ih r1 _ p1
    refine ⟨r4, ?_, ?_, ?_⟩
    · unfold interp3N
      simp only [e0, bind, Except.bind, e1, e4]
    · convert p4 using 2 with p
      simp; ring
    · rw [v4, v1, v0]
      simp [Val.isVec, Bool.or_assoc]

theorem interp3M_rep {Q : Type} {q : List Q} {x y z : Val} {gx gy gz : Q → ℝ} (hx : Rep q x gx) (hy : Rep q y gy)
    (hz : Rep q z gz) (xs ys zs : List ℝ) (fld : ℕ → ℕ → ℕ → ℝ) :
    ∀ (l : List (ℝ × ℕ)) (field : Val) (g : Q → ℝ), Rep q field g →
      ∃ r, interp3M x y z xs ys zs fld l field = .ok r ∧
        Rep q r (fun p => g p + (l.map fun c => (ys.zipIdx.map fun b => (zs.zipIdx.map fun a =>
          lagS (gx p) c.2 c.1 xs.zipIdx * lagS (gy p) b.2 b.1 ys.zipIdx * lagS (gz p) a.2 a.1 ys.zipIdx * fld c.2 b.2 a.2).sum).sum).sum) ∧
        r.isVec = (field.isVec || l.any fun c => ys.zipIdx.any fun b => zs.zipIdx.any fun a =>
          (x.isVec && lagUsed c.2 c.1 xs.zipIdx) || ((y.isVec && lagUsed b.2 b.1 ys.zipIdx) || (z.isVec && lagUsed a.2 a.1 ys.zipIdx))) := by
  intro l
  induction l with
  | nil => intro field g h; exact ⟨field, rfl, by simpa using h, by simp⟩
  | cons b l ih =>
    intro field g h
    obtain ⟨xm, m⟩ := b
    obtain ⟨r0, e0, p0, v0⟩ := lagLoop_rep hx m xm xs.zipIdx (.sc 1) _ (rep_const q 1)
    obtain ⟨r1, e1, p1, v1⟩ := interp3N_rep hy hz ys zs fld p0 m ys.zipIdx field g h
    obtain ⟨r4, e4, p4, v4⟩ := ih r1 _ p1
    refine ⟨r4, ?_, ?_, ?_⟩
    · unfold interp3M
      simp only [e0, bind, Except.bind, e1, e4]
    · convert p4 using 2 with p
      simp; ring
    · rw [v4, v1, v0]
      simp [Val.isVec, Bool.or_assoc]

/-- the value computed for one query point by the 3-D code: the z factors run over the y nodes -/
noncomputable def interp3S (x y z : ℝ) (xs ys zs : List ℝ) (fld : ℕ → ℕ → ℕ → ℝ) : ℝ :=
  (xs.zipIdx.map fun c => (ys.zipIdx.map fun b => (zs.zipIdx.map fun a =>
    lagS x c.2 c.1 xs.zipIdx * lagS y b.2 b.1 ys.zipIdx * lagS z a.2 a.1 ys.zipIdx * fld c.2 b.2 a.2).sum).sum).sum

theorem interp3_scalar (x y z : ℝ) (xs ys zs : List ℝ) (field : Arr) (hs : field.shape = [xs.length, ys.length, zs.length]) :
    interp3 (.sc x) (.sc y) (.sc z) xs ys zs field = .ok (.sc (interp3S x y z xs ys zs fun m n p => field.get [m, n, p])) := by
  obtain ⟨r, e, p, v⟩ := interp3M_rep (q := [()]) (x := .sc x) (y := .sc y) (z := .sc z) (gx := fun _ => x) (gy := fun _ => y)
    (gz := fun _ => z) (rep_const _ _) (rep_const _ _) (rep_const _ _) xs ys zs (fun m n p => field.get [m, n, p])
    xs.zipIdx (.sc 0) _ (rep_const _ 0)
  have : interp3 (.sc x) (.sc y) (.sc z) xs ys zs field = .ok r := by
    unfold interp3; rw [hs]; simpa using e
  rw [this]
  cases r with
  | sc c => have := p () (by simp); rw [← this]; simp [interp3S]
  | vec l => simp [Val.isVec] at v

end Meshless
