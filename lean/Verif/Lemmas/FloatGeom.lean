import Verif.Lemmas.FloatAcc
import Verif.Lemmas.FloatStatic
import Verif.Lemmas.Geom

/-! Geometry computed with rounding: vectors, lengths, normals, areas and the data of an edge are accurate to a constant times the roundoff. -/

set_option autoImplicit false

namespace Meshless
open Filter Topology Spec

variable {ι : Type*} {π : ι → Rounding}

/-- closes goals `Acc π (fun i => expression) (exact expression)` -/
macro "acc" : tactic => `(tactic| repeat' first
  | assumption | exact Acc.const _ | exact Acc.cst _
  | apply Acc.add | apply Acc.sub | apply Acc.mul | apply Acc.neg' | apply Acc.abs' | apply Acc.max' | apply Acc.min')

/-- componentwise accuracy of a computed vector -/
structure AccV (π : ι → Rounding) (P : ι → Vec3) (p : Vec3) : Prop where
  x : Acc π (fun i => (P i).x) p.x
  y : Acc π (fun i => (P i).y) p.y
  z : Acc π (fun i => (P i).z) p.z

namespace AccV
variable {P Q : ι → Vec3} {p q : Vec3}

theorem const (p : Vec3) : AccV π (fun _ => p) p := ⟨Acc.const _, Acc.const _, Acc.const _⟩

theorem sub (h : AccV π P p) (g : AccV π Q q) : AccV π (fun i => (π i).vsub (P i) (Q i)) (p.sub q) :=
  ⟨h.x.sub g.x, h.y.sub g.y, h.z.sub g.z⟩

theorem cross (h : AccV π P p) (g : AccV π Q q) : AccV π (fun i => (π i).vcross (P i) (Q i)) (p.cross q) :=
  ⟨(h.y.mul g.z).sub (h.z.mul g.y), (h.z.mul g.x).sub (h.x.mul g.z), (h.x.mul g.y).sub (h.y.mul g.x)⟩

theorem dot (h : AccV π P p) (g : AccV π Q q) : Acc π (fun i => (π i).vdot (P i) (Q i)) (p.dot q) :=
  ((h.x.mul g.x).add (h.y.mul g.y)).add (h.z.mul g.z)

theorem norm_sq (p : Vec3) : p.norm = Real.sqrt (p.x * p.x + p.y * p.y + p.z * p.z) := by
  unfold Vec3.norm; congr 1; ring

theorem norm_pos {p : Vec3} (h : p.x ≠ 0 ∨ p.y ≠ 0) : 0 < p.x * p.x + p.y * p.y + p.z * p.z := by
  rcases h with h | h
  · have := mul_self_pos.2 h; linarith [mul_self_nonneg p.y, mul_self_nonneg p.z]
  · have := mul_self_pos.2 h; linarith [mul_self_nonneg p.x, mul_self_nonneg p.z]

theorem norm' (h : AccV π P p) (h0 : 0 < p.x * p.x + p.y * p.y + p.z * p.z) : Acc π (fun i => (π i).vnorm (P i)) p.norm := by
  rw [norm_sq]
  exact (((h.x.mul h.x).add (h.y.mul h.y)).add (h.z.mul h.z)).sqrt h0

theorem norm (h : AccV π P p) (h0 : p.x ≠ 0 ∨ p.y ≠ 0) : Acc π (fun i => (π i).vnorm (P i)) p.norm := h.norm' (norm_pos h0)

theorem norm_ne {p : Vec3} (h : p.x ≠ 0 ∨ p.y ≠ 0) : p.norm ≠ 0 := by
  rw [norm_sq]; exact (Real.sqrt_pos.2 (norm_pos h)).ne'

theorem unit (h : AccV π P p) (h0 : p.x ≠ 0 ∨ p.y ≠ 0) : AccV π (fun i => (π i).unit (P i)) (unitvec p) :=
  ⟨h.x.div (h.norm h0) (norm_ne h0), h.y.div (h.norm h0) (norm_ne h0), h.z.div (h.norm h0) (norm_ne h0)⟩

theorem segNormal (h : AccV π P p) (h0 : p.x ≠ 0 ∨ p.y ≠ 0) : AccV π (fun i => (π i).segNormal (P i)) (Meshless.segNormal p) := by
  refine unit (h.cross (const zGlobal)) ?_
  simp only [Vec3.cross, zGlobal, mul_one, mul_zero, sub_zero, zero_sub]
  rcases h0 with h0 | h0
  · right; simpa using h0
  · left; exact h0

end AccV

/-! ### areas -/

theorem pyGet_map {α : Type*} (l : List α) (f : α → ℝ) (k : ℤ) : pyGet (l.map f) k = ((pyIdx l.length k).bind fun j => l[j]?).map f := by
  unfold pyGet
  rw [List.length_map]
  cases pyIdx l.length k <;> simp

theorem areaFold_acc (P : List (ι → Vec3)) (p : List Vec3) (h : List.Forall₂ (AccV π) P p) (ks : List ℕ) :
    ∀ (a : ι → ℝ) (l : ℝ), Acc π a l →
    (∃ e, (∀ i, ks.foldl ((π i).areaStep ((P.map (· i)).map (·.x)) ((P.map (· i)).map (·.y))) (.ok (a i)) = .error e) ∧
      ks.foldl (areaLoop (p.map (·.x)) (p.map (·.y))) (.ok l) = .error e) ∨
    ∃ (b : ι → ℝ) (k : ℝ), Acc π b k ∧ (∀ i, ks.foldl ((π i).areaStep ((P.map (· i)).map (·.x)) ((P.map (· i)).map (·.y))) (.ok (a i)) = .ok (b i)) ∧
      ks.foldl (areaLoop (p.map (·.x)) (p.map (·.y))) (.ok l) = .ok k := by
  have hl : P.length = p.length := h.length_eq
  have herr : ∀ (R : Rounding) (x y : List ℝ) (e : Err) (l : List ℕ), l.foldl (R.areaStep x y) (.error e) = .error e := by
    intro R x y e l; induction l with
    | nil => rfl
    | cons a l ih => exact ih
  have herr' : ∀ (x y : List ℝ) (e : Err) (l : List ℕ), l.foldl (areaLoop x y) (.error e) = .error e := by
    intro x y e l; induction l with
    | nil => rfl
    | cons a l ih => exact ih
  have get : ∀ k : ℤ, (((pyIdx P.length k).bind fun j => P[j]?) = none ∧ ((pyIdx p.length k).bind fun j => p[j]?) = none) ∨
      ∃ Q q, AccV π Q q ∧ ((pyIdx P.length k).bind fun j => P[j]?) = some Q ∧ ((pyIdx p.length k).bind fun j => p[j]?) = some q := by
    intro k
    rw [hl]
    rcases pyIdx p.length k with _ | j
    · left; exact ⟨rfl, rfl⟩
    · simp only [Option.bind_some]
      by_cases hj : j < p.length
      · right
        refine ⟨P[j], p[j], List.Forall₂.get h (by rw [hl]; exact hj) hj, ?_, ?_⟩
        · rw [List.getElem?_eq_getElem]
        · rw [List.getElem?_eq_getElem]
      · left
        rw [List.getElem?_eq_none (by rw [hl]; omega), List.getElem?_eq_none (by omega)]; exact ⟨rfl, rfl⟩
  induction ks with
  | nil => intro a l ha; exact Or.inr ⟨a, l, ha, fun _ => rfl, rfl⟩
  | cons k ks ih =>
    intro a l ha
    simp only [List.foldl_cons]
    simp only [Rounding.areaStep, areaLoop, List.map_map, pyGet_map]
    rcases get ((k:ℤ) - 1) with ⟨g1, g2⟩ | ⟨Q1, q1, a1, g1, g2⟩
    · left; refine ⟨.indexError, fun i => ?_, ?_⟩
      · rw [g1]; exact herr _ _ _ _ _
      · rw [g2]; exact herr' _ _ _ _
    rcases get ((k:ℤ) - 1 + 1) with ⟨g3, g4⟩ | ⟨Q2, q2, a2, g3, g4⟩
    · left; refine ⟨.indexError, fun i => ?_, ?_⟩
      · rw [g1, g3]; exact herr _ _ _ _ _
      · rw [g2, g4]; exact herr' _ _ _ _
    rcases get ((k:ℤ) - 1 - 1) with ⟨g5, g6⟩ | ⟨Q3, q3, a3, g5, g6⟩
    · left; refine ⟨.indexError, fun i => ?_, ?_⟩
      · rw [g1, g3, g5]; exact herr _ _ _ _ _
      · rw [g2, g4, g6]; exact herr' _ _ _ _
    have := ih _ _ (ha.add (a1.x.mul (a2.y.sub a3.y)))
    simp only [List.map_map] at this
    rw [g1, g2, g3, g4, g5, g6]
    exact this

theorem polyArea_acc {P : List (ι → Vec3)} {p : List Vec3} (h : List.Forall₂ (AccV π) P p) :
    Acc π (fun i => (π i).polyArea (P.map (· i))) (polyArea p) := by
  have hl : P.length = p.length := h.length_eq
  unfold Rounding.polyArea polyArea Rounding.areaOfPolygon areaOfPolygon
  simp only [List.length_map]
  rw [hl]
  rcases areaFold_acc P p h (List.range p.length) (fun _ => 0) 0 (Acc.const 0) with ⟨e, h1, h2⟩ | ⟨b, k, h0, h1, h2⟩
  · simp only [h1, h2]; exact Acc.const 0
  · simp only [h1, h2]
    exact h0.abs'.div (Acc.const 2) two_ne_zero

theorem polyArea3_acc {A B C : ι → Vec3} {a b c : Vec3} (hA : AccV π A a) (hB : AccV π B b) (hC : AccV π C c) :
    Acc π (fun i => (π i).polyArea [A i, B i, C i]) (polyArea [a, b, c]) :=
  polyArea_acc (P := [A, B, C]) (.cons hA (.cons hB (.cons hC .nil)))
theorem polyArea4_acc {A B C D : ι → Vec3} {a b c d : Vec3} (hA : AccV π A a) (hB : AccV π B b) (hC : AccV π C c) (hD : AccV π D d) :
    Acc π (fun i => (π i).polyArea [A i, B i, C i, D i]) (polyArea [a, b, c, d]) :=
  polyArea_acc (P := [A, B, C, D]) (.cons hA (.cons hB (.cons hC (.cons hD .nil))))
theorem polyArea5_acc {A B C D E : ι → Vec3} {a b c d e : Vec3} (hA : AccV π A a) (hB : AccV π B b) (hC : AccV π C c) (hD : AccV π D d)
    (hE : AccV π E e) : Acc π (fun i => (π i).polyArea [A i, B i, C i, D i, E i]) (polyArea [a, b, c, d, e]) :=
  polyArea_acc (P := [A, B, C, D, E]) (.cons hA (.cons hB (.cons hC (.cons hD (.cons hE .nil)))))

theorem mid_acc (m : Mesh) (e : ℕ) : AccV π (fun i => (π i).mid m e) (m.mid e) := by
  refine ⟨?_, ?_, ?_⟩ <;> exact Acc.div (by acc) (Acc.const 3) three_ne_zero

theorem triaArea_acc (m : Mesh) (e : ℕ) (h0 : 0 < m.triaArea e) : Acc π (fun i => (π i).triaArea m e) (m.triaArea e) := by
  refine Acc.div (AccV.norm' (((AccV.const _).sub (AccV.const _)).cross ((AccV.const _).sub (AccV.const _))) ?_) (Acc.const 2) two_ne_zero
  unfold Mesh.triaArea at h0
  dsimp only at h0
  rw [AccV.norm_sq] at h0
  exact Real.sqrt_pos.1 (by linarith)

/-! ### integration points -/

/-- a computed integration point: the same triangle and nodes, accurate numbers -/
structure AccPt (π : ι → Rounding) (P : ι → IPt) (p : IPt) : Prop where
  n1 : ∀ i, (P i).n1 = p.n1
  n2 : ∀ i, (P i).n2 = p.n2
  n3 : ∀ i, (P i).n3 = p.n3
  tria : ∀ i, (P i).tria = p.tria
  f1 : Acc π (fun i => (P i).f1) p.f1
  f2 : Acc π (fun i => (P i).f2) p.f2
  f3 : Acc π (fun i => (P i).f3) p.f3
  nx : Acc π (fun i => (P i).nx) p.nx
  ny : Acc π (fun i => (P i).ny) p.ny
  le : Acc π (fun i => (P i).le) p.le

theorem mkIPt_acc (m : Mesh) (t a b c : ℕ) {f g h : ι → ℝ} {f0 g0 h0 : ℝ} (hf : Acc π f f0) (hg : Acc π g g0) (hh : Acc π h h0)
    {N : ι → Vec3} {n : Vec3} (hN : AccV π N n) {L : ι → ℝ} {l : ℝ} (hL : Acc π L l) :
    AccPt π (fun i => (π i).mkIPt m t a b c (f i) (g i) (h i) (N i) (L i)) (mkIPt m t a b c f0 g0 h0 n l) :=
  ⟨fun _ => rfl, fun _ => rfl, fun _ => rfl, fun _ => rfl, hf, hg, hh, hN.x, hN.y, hL⟩

/-- the horizontal parts of the two vectors are linearly independent -/
def Indep (a b c : Vec3) : Prop := (c.x - b.x) * (a.y - b.y) - (c.y - b.y) * (a.x - b.x) ≠ 0

theorem Indep.swap {a b c : Vec3} (h : Indep a b c) : Indep b a c := by
  unfold Indep at *; intro h'; apply h; linarith

theorem sub_ne {a b : Vec3} (h : a.x ≠ b.x ∨ a.y ≠ b.y) : (a.sub b).x ≠ 0 ∨ (a.sub b).y ≠ 0 := by
  simpa [Vec3.sub, sub_eq_zero] using h

theorem Indep.ne1 {a b c : Vec3} (h : Indep a b c) : a.x ≠ c.x ∨ a.y ≠ c.y := by
  by_contra hc; push Not at hc; apply h; rw [hc.1, hc.2]; ring
theorem Indep.ne2 {a b c : Vec3} (h : Indep a b c) : c.x ≠ b.x ∨ c.y ≠ b.y := by
  by_contra hc; push Not at hc; apply h; rw [hc.1, hc.2]; ring
theorem Indep.ne3 {a b c : Vec3} (h : Indep a b c) : b.x ≠ a.x ∨ b.y ≠ a.y := by
  by_contra hc; push Not at hc; apply h; rw [hc.1, hc.2]; ring

theorem iptsA_acc (m : Mesh) (t a b o : ℕ) (h : Indep (m.node a).xyz (m.node b).xyz (m.mid t)) :
    ∃ P : List (ι → IPt), (∀ i, (π i).iptsA m t a b o = P.map (· i)) ∧ List.Forall₂ (AccPt π) P (iptsA m t a b o) := by
  have h1 : AccV π (fun i => (π i).vsub (m.node a).xyz ((π i).mid m t)) ((m.node a).xyz.sub (m.mid t)) := (AccV.const _).sub (mid_acc m t)
  have h2 : AccV π (fun i => (π i).vsub ((π i).mid m t) (m.node b).xyz) ((m.mid t).sub (m.node b).xyz) := (mid_acc m t).sub (AccV.const _)
  refine ⟨_, fun i => ?_, .cons (mkIPt_acc m t a b o (Acc.cst _) (Acc.cst _) (Acc.cst _) (h1.segNormal (sub_ne h.ne1)) (h1.norm (sub_ne h.ne1)))
    (.cons (mkIPt_acc m t a b o (Acc.cst _) (Acc.cst _) (Acc.cst _) (h2.segNormal (sub_ne h.ne2)) (h2.norm (sub_ne h.ne2))) .nil)⟩
  rfl

theorem iptsB_acc (m : Mesh) (t a b o : ℕ) (h : (m.node b).xyz.x ≠ (m.node a).xyz.x ∨ (m.node b).xyz.y ≠ (m.node a).xyz.y) :
    ∃ P : List (ι → IPt), (∀ i, (π i).iptsB m t a b o = P.map (· i)) ∧ List.Forall₂ (AccPt π) P (iptsB m t a b o) := by
  have h1 : AccV π (fun i => (π i).vsub (m.node b).xyz (m.node a).xyz) ((m.node b).xyz.sub (m.node a).xyz) := (AccV.const _).sub (AccV.const _)
  refine ⟨_, fun i => ?_, .cons (mkIPt_acc m t a b o (Acc.cst _) (Acc.cst _) (Acc.const _) (h1.segNormal (sub_ne h)) (h1.norm (sub_ne h))) .nil⟩
  rfl

theorem iptsI_acc (m : Mesh) (t a b o : ℕ) (h : Indep (m.node a).xyz (m.node b).xyz (m.mid t)) :
    ∃ P : List (ι → IPt), (∀ i, (π i).iptsI m t a b o = P.map (· i)) ∧ List.Forall₂ (AccPt π) P (iptsI m t a b o) := by
  have h1 : AccV π (fun i => (π i).vsub (m.node b).xyz ((π i).mid m t)) ((m.node b).xyz.sub (m.mid t)) := (AccV.const _).sub (mid_acc m t)
  have h2 : AccV π (fun i => (π i).vsub ((π i).mid m t) (m.node a).xyz) ((m.mid t).sub (m.node a).xyz) := (mid_acc m t).sub (AccV.const _)
  refine ⟨_, fun i => ?_, .cons (mkIPt_acc m t a b o (Acc.cst _) (Acc.cst _) (Acc.cst _) (h1.segNormal (sub_ne h.swap.ne1)) (h1.norm (sub_ne h.swap.ne1)))
    (.cons (mkIPt_acc m t a b o (Acc.cst _) (Acc.cst _) (Acc.cst _) (h2.segNormal (sub_ne h.swap.ne2)) (h2.norm (sub_ne h.swap.ne2))) .nil)⟩
  rfl

/-- the orientation test gives the exact answer once the roundoff is small -/
theorem orient_acc (m : Mesh) (t a b : ℕ) (h : Indep (m.node a).xyz (m.node b).xyz (m.mid t)) :
    ∀ᶠ i in smallU π, (π i).orient m ((π i).mid m t) a b = orient m (m.mid t) a b := by
  have h1 := (((mid_acc (π := π) m t).sub (AccV.const (m.node b).xyz)).cross ((AccV.const (m.node a).xyz).sub (AccV.const (m.node b).xyz))).dot
    (AccV.const zGlobal)
  have h2 : Vec3.dot (Vec3.cross ((m.mid t).sub (m.node b).xyz) ((m.node a).xyz.sub (m.node b).xyz)) zGlobal ≠ 0 := by
    intro h'; apply h
    simp only [Vec3.dot, Vec3.cross, Vec3.sub, zGlobal] at h'
    linarith
  unfold Rounding.orient orient
  rcases lt_or_gt_of_ne h2 with h3 | h3
  · filter_upwards [h1.tendsto.eventually (gt_mem_nhds h3)] with i hi
    rw [if_pos hi, if_pos h3]
  · filter_upwards [h1.tendsto.eventually (lt_mem_nhds h3)] with i hi
    rw [if_neg (not_lt.2 hi.le), if_neg (not_lt.2 h3.le)]

end Meshless
