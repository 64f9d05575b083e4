import Verif.Lemmas.IeeeLim
import Verif.Lemmas.FloatGeom

/-! Geometry computed in floating-point formats with special values: vectors, lengths, normals, areas and integration points. -/

set_option autoImplicit false

namespace Meshless
open Filter Topology Spec

variable {ι : Type*} {φ : ι → Fmt}

/-- closes goals `Lim φ (fun i => expression) (exact expression)` without divisions -/
macro "limt" : tactic => `(tactic| repeat' first
  | assumption | exact Lim.const _ | exact Lim.lit _
  | apply Lim.add | apply Lim.sub | apply Lim.mul | apply Lim.neg | apply Lim.abs | apply Lim.max2 | apply Lim.min2)

/-- componentwise limit of a computed vector -/
structure LimV (φ : ι → Fmt) (P : ι → FVec) (p : Vec3) : Prop where
  x : Lim φ (fun i => (P i).x) p.x
  y : Lim φ (fun i => (P i).y) p.y
  z : Lim φ (fun i => (P i).z) p.z

namespace LimV
variable {P Q : ι → FVec} {p q : Vec3}

theorem const (p : Vec3) : LimV φ (fun _ => p.flo) p := ⟨Lim.const _, Lim.const _, Lim.const _⟩

theorem sub (h : LimV φ P p) (g : LimV φ Q q) : LimV φ (fun i => (φ i).vsub (P i) (Q i)) (p.sub q) :=
  ⟨h.x.sub g.x, h.y.sub g.y, h.z.sub g.z⟩

theorem cross (h : LimV φ P p) (g : LimV φ Q q) : LimV φ (fun i => (φ i).vcross (P i) (Q i)) (p.cross q) :=
  ⟨(h.y.mul g.z).sub (h.z.mul g.y), (h.z.mul g.x).sub (h.x.mul g.z), (h.x.mul g.y).sub (h.y.mul g.x)⟩

theorem dot (h : LimV φ P p) (g : LimV φ Q q) : Lim φ (fun i => (φ i).vdot (P i) (Q i)) (p.dot q) :=
  ((h.x.mul g.x).add (h.y.mul g.y)).add (h.z.mul g.z)

theorem norm' (h : LimV φ P p) (h0 : 0 < p.x * p.x + p.y * p.y + p.z * p.z) : Lim φ (fun i => (φ i).vnorm (P i)) p.norm := by
  rw [AccV.norm_sq]
  exact (((h.x.mul h.x).add (h.y.mul h.y)).add (h.z.mul h.z)).sqrt h0

theorem norm (h : LimV φ P p) (h0 : p.x ≠ 0 ∨ p.y ≠ 0) : Lim φ (fun i => (φ i).vnorm (P i)) p.norm := h.norm' (AccV.norm_pos h0)

theorem unit (h : LimV φ P p) (h0 : p.x ≠ 0 ∨ p.y ≠ 0) : LimV φ (fun i => (φ i).unit (P i)) (unitvec p) :=
  ⟨h.x.div (h.norm h0) (AccV.norm_ne h0), h.y.div (h.norm h0) (AccV.norm_ne h0), h.z.div (h.norm h0) (AccV.norm_ne h0)⟩

theorem segNormal (h : LimV φ P p) (h0 : p.x ≠ 0 ∨ p.y ≠ 0) : LimV φ (fun i => (φ i).segNormal (P i)) (Meshless.segNormal p) := by
  refine unit (h.cross (const zGlobal)) ?_
  simp only [Vec3.cross, zGlobal, mul_one, mul_zero, sub_zero, zero_sub]
  rcases h0 with h0 | h0
  · right; simpa using h0
  · left; exact h0

end LimV

theorem xyz_lim (m : Mesh) (a : ℕ) : LimV φ (fun _ => Fmt.xyz m a) (m.node a).xyz := LimV.const _

/-! ### areas -/

theorem area3_lim {A B C : ι → FVec} {a b c : Vec3} (hA : LimV φ A a) (hB : LimV φ B b) (hC : LimV φ C c) :
    Lim φ (fun i => (φ i).area3 (A i) (B i) (C i)) (polyArea [a, b, c]) := by
  have h : polyArea [a, b, c] = |0 + c.x * (a.y - b.y) + a.x * (b.y - c.y) + b.x * (c.y - a.y)| / 2 := by
    simp [polyArea, areaOfPolygon, areaLoop, pyGet, pyIdx, List.range_succ]
  obtain ⟨a1, a2, -⟩ := hA; obtain ⟨b1, b2, -⟩ := hB; obtain ⟨c1, c2, -⟩ := hC
  rw [h]
  exact Lim.div (by unfold Fmt.areaTerm; limt) (Lim.const 2) two_ne_zero

theorem area4_lim {A B C D : ι → FVec} {a b c d : Vec3} (hA : LimV φ A a) (hB : LimV φ B b) (hC : LimV φ C c) (hD : LimV φ D d) :
    Lim φ (fun i => (φ i).area4 (A i) (B i) (C i) (D i)) (polyArea [a, b, c, d]) := by
  have h : polyArea [a, b, c, d] = |0 + d.x * (a.y - c.y) + a.x * (b.y - d.y) + b.x * (c.y - a.y) + c.x * (d.y - b.y)| / 2 := by
    simp [polyArea, areaOfPolygon, areaLoop, pyGet, pyIdx, List.range_succ]
  obtain ⟨a1, a2, -⟩ := hA; obtain ⟨b1, b2, -⟩ := hB; obtain ⟨c1, c2, -⟩ := hC; obtain ⟨d1, d2, -⟩ := hD
  rw [h]
  exact Lim.div (by unfold Fmt.areaTerm; limt) (Lim.const 2) two_ne_zero

theorem area5_lim {A B C D E : ι → FVec} {a b c d e : Vec3} (hA : LimV φ A a) (hB : LimV φ B b) (hC : LimV φ C c) (hD : LimV φ D d)
    (hE : LimV φ E e) : Lim φ (fun i => (φ i).area5 (A i) (B i) (C i) (D i) (E i)) (polyArea [a, b, c, d, e]) := by
  have h : polyArea [a, b, c, d, e] =
      |0 + e.x * (a.y - d.y) + a.x * (b.y - e.y) + b.x * (c.y - a.y) + c.x * (d.y - b.y) + d.x * (e.y - c.y)| / 2 := by
    simp [polyArea, areaOfPolygon, areaLoop, pyGet, pyIdx, List.range_succ]
  obtain ⟨a1, a2, -⟩ := hA; obtain ⟨b1, b2, -⟩ := hB; obtain ⟨c1, c2, -⟩ := hC; obtain ⟨d1, d2, -⟩ := hD; obtain ⟨e1, e2, -⟩ := hE
  rw [h]
  exact Lim.div (by unfold Fmt.areaTerm; limt) (Lim.const 2) two_ne_zero

theorem mid_lim (m : Mesh) (e : ℕ) : LimV φ (fun i => (φ i).mid m e) (m.mid e) := by
  refine ⟨?_, ?_, ?_⟩ <;> exact Lim.div (by limt) (Lim.const 3) three_ne_zero

theorem triaArea_lim (m : Mesh) (e : ℕ) (h0 : 0 < m.triaArea e) : Lim φ (fun i => (φ i).triaArea m e) (m.triaArea e) := by
  refine Lim.div (LimV.norm' (((LimV.const _).sub (LimV.const _)).cross ((LimV.const _).sub (LimV.const _))) ?_) (Lim.const 2) two_ne_zero
  unfold Mesh.triaArea at h0
  dsimp only at h0
  rw [AccV.norm_sq] at h0
  exact Real.sqrt_pos.1 (by linarith)

/-! ### integration points -/

/-- a computed integration point: the same triangle and nodes, numbers with limits -/
structure LimPt (φ : ι → Fmt) (P : ι → FPt) (p : IPt) : Prop where
  n1 : ∀ i, (P i).n1 = p.n1
  n2 : ∀ i, (P i).n2 = p.n2
  n3 : ∀ i, (P i).n3 = p.n3
  tria : ∀ i, (P i).tria = p.tria
  f1 : Lim φ (fun i => (P i).f1) p.f1
  f2 : Lim φ (fun i => (P i).f2) p.f2
  f3 : Lim φ (fun i => (P i).f3) p.f3
  nx : Lim φ (fun i => (P i).nx) p.nx
  ny : Lim φ (fun i => (P i).ny) p.ny
  le : Lim φ (fun i => (P i).le) p.le

theorem mkIPt_lim (m : Mesh) (t a b c : ℕ) {f g h : ι → Flo} {f0 g0 h0 : ℝ} (hf : Lim φ f f0) (hg : Lim φ g g0) (hh : Lim φ h h0)
    {N : ι → FVec} {n : Vec3} (hN : LimV φ N n) {L : ι → Flo} {l : ℝ} (hL : Lim φ L l) :
    LimPt φ (fun i => (φ i).mkIPt m t a b c (f i) (g i) (h i) (N i) (L i)) (mkIPt m t a b c f0 g0 h0 n l) :=
  ⟨fun _ => rfl, fun _ => rfl, fun _ => rfl, fun _ => rfl, hf, hg, hh, hN.x, hN.y, hL⟩

theorem iptsA_lim (m : Mesh) (t a b o : ℕ) (h : Indep (m.node a).xyz (m.node b).xyz (m.mid t)) :
    ∃ P : List (ι → FPt), (∀ i, (φ i).iptsA m t a b o = P.map (· i)) ∧ List.Forall₂ (LimPt φ) P (iptsA m t a b o) := by
  have h1 : LimV φ (fun i => (φ i).vsub (Fmt.xyz m a) ((φ i).mid m t)) ((m.node a).xyz.sub (m.mid t)) := (xyz_lim m a).sub (mid_lim m t)
  have h2 : LimV φ (fun i => (φ i).vsub ((φ i).mid m t) (Fmt.xyz m b)) ((m.mid t).sub (m.node b).xyz) := (mid_lim m t).sub (xyz_lim m b)
  refine ⟨_, fun i => ?_, .cons (mkIPt_lim m t a b o (Lim.lit _) (Lim.lit _) (Lim.lit _) (h1.segNormal (sub_ne h.ne1)) (h1.norm (sub_ne h.ne1)))
    (.cons (mkIPt_lim m t a b o (Lim.lit _) (Lim.lit _) (Lim.lit _) (h2.segNormal (sub_ne h.ne2)) (h2.norm (sub_ne h.ne2))) .nil)⟩
  rfl

theorem iptsB_lim (m : Mesh) (t a b o : ℕ) (h : (m.node b).xyz.x ≠ (m.node a).xyz.x ∨ (m.node b).xyz.y ≠ (m.node a).xyz.y) :
    ∃ P : List (ι → FPt), (∀ i, (φ i).iptsB m t a b o = P.map (· i)) ∧ List.Forall₂ (LimPt φ) P (iptsB m t a b o) := by
  have h1 : LimV φ (fun i => (φ i).vsub (Fmt.xyz m b) (Fmt.xyz m a)) ((m.node b).xyz.sub (m.node a).xyz) := (xyz_lim m b).sub (xyz_lim m a)
  refine ⟨_, fun i => ?_, .cons (mkIPt_lim m t a b o (Lim.lit _) (Lim.lit _) (Lim.const _) (h1.segNormal (sub_ne h)) (h1.norm (sub_ne h))) .nil⟩
  rfl

theorem iptsI_lim (m : Mesh) (t a b o : ℕ) (h : Indep (m.node a).xyz (m.node b).xyz (m.mid t)) :
    ∃ P : List (ι → FPt), (∀ i, (φ i).iptsI m t a b o = P.map (· i)) ∧ List.Forall₂ (LimPt φ) P (iptsI m t a b o) := by
  have h1 : LimV φ (fun i => (φ i).vsub (Fmt.xyz m b) ((φ i).mid m t)) ((m.node b).xyz.sub (m.mid t)) := (xyz_lim m b).sub (mid_lim m t)
  have h2 : LimV φ (fun i => (φ i).vsub ((φ i).mid m t) (Fmt.xyz m a)) ((m.mid t).sub (m.node a).xyz) := (mid_lim m t).sub (xyz_lim m a)
  refine ⟨_, fun i => ?_, .cons (mkIPt_lim m t a b o (Lim.lit _) (Lim.lit _) (Lim.lit _) (h1.segNormal (sub_ne h.swap.ne1)) (h1.norm (sub_ne h.swap.ne1)))
    (.cons (mkIPt_lim m t a b o (Lim.lit _) (Lim.lit _) (Lim.lit _) (h2.segNormal (sub_ne h.swap.ne2)) (h2.norm (sub_ne h.swap.ne2))) .nil)⟩
  rfl

/-- a test on the sign of a product computed from data with limits -/
theorem sign_lim {x : ι → Flo} {l : ℝ} (h : Lim φ x l) (h0 : l ≠ 0) : ∀ᶠ i in good φ, (x i).lt (.fin 0) ↔ l < 0 := by
  rcases lt_or_gt_of_ne h0 with h1 | h1
  · filter_upwards [h.lt_zero h1] with i hi
    exact iff_of_true hi h1
  · filter_upwards [h.not_lt_zero h1] with i hi
    exact iff_of_false hi (not_lt.2 h1.le)

/-- the orientation test gives the exact answer once the roundoff is small -/
theorem orient_lim (m : Mesh) (t a b : ℕ) (h : Indep (m.node a).xyz (m.node b).xyz (m.mid t)) :
    ∀ᶠ i in good φ, (φ i).orient m ((φ i).mid m t) a b = orient m (m.mid t) a b := by
  have h1 := (((mid_lim (φ := φ) m t).sub (xyz_lim m b)).cross ((xyz_lim m a).sub (xyz_lim m b))).dot (LimV.const zGlobal)
  have h2 : Vec3.dot (Vec3.cross ((m.mid t).sub (m.node b).xyz) ((m.node a).xyz.sub (m.node b).xyz)) zGlobal ≠ 0 := by
    intro h'; apply h
    simp only [Vec3.dot, Vec3.cross, Vec3.sub, zGlobal] at h'
    linarith
  filter_upwards [sign_lim h1 h2] with i hi
  unfold Fmt.orient orient
  simp only [hi]

end Meshless
