import Verif.Lemmas.FloatUnitsMore

/-! `add_k0s` in rounded arithmetic, run on a mesh and on the same mesh in other units. -/

set_option autoImplicit false

namespace Meshless
open Spec

/-- the shear data of a laminate in the other units -/
structure GShear (s f ε : ℝ) (p q : ShearProp) : Prop where
  k13 : Gd s f ε 1 p.k13 q.k13
  k23 : Gd s f ε 1 p.k23 q.k23
  h : Gd s f ε .L p.h q.h
  E : ∀ i j, Gd s f ε .P (p.E i j) (q.E i j)

theorem Spec.UnitLam.shear {s f ε : ℝ} {p p' : Lam} (h : UnitLam s f p p') : GShear s f ε p.shear p'.shear := ⟨h.gk13, h.gk23, h.gh, h.gE⟩

theorem pyMax_gd {R : Rounding} {s f ε : ℝ} [G : Grading R s f ε] {l l' : List ℝ} (h : List.Forall₂ (Gd s f ε .L) l l') : Option.Rel (Gd s f ε .L) (pyMax l) (pyMax l') := by
  cases h with
  | nil => exact .none
  | cons h hl =>
    refine .some ?_
    rename_i a b l l'
    induction hl generalizing a b with
    | nil => exact h
    | cons h' _ ih => exact ih (Gd.max (R := R) h h')

namespace Rounding
variable (R : Rounding) {s f ε : ℝ} [G : Grading R s f ε] {m m' : Mesh}

theorem gd_lin {g : Dg} (c : ℝ) {x y : ℝ} (h : Gd s f ε g x y) : Gd s f ε g (R.mul c x) (R.mul c y) := .mul R (Dg.one_mul' _) (.num c) h

theorem shear3_unit (c1 c2 c3 : ℝ) {p q r p' q' r' : Lam} (h1 : UnitLam s f p p') (h2 : UnitLam s f q q') (h3 : UnitLam s f r r') :
    GShear s f ε (R.shear3 c1 c2 c3 p q r) (R.shear3 c1 c2 c3 p' q' r') :=
  ⟨.add' (.add' (R.gd_lin c1 h1.gk13) (R.gd_lin c2 h2.gk13)) (R.gd_lin c3 h3.gk13), .add' (.add' (R.gd_lin c1 h1.gk23) (R.gd_lin c2 h2.gk23)) (R.gd_lin c3 h3.gk23),
    .add' (.add' (R.gd_lin c1 h1.gh) (R.gd_lin c2 h2.gh)) (R.gd_lin c3 h3.gh), R.mix3_gd c1 c2 c3 h1.gE h2.gE h3.gE⟩

theorem shear4_unit {p q r t p' q' r' t' : Lam} (h1 : UnitLam s f p p') (h2 : UnitLam s f q q') (h3 : UnitLam s f r r') (h4 : UnitLam s f t t') :
    GShear s f ε (R.shear4 p q r t) (R.shear4 p' q' r' t') :=
  ⟨R.sum4_gd (R.gd_lin _ h1.gk13) (R.gd_lin _ h2.gk13) (R.gd_lin _ h3.gk13) (R.gd_lin _ h4.gk13),
    R.sum4_gd (R.gd_lin _ h1.gk23) (R.gd_lin _ h2.gk23) (R.gd_lin _ h3.gk23) (R.gd_lin _ h4.gk23),
    R.sum4_gd (R.gd_lin _ h1.gh) (R.gd_lin _ h2.gh) (R.gd_lin _ h3.gh) (R.gd_lin _ h4.gh), R.mix4_gd _ _ _ _ h1.gE h2.gE h3.gE h4.gE⟩

theorem shearA_unit {a b c a' b' c' : ℝ} (ha : Gd s f ε .A a a') (hb : Gd s f ε .A b b') (hc : Gd s f ε .A c c') {p q p' q' : Lam} (h1 : UnitLam s f p p') (h2 : UnitLam s f q q') :
    GShear s f ε (R.shearA a b c p q) (R.shearA a' b' c' p' q') :=
  ⟨R.gd_blend ha hb hc h1.gk13 h2.gk13, R.gd_blend ha hb hc h1.gk23 h2.gk23, R.gd_blend ha hb hc h1.gh h2.gh, R.mixA_gd ha hb hc h1.gE h2.gE⟩

theorem tprop_unit (h : UnitMesh s f ε m m') (e : ℕ) : ERel (GShear s f ε)
    (match (m.tria e).prop with | some p => .ok p.shear | none => .error .attributeError)
    (match (m'.tria e).prop with | some p => .ok p.shear | none => .error .attributeError) := by
  rcases option_rel_cases (h.tprop e) with ⟨g, g'⟩ | ⟨p, q, g, g', h1⟩ <;> rw [g, g']
  · exact .error _
  · exact .ok h1.shear

theorem nprop3_unit (h : UnitMesh s f ε m m') (c1 c2 c3 : ℝ) (i j k : ℕ) : ERel (GShear s f ε)
    (match (m.node i).prop, (m.node j).prop, (m.node k).prop with
      | some p, some q, some r => .ok (R.shear3 c1 c2 c3 p q r) | _, _, _ => .error .attributeError)
    (match (m'.node i).prop, (m'.node j).prop, (m'.node k).prop with
      | some p, some q, some r => .ok (R.shear3 c1 c2 c3 p q r) | _, _, _ => .error .attributeError) := by
  rcases option_rel_cases (h.nprop i) with ⟨g, g'⟩ | ⟨p1, q1, g, g', h1⟩ <;> rw [g, g']
  · exact .error _
  rcases option_rel_cases (h.nprop j) with ⟨g, g'⟩ | ⟨p2, q2, g, g', h2⟩ <;> rw [g, g']
  · exact .error _
  rcases option_rel_cases (h.nprop k) with ⟨g, g'⟩ | ⟨p3, q3, g, g', h3⟩ <;> rw [g, g']
  · exact .error _
  exact .ok (R.shear3_unit _ _ _ h1 h2 h3)

theorem cellShear_unit (h : UnitMesh s f ε m m') (pn : Bool) (e n1 n2 n3 : ℕ) : ERel (GShear s f ε) (R.cellShear m pn e n1 n2 n3) (R.cellShear m' pn e n1 n2 n3) := by
  unfold cellShear
  cases pn
  · simp only [Bool.false_eq_true, if_false]; exact tprop_unit h e
  · simp only [if_true]; exact R.nprop3_unit h _ _ _ n1 n2 n3

theorem edgeBShear_unit (h : UnitMesh s f ε m m') (pn : Bool) (e n1 n2 n3 : ℕ) : ERel (GShear s f ε) (R.edgeBShear m pn e n1 n2 n3) (R.edgeBShear m' pn e n1 n2 n3) := by
  unfold edgeBShear
  cases pn
  · simp only [Bool.false_eq_true, if_false]; exact tprop_unit h e
  · simp only [if_true]; exact R.nprop3_unit h _ _ _ n1 n2 n3

theorem edgeIShear_unit (h : UnitMesh s f ε m m') (pn : Bool) {a b c a' b' c' : ℝ} (ha : Gd s f ε .A a a') (hb : Gd s f ε .A b b') (hc : Gd s f ε .A c c') (t1 t2 n1 n2 o1 o2 : ℕ) :
    ERel (GShear s f ε) (R.edgeIShear m pn a b c t1 t2 n1 n2 o1 o2) (R.edgeIShear m' pn a' b' c' t1 t2 n1 n2 o1 o2) := by
  unfold edgeIShear
  cases pn
  · simp only [Bool.false_eq_true, if_false]
    rcases option_rel_cases (h.tprop t1) with ⟨g, g'⟩ | ⟨p1, q1, g, g', h1⟩ <;> rw [g, g']
    · exact .error _
    rcases option_rel_cases (h.tprop t2) with ⟨g, g'⟩ | ⟨p2, q2, g, g', h2⟩ <;> rw [g, g']
    · exact .error _
    exact .ok (R.shearA_unit ha hb hc h1 h2)
  · simp only [if_true]
    rcases option_rel_cases (h.nprop n1) with ⟨g, g'⟩ | ⟨p1, q1, g, g', h1⟩ <;> rw [g, g']
    · exact .error _
    rcases option_rel_cases (h.nprop n2) with ⟨g, g'⟩ | ⟨p2, q2, g, g', h2⟩ <;> rw [g, g']
    · exact .error _
    rcases option_rel_cases (h.nprop o1) with ⟨g, g'⟩ | ⟨p3, q3, g, g', h3⟩ <;> rw [g, g']
    · exact .error _
    rcases option_rel_cases (h.nprop o2) with ⟨g, g'⟩ | ⟨p4, q4, g, g', h4⟩ <;> rw [g, g']
    · exact .error _
    exact .ok (R.shear4_unit h1 h2 h3 h4)

include G in
theorem pyMax_err {l l' : List ℝ} (h : List.Forall₂ (Gd s f ε .L) l l') : ERel (Gd s f ε .L)
    (match pyMax l with | some a => .ok a | none => .error .valueError) (match pyMax l' with | some a => .ok a | none => .error .valueError) := by
  rcases option_rel_cases (pyMax_gd (R := R) h) with ⟨g, g'⟩ | ⟨p, q, g, g', h1⟩ <;> rw [g, g']
  · exact .error _
  · exact .ok h1

theorem cellMaxl_unit (h : UnitMesh s f ε m m') (e : ℕ) {a a' : ℝ} (ha : Gd s f ε .A a a') (fromArea : Bool) :
    ERel (Gd s f ε .L) (R.cellMaxl m e a fromArea) (R.cellMaxl m' e a' fromArea) := by
  unfold cellMaxl
  cases fromArea
  · simp only [Bool.false_eq_true, if_false]
    refine R.pyMax_err ?_
    rw [h.tedges, List.forall₂_map_left_iff, List.forall₂_map_right_iff, List.forall₂_same]
    intro k _
    unfold edgeLen
    rw [(h.edge k).n1, (h.edge k).n2]
    exact R.gv_norm rfl (R.gv_sub (h.gxyz _) (h.gxyz _))
  · simp only [if_true]; exact .ok ha.sqrt

theorem lePts {a b : Edge} (hab : UnitEdge s ε a b) : List.Forall₂ (Gd s f ε .L) (a.ipts.map (·.le)) (b.ipts.map (·.le)) := by
  rw [List.forall₂_map_left_iff, List.forall₂_map_right_iff]
  exact hab.ipts.imp fun _ _ hp => gd_L.2 hp.le

theorem edgeBMaxl_unit {a b : Edge} (hab : UnitEdge s ε a b) {x x' : ℝ} (hx : Gd s f ε .A x x') (fromArea : Bool) :
    ERel (Gd s f ε .L) (R.edgeBMaxl a x fromArea) (R.edgeBMaxl b x' fromArea) := by
  unfold edgeBMaxl
  cases fromArea
  · simp only [Bool.false_eq_true, if_false]; exact R.pyMax_err (lePts hab)
  · simp only [if_true]; exact .ok hx.sqrt

theorem edgeIMaxl_unit (h : UnitMesh s f ε m m') {a b : Edge} (hab : UnitEdge s ε a b) {x x' : ℝ} (hx : Gd s f ε .A x x') (fromArea : Bool) :
    ERel (Gd s f ε .L) (R.edgeIMaxl m a x fromArea) (R.edgeIMaxl m' b x' fromArea) := by
  unfold edgeIMaxl
  cases fromArea
  · simp only [Bool.false_eq_true, if_false]
    rcases option_rel_cases (pyMax_gd (R := R) (lePts (f := f) hab)) with ⟨g, g'⟩ | ⟨p, q, g, g', h1⟩ <;> rw [g, g']
    · exact .error _
    · rw [hab.n1, hab.n2]
      exact .ok (Gd.max (R := R) h1 (R.gv_norm rfl (R.gv_sub (h.gxyz _) (h.gxyz _))))
  · simp only [if_true]; exact .ok hx.sqrt

theorem stab_gd (alpha : ℝ) {l l' h h' : ℝ} (hl : Gd s f ε .L l l') (hh : Gd s f ε .L h h') : Gd s f ε 1 (R.stab alpha l h) (R.stab alpha l' h') :=
  .div R rfl (.num 1) (.add' (.num 1) (.div R rfl (.mul R rfl (.num alpha) (.mul R rfl hl hl)) (.mul R rfl hh hh)))

theorem moduli_gd (alpha : ℝ) {p q : ShearProp} (h : GShear s f ε p q) {l l' : ℝ} (hl : Gd s f ε .L l l') :
    Gd s f ε .P (R.mul (R.stab alpha l p.h) (R.mul p.k23 (p.E 0 0))) (R.mul (R.stab alpha l' q.h) (R.mul q.k23 (q.E 0 0))) ∧
    Gd s f ε .P (R.mul (R.stab alpha l p.h) (R.mul p.k13 (p.E 1 1))) (R.mul (R.stab alpha l' q.h) (R.mul q.k13 (q.E 1 1))) :=
  ⟨.mul R rfl (R.stab_gd alpha hl h.h) (.mul R rfl h.k23 (h.E 0 0)), .mul R rfl (R.stab_gd alpha hl h.h) (.mul R rfl h.k13 (h.E 1 1))⟩

theorem edgeIModuli_gd (alpha : ℝ) {p q : ShearProp} (h : GShear s f ε p q) {l l' : ℝ} (hl : Gd s f ε .L l l') :
    Gd s f ε .P (R.edgeIModuli p alpha l).1 (R.edgeIModuli q alpha l').1 ∧ Gd s f ε .P (R.edgeIModuli p alpha l).2.1 (R.edgeIModuli q alpha l').2.1 ∧
    Gd s f ε .P (R.edgeIModuli p alpha l).2.2 (R.edgeIModuli q alpha l').2.2 := by
  have hc : Gd s f ε 1 (R.div (R.mul p.h p.h) (R.add (R.mul p.h p.h) (R.mul alpha (R.mul l l)))) (R.div (R.mul q.h q.h) (R.add (R.mul q.h q.h) (R.mul alpha (R.mul l' l')))) :=
    .div R (a := .A) (b := .A) rfl (.mul R rfl h.h h.h) (.add' (.mul R rfl h.h h.h) (.mul R rfl (.num alpha) (.mul R (c := .A) rfl hl hl)))
  have hm : Gd s f ε 1 (min p.k13 p.k23) (min q.k13 q.k23) := by
    rw [gd_one.1 h.k13, gd_one.1 h.k23]; exact .num _
  exact ⟨.mul R rfl hc (.mul R rfl h.k13 (h.E 0 0)), .mul R rfl hc (.mul R rfl hm (h.E 0 1)), .mul R rfl hc (.mul R rfl h.k23 (h.E 1 1))⟩

/-! ### the three methods -/

theorem cellOrient_eq (h : UnitMesh s f ε m m') (e : ℕ) : R.cellOrient m' e = R.cellOrient m e := by
  unfold cellOrient
  dsimp only
  rw [h.n1, h.n2, h.n3]
  have := R.gv_dot (R.gv_cross (R.gv_sub (h.gxyz (m.tria e).n1) (R.mid_gv h e)) (R.gv_sub (h.gxyz (m.tria e).n2) (R.mid_gv h e))) (gv_z (s := s) (f := f) (ε := ε))
  simp only [Gd.neg_iff (R := R) (x := R.vdot _ _) (y := R.vdot _ _) this]

theorem cellNSOrient_eq (h : UnitMesh s f ε m m') (e : ℕ) : R.cellNSOrient m' e = R.cellNSOrient m e := by
  unfold cellNSOrient
  dsimp only
  rw [h.n1, h.n2, h.n3]
  have := R.gv_dot (R.gv_cross (R.gv_sub (h.gxyz (m.tria e).n2) (h.gxyz (m.tria e).n1)) (R.gv_sub (h.gxyz (m.tria e).n3) (h.gxyz (m.tria e).n1))) (gv_z (s := s) (f := f) (ε := ε))
  simp only [Gd.neg_iff (R := R) (x := R.vdot _ _) (y := R.vdot _ _) this]

theorem edgeOrient_eq (h : UnitMesh s f ε m m') {a b : Edge} (hab : UnitEdge s ε a b) (t : ℕ) : R.edgeOrient m' b t = R.edgeOrient m a t := by
  unfold edgeOrient
  rw [hab.n1, hab.n2]
  have := R.gv_dot (R.gv_cross (R.gv_sub (h.gxyz a.n2) (h.gxyz a.n1)) (R.gv_sub (R.mid_gv h t) (h.gxyz a.n1))) (gv_z (s := s) (f := f) (ε := ε))
  simp only [Gd.neg_iff (R := R) (x := R.vdot _ _) (y := R.vdot _ _) this]

theorem cellSEnv_unit (h : UnitMesh s f ε m m') (pn : Bool) (alpha : ℝ) (fromArea : Bool) (e : ℕ) :
    ERel (CellSEnv.Graded s f ε) (R.cellSEnv m pn alpha fromArea e) (R.cellSEnv m' pn alpha fromArea e) := by
  unfold cellSEnv
  rw [R.cellOrient_eq h]
  obtain ⟨n1, n2, n3⟩ := R.cellOrient m e
  dsimp only
  refine (R.cellShear_unit h pn e n1 n2 n3).bind fun sp sp' hs => (R.cellMaxl_unit h e (R.triaArea_gd h e) fromArea).bind fun l l' hl => ?_
  rw [h.index, h.index, h.index]
  rcases (m.node n1).index with _ | i1
  · exact .error _
  rcases (m.node n2).index with _ | i2
  · exact .error _
  rcases (m.node n3).index with _ | i3
  · exact .error _
  have p1 := h.gxyz n1; have p2 := h.gxyz n2; have p3 := h.gxyz n3; have c := R.mid_gv h e
  have hm := R.moduli_gd alpha hs hl
  exact .ok ⟨rfl, rfl, rfl, R.triaArea_gd h e, R.polyArea_gd (.cons c (.cons p1 (.cons p2 .nil))), R.polyArea_gd (.cons c (.cons p2 (.cons p3 .nil))),
    R.polyArea_gd (.cons c (.cons p3 (.cons p1 .nil))), hm.1, .zero _, hm.2, p1.x.sub' c.x, p1.y.sub' c.y, p2.x.sub' c.x, p2.y.sub' c.y,
    p2.x.sub' c.x, p2.y.sub' c.y, p3.x.sub' c.x, p3.y.sub' c.y, p3.x.sub' c.x, p3.y.sub' c.y, p1.x.sub' c.x, p1.y.sub' c.y⟩

theorem cellNSEnv_unit (h : UnitMesh s f ε m m') (pn : Bool) (alpha : ℝ) (fromArea : Bool) (e : ℕ) :
    ERel (CellNSEnv.Graded s f ε) (R.cellNSEnv m pn alpha fromArea e) (R.cellNSEnv m' pn alpha fromArea e) := by
  unfold cellNSEnv
  rw [R.cellNSOrient_eq h]
  obtain ⟨n1, n2, n3⟩ := R.cellNSOrient m e
  dsimp only
  refine (R.cellShear_unit h pn e n1 n2 n3).bind fun sp sp' hs => (R.cellMaxl_unit h e (R.triaArea_gd h e) fromArea).bind fun l l' hl => ?_
  rw [h.index, h.index, h.index]
  rcases (m.node n1).index with _ | i1
  · exact .error _
  rcases (m.node n2).index with _ | i2
  · exact .error _
  rcases (m.node n3).index with _ | i3
  · exact .error _
  have p1 := h.gxyz n1; have p2 := h.gxyz n2; have p3 := h.gxyz n3
  have hm := R.moduli_gd alpha hs hl
  exact .ok ⟨rfl, rfl, rfl, R.triaArea_gd h e, hm.1, .zero _, hm.2, p2.x.sub' p1.x, p2.y.sub' p1.y, p3.x.sub' p1.x, p3.y.sub' p1.y⟩

theorem edgeBEnv_unit (h : UnitMesh s f ε m m') (pn : Bool) (alpha : ℝ) (fromArea : Bool) {a b : Edge} (hab : UnitEdge s ε a b) (t n1 n2 : ℕ) :
    ERel (EdgeBEnv.Graded s f ε) (R.edgeBEnv m pn alpha fromArea a t n1 n2) (R.edgeBEnv m' pn alpha fromArea b t n1 n2) := by
  unfold edgeBEnv
  rw [hab.other1]
  rcases a.other1 with _ | o1
  · exact .error _
  rcases option_rel_cases hab.Ac with ⟨g, g'⟩ | ⟨x, y, g, g', hx⟩ <;> rw [g, g']
  · exact .error _
  dsimp only
  have hA : Gd s f ε .A x y := gd_A.2 hx
  refine (R.edgeBShear_unit h pn t n1 n2 o1).bind fun sp sp' hs => (R.edgeBMaxl_unit hab hA fromArea).bind fun l l' hl => ?_
  rw [h.index, h.index, h.index]
  rcases (m.node n1).index with _ | i1
  · exact .error _
  rcases (m.node n2).index with _ | i2
  · exact .error _
  rcases (m.node o1).index with _ | i3
  · exact .error _
  have p1 := h.gxyz n1; have p2 := h.gxyz n2; have c := R.mid_gv h t
  have hm := R.moduli_gd alpha hs hl
  exact .ok ⟨rfl, rfl, rfl, hA, hm.1, .zero _, hm.2, p1.x.sub' c.x, p1.y.sub' c.y, p2.x.sub' c.x, p2.y.sub' c.y⟩

theorem gd_unsigned {g g' : Dg} (h1 : g.p = g'.p) (h2 : g.q = g'.q) {x y : ℝ} (h : Gd s f 1 g x y) : Gd s f 1 g' x y := by
  unfold Gd Dg.sc at *
  rw [h, h1, h2]; simp

theorem edgeIEnv_unit [G1 : Grading R s f 1] (h : UnitMesh s f 1 m m') (pn : Bool) (alpha : ℝ) (fromArea : Bool) {a b : Edge} (hab : UnitEdge s 1 a b) (t1 t2 n1 n2 : ℕ) :
    ERel (EdgeIEnv.Graded s f 1) (R.edgeIEnv m pn alpha fromArea a t1 t2 n1 n2) (R.edgeIEnv m' pn alpha fromArea b t1 t2 n1 n2) := by
  unfold edgeIEnv
  rw [hab.other1, hab.other2]
  rcases a.other1 with _ | o1
  · exact .error _
  rcases a.other2 with _ | o2
  · exact .error _
  rcases option_rel_cases hab.Ac with ⟨g, g'⟩ | ⟨x, y, g, g', hx⟩ <;> rw [g, g']
  · exact .error _
  dsimp only
  have hA : Gd s f 1 .A x y := gd_A.2 hx
  have p1 := h.gxyz n1; have p2 := h.gxyz n2; have c1 := R.mid_gv h t1; have c2 := R.mid_gv h t2
  have hA1 := R.polyArea_gd (.cons c1 (.cons p1 (.cons p2 .nil)))
  have hA2 := R.polyArea_gd (.cons p1 (.cons c2 (.cons p2 .nil)))
  refine (R.edgeIShear_unit h pn hA1 hA2 hA t1 t2 n1 n2 o1 o2).bind fun sp sp' hs => (R.edgeIMaxl_unit h hab hA fromArea).bind fun l l' hl => ?_
  rw [h.index, h.index, h.index, h.index]
  rcases (m.node n1).index with _ | i1
  · exact .error _
  rcases (m.node n2).index with _ | i2
  · exact .error _
  rcases (m.node o1).index with _ | i3
  · exact .error _
  rcases (m.node o2).index with _ | i4
  · exact .error _
  have hm := R.edgeIModuli_gd alpha hs hl
  have u : ∀ {x y : ℝ}, Gd s f 1 (Dg.L * Dg.N) x y → Gd s f 1 .L x y := fun h => gd_unsigned rfl rfl h
  have q1x := u p1.x; have q2x := u p2.x; have q2y := u p2.y; have q1y := u p1.y
  have d1x := u c1.x; have d1y := u c1.y; have d2x := u c2.x; have d2y := u c2.y
  exact .ok ⟨rfl, rfl, rfl, rfl, hA, hA1, hA2, hm.1, hm.2.1, hm.2.2, q1x.sub' d1x, p1.z.sub' d1y, q2x.sub' d1x, q2y.sub' d1y, d2x.sub' q1x, d2y.sub' q1y, q2x.sub' q1x, q2y.sub' q1y⟩

theorem cellSTria_unit (h : UnitMesh s f ε m m') (pn : Bool) (alpha : ℝ) (fromArea : Bool) (e : ℕ) {M M' : Mat} (hM : GMat s f ε entryDg M M') :
    (R.cellSTria m' pn alpha fromArea M' e).2 = (R.cellSTria m pn alpha fromArea M e).2 ∧
    GMat s f ε entryDg (R.cellSTria m pn alpha fromArea M e).1 (R.cellSTria m' pn alpha fromArea M' e).1 := by
  have he := R.cellSEnv_unit h pn alpha fromArea e
  unfold cellSTria
  generalize R.cellSEnv m pn alpha fromArea e = a at he ⊢
  generalize R.cellSEnv m' pn alpha fromArea e = b at he ⊢
  cases he with
  | error e => exact ⟨rfl, hM⟩
  | ok he =>
    dsimp only
    obtain ⟨L, l1, l2, l3⟩ := cellSEntries_graded (R := R) he
    rw [← l1, ← l2]
    exact R.addAll_graded L hM l3

theorem cellNSTria_unit (h : UnitMesh s f ε m m') (pn : Bool) (alpha : ℝ) (fromArea : Bool) (e : ℕ) {M M' : Mat} (hM : GMat s f ε entryDg M M') :
    (R.cellNSTria m' pn alpha fromArea M' e).2 = (R.cellNSTria m pn alpha fromArea M e).2 ∧
    GMat s f ε entryDg (R.cellNSTria m pn alpha fromArea M e).1 (R.cellNSTria m' pn alpha fromArea M' e).1 := by
  have he := R.cellNSEnv_unit h pn alpha fromArea e
  unfold cellNSTria
  generalize R.cellNSEnv m pn alpha fromArea e = a at he ⊢
  generalize R.cellNSEnv m' pn alpha fromArea e = b at he ⊢
  cases he with
  | error e => exact ⟨rfl, hM⟩
  | ok he =>
    dsimp only
    obtain ⟨L, l1, l2, l3⟩ := cellNSEntries_graded (R := R) he
    rw [← l1, ← l2]
    exact R.addAll_graded L hM l3

theorem gMat_unsigned {M M' : Mat} : GMat s f 1 entryDg M M' ↔ GMat s f 1 entryDg' M M' := by
  unfold GMat
  refine and_congr_right fun _ => and_congr_right fun _ => forall_congr' fun i => forall_congr' fun j => ⟨fun h => gd_unsigned (g := entryDg _ _) (g' := entryDg' _ _) rfl rfl h, fun h => gd_unsigned (g := entryDg' _ _) (g' := entryDg _ _) rfl rfl h⟩

theorem edgeSEdge_unit [G1 : Grading R s f 1] (h : UnitMesh s f 1 m m') (pn : Bool) (alpha : ℝ) (fromArea : Bool) (k : Key) {M M' : Mat} (hM : GMat s f 1 entryDg M M') :
    (R.edgeSEdge m' pn alpha fromArea M' k).2 = (R.edgeSEdge m pn alpha fromArea M k).2 ∧
    GMat s f 1 entryDg (R.edgeSEdge m pn alpha fromArea M k).1 (R.edgeSEdge m' pn alpha fromArea M' k).1 := by
  unfold edgeSEdge
  have hab := h.edge k
  dsimp only
  rw [hab.trias]
  rcases (m.edge k).trias with _ | ⟨t1, _ | ⟨t2, _ | ⟨t3, l⟩⟩⟩
  · exact ⟨rfl, hM⟩
  · dsimp only
    rw [R.edgeOrient_eq h hab]
    obtain ⟨n1, n2⟩ := R.edgeOrient m (m.edge k) t1
    dsimp only
    have he := R.edgeBEnv_unit h pn alpha fromArea hab t1 n1 n2
    generalize R.edgeBEnv m pn alpha fromArea (m.edge k) t1 n1 n2 = a at he ⊢
    generalize R.edgeBEnv m' pn alpha fromArea (m'.edge k) t1 n1 n2 = b at he ⊢
    cases he with
    | error e => exact ⟨rfl, hM⟩
    | ok he =>
      dsimp only
      obtain ⟨L, l1, l2, l3⟩ := edgeBEntries_graded (R := R) he
      rw [← l1, ← l2]
      exact R.addAll_graded L hM l3
  · dsimp only
    rw [R.edgeOrient_eq h hab]
    obtain ⟨n1, n2⟩ := R.edgeOrient m (m.edge k) t1
    dsimp only
    have he := R.edgeIEnv_unit h pn alpha fromArea hab t1 t2 n1 n2
    generalize R.edgeIEnv m pn alpha fromArea (m.edge k) t1 t2 n1 n2 = a at he ⊢
    generalize R.edgeIEnv m' pn alpha fromArea (m'.edge k) t1 t2 n1 n2 = b at he ⊢
    cases he with
    | error e => exact ⟨rfl, hM⟩
    | ok he =>
      dsimp only
      obtain ⟨L, l1, l2, l3⟩ := edgeIEntries_graded (R := R) he
      rw [← l1, ← l2]
      obtain ⟨r1, r2⟩ := R.addAll_graded L (gMat_unsigned.1 hM) l3
      exact ⟨r1, gMat_unsigned.2 r2⟩
  · exact ⟨rfl, hM⟩

theorem addK0s_unit (h : UnitMesh s f ε m m') (pn : Bool) (method : String) (hmeth : method = "edge-based" → ε = 1) (alpha : ℝ) (fromArea : Bool)
    {K K' : Mat} (hK : GMat s f ε entryDg K K') :
    (R.addK0s K' m' pn method alpha fromArea).2 = (R.addK0s K m pn method alpha fromArea).2 ∧
    GMat s f ε entryDg (R.addK0s K m pn method alpha fromArea).1 (R.addK0s K' m' pn method alpha fromArea).1 := by
  unfold addK0s
  split
  · rw [h.eids]; exact matLoop_graded (fun e M M' hM => R.cellSTria_unit h pn alpha fromArea e hM) m.eids hK
  split
  · rw [h.eids]; exact matLoop_graded (fun e M M' hM => R.cellNSTria_unit h pn alpha fromArea e hM) m.eids hK
  split
  · rename_i hm
    obtain rfl := hmeth hm
    rw [h.ekeys]; exact matLoop_graded (fun k M M' hM => R.edgeSEdge_unit h pn alpha fromArea k hM) m.ekeys hK
  · exact ⟨rfl, hK⟩

end Rounding
end Meshless
