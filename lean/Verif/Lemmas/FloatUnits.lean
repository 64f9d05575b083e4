import Verif.Lemmas.GradeK0
import Verif.Lemmas.GradeKG
import Verif.Lemmas.GradeCellS
import Verif.Lemmas.GradeCellNS
import Verif.Lemmas.GradeEdgeB
import Verif.Lemmas.GradeEdgeI
import Verif.Model.FloatRun

/-! The functions of the package in rounded arithmetic, run on a mesh and on the same mesh in other units. -/

set_option autoImplicit false

namespace Meshless
open Spec

/-- the same exception, or results related by `P` -/
inductive ERel {α β : Type} (P : α → β → Prop) : Except Err α → Except Err β → Prop
  | ok {a : α} {b : β} (h : P a b) : ERel P (.ok a) (.ok b)
  | error (e : Err) : ERel P (.error e) (.error e)

theorem ERel.bind {α β γ δ : Type} {P : α → β → Prop} {Q : γ → δ → Prop} {x : Except Err α} {y : Except Err β} (h : ERel P x y)
    {F : α → Except Err γ} {F' : β → Except Err δ} (hF : ∀ a b, P a b → ERel Q (F a) (F' b)) : ERel Q (x >>= F) (y >>= F') := by
  cases h with
  | ok h => exact hF _ _ h
  | error e => exact .error e

theorem option_rel_cases {α β : Type} {P : α → β → Prop} {a : Option α} {b : Option β} (h : Option.Rel P a b) :
    (a = none ∧ b = none) ∨ ∃ x y, a = some x ∧ b = some y ∧ P x y := by
  cases h with
  | none => exact Or.inl ⟨rfl, rfl⟩
  | some h => exact Or.inr ⟨_, _, rfl, rfl, h⟩

namespace Dg
theorem nn (a b : Dg) : (a * N) * (b * N) = a * b := by
  obtain ⟨p, q, r⟩ := a; obtain ⟨p', q', r'⟩ := b
  show (⟨p + 0 + (p' + 0), q + 0 + (q' + 0), xor (xor r true) (xor r' true)⟩ : Dg) = ⟨p + p', q + q', xor r r'⟩
  cases r <;> cases r' <;> simp
theorem nr (a b : Dg) : a * (b * N) = (a * b) * N := by
  obtain ⟨p, q, r⟩ := a; obtain ⟨p', q', r'⟩ := b
  show (⟨p + (p' + 0), q + (q' + 0), xor r (xor r' true)⟩ : Dg) = ⟨p + p' + 0, q + q' + 0, xor (xor r r') true⟩
  cases r <;> cases r' <;> simp
theorem nl (a b : Dg) : (a * N) * b = (a * b) * N := by
  obtain ⟨p, q, r⟩ := a; obtain ⟨p', q', r'⟩ := b
  show (⟨p + 0 + p', q + 0 + q', xor (xor r true) r'⟩ : Dg) = ⟨p + p' + 0, q + q' + 0, xor (xor r r') true⟩
  cases r <;> cases r' <;> simp
theorem nd (a b : Dg) : (a * N) / b = (a / b) * N := by
  obtain ⟨p, q, r⟩ := a; obtain ⟨p', q', r'⟩ := b
  show (⟨p + 0 - p', q + 0 - q', xor (xor r true) r'⟩ : Dg) = ⟨p - p' + 0, q - q' + 0, xor (xor r r') true⟩
  cases r <;> cases r' <;> simp
theorem div_one (a : Dg) : a / 1 = a := by
  obtain ⟨p, q, r⟩ := a
  show (⟨p - 0, q - 0, xor r false⟩ : Dg) = ⟨p, q, r⟩
  cases r <;> simp
theorem one_mul' (a : Dg) : 1 * a = a := by
  obtain ⟨p, q, r⟩ := a
  show (⟨0 + p, 0 + q, xor false r⟩ : Dg) = ⟨p, q, r⟩
  cases r <;> simp
theorem mul_one' (a : Dg) : a * 1 = a := by
  obtain ⟨p, q, r⟩ := a
  show (⟨p + 0, q + 0, xor r false⟩ : Dg) = ⟨p, q, r⟩
  cases r <;> simp
end Dg

/-- a vector of the unit `g` in the other units and axes -/
structure GV (s f ε : ℝ) (g : Dg) (v w : Vec3) : Prop where
  x : Gd s f ε (g * .N) v.x w.x
  y : Gd s f ε (g * .N) v.y w.y
  z : Gd s f ε g v.z w.z

section
variable {s f ε : ℝ}

theorem unitVec_iff {v w : Vec3} : UnitVec s ε v w ↔ GV s f ε .L v w := by
  have hx : (Dg.L * Dg.N).sc s f ε = ε * s := Dg.sc_X
  constructor
  · rintro ⟨a, b, c⟩
    exact ⟨by unfold Gd; rw [hx]; exact a, by unfold Gd; rw [hx]; exact b, by unfold Gd; rw [Dg.sc_L]; exact c⟩
  · rintro ⟨a, b, c⟩
    unfold Gd at a b c
    rw [hx] at a b
    rw [Dg.sc_L] at c
    exact ⟨a, b, c⟩

theorem gd_L {x y : ℝ} : Gd s f ε .L x y ↔ y = s * x := by unfold Gd; rw [Dg.sc_L]
theorem gd_A {x y : ℝ} : Gd s f ε .A x y ↔ y = s ^ 2 * x := by unfold Gd; rw [Dg.sc_A]
theorem gd_N {x y : ℝ} : Gd s f ε .N x y ↔ y = ε * x := by unfold Gd; rw [Dg.sc_N]
theorem gd_one {x y : ℝ} : Gd s f ε 1 x y ↔ y = x := by unfold Gd; rw [Dg.sc_one, one_mul]

theorem gv_z : GV s f ε 1 zGlobal zGlobal := ⟨.zero _, .zero _, .num _⟩

end

namespace Rounding
variable (R : Rounding) {s f ε : ℝ} [G : Grading R s f ε] {g h : Dg} {v w v' w' : Vec3}

theorem gv_sub (a : GV s f ε g v w) (b : GV s f ε g v' w') : GV s f ε g (R.vsub v v') (R.vsub w w') :=
  ⟨a.x.sub' b.x, a.y.sub' b.y, a.z.sub' b.z⟩
theorem gv_add (a : GV s f ε g v w) (b : GV s f ε g v' w') : GV s f ε g (R.vadd v v') (R.vadd w w') :=
  ⟨a.x.add' b.x, a.y.add' b.y, a.z.add' b.z⟩
theorem gv_smul (c : ℝ) (a : GV s f ε g v w) : GV s f ε g (R.vsmul c v) (R.vsmul c w) :=
  ⟨.mul R (Dg.one_mul' _) (.num c) a.x, .mul R (Dg.one_mul' _) (.num c) a.y, .mul R (Dg.one_mul' _) (.num c) a.z⟩
theorem gv_cross (a : GV s f ε g v w) (b : GV s f ε h v' w') : GV s f ε (g * h) (R.vcross v v') (R.vcross w w') :=
  ⟨.sub' (.mul R (Dg.nl _ _) a.y b.z) (.mul R (Dg.nr _ _) a.z b.y), .sub' (.mul R (Dg.nr _ _) a.z b.x) (.mul R (Dg.nl _ _) a.x b.z),
    .sub' (.mul R (Dg.nn _ _) a.x b.y) (.mul R (Dg.nn _ _) a.y b.x)⟩
theorem gv_dot (a : GV s f ε g v w) (b : GV s f ε h v' w') : Gd s f ε (g * h) (R.vdot v v') (R.vdot w w') :=
  .add' (.add' (.mul R (Dg.nn _ _) a.x b.x) (.mul R (Dg.nn _ _) a.y b.y)) (.mul R rfl a.z b.z)

theorem gd_sqrt {x y : ℝ} (hg : g.r = false) (a : Gd s f ε (g * g) x y) : Gd s f ε g (R.sqrt x) (R.sqrt y) := by
  have h1 := G.s_pos; have h2 := G.f_pos
  have hp : 0 ≤ g.sc s f ε := by
    unfold Dg.sc; rw [hg]; simp only [Bool.false_eq_true, if_false, mul_one]; exact (mul_pos (zpow_pos h1 _) (zpow_pos h2 _)).le
  unfold Gd Rounding.sqrt at *
  rw [a, ← Dg.sc_exact (R := R), Dg.sc_mul (R := R), Real.sqrt_mul (mul_self_nonneg _), Real.sqrt_mul_self hp]

theorem gv_norm (hg : g.r = false) (a : GV s f ε g v w) : Gd s f ε g (R.vnorm v) (R.vnorm w) :=
  R.gd_sqrt hg (.add' (.add' (.mul R (Dg.nn _ _) a.x a.x) (.mul R (Dg.nn _ _) a.y a.y)) (.mul R rfl a.z a.z))

theorem gv_unit (a : GV s f ε .L v w) : GV s f ε 1 (R.unit v) (R.unit w) :=
  have hn := R.gv_norm rfl a
  ⟨.div R rfl a.x hn, .div R rfl a.y hn, .div R rfl a.z hn⟩

theorem gv_segNormal (a : GV s f ε .L v w) : GV s f ε 1 (R.segNormal v) (R.segNormal w) := R.gv_unit (R.gv_cross a gv_z)

end Rounding

/-! ### polygons -/

theorem forall₂_scale {c : ℝ} {x y : List ℝ} (h : List.Forall₂ (fun a b => b = c * a) x y) : y = x.map (c * ·) := by
  induction h with
  | nil => rfl
  | cons h _ ih => rw [List.map_cons, ← ih, h]

theorem pyGet_map_units (c : ℝ) (x : List ℝ) (i : ℤ) : pyGet (x.map (c * ·)) i = (pyGet x i).map (c * ·) := by
  unfold pyGet
  rw [List.length_map]
  rcases pyIdx x.length i with _ | k
  · rfl
  · simp

namespace Rounding
variable (R : Rounding) {s f ε : ℝ} [G : Grading R s f ε]

theorem areaStep_gd {c : ℝ} (hc : c = (Dg.X).sc s f ε) (x y : List ℝ) {a b : Except Err ℝ} (h : ERel (Gd s f ε .A) a b) (k : ℕ) :
    ERel (Gd s f ε .A) (R.areaStep x y a k) (R.areaStep (x.map (c * ·)) (y.map (c * ·)) b k) := by
  unfold areaStep
  cases h with
  | error e => exact .error e
  | ok h =>
    dsimp only
    rw [pyGet_map_units, pyGet_map_units, pyGet_map_units]
    rcases pyGet x ((k : ℤ) - 1) with _ | a
    · exact .error _
    rcases pyGet y ((k : ℤ) - 1 + 1) with _ | b
    · exact .error _
    rcases pyGet y ((k : ℤ) - 1 - 1) with _ | d
    · exact .error _
    have hX : ∀ x : ℝ, Gd s f ε .X x (c * x) := fun x => by unfold Gd; rw [hc]
    exact .ok (h.add' (.mul R rfl (hX a) ((hX b).sub' (hX d))))

theorem areaLoop_gd {c : ℝ} (hc : c = (Dg.X).sc s f ε) (x y : List ℝ) : ∀ (l : List ℕ) {a b : Except Err ℝ}, ERel (Gd s f ε .A) a b →
    ERel (Gd s f ε .A) (l.foldl (R.areaStep x y) a) (l.foldl (R.areaStep (x.map (c * ·)) (y.map (c * ·))) b) := by
  intro l
  induction l with
  | nil => intro a b h; exact h
  | cons k l ih => intro a b h; exact ih (R.areaStep_gd hc x y h k)

theorem polyArea_gd {l l' : List Vec3} (h : List.Forall₂ (GV s f ε .L) l l') : Gd s f ε .A (R.polyArea l) (R.polyArea l') := by
  have hx : l'.map (·.x) = (l.map (·.x)).map ((Dg.X).sc s f ε * ·) := by
    induction h with
    | nil => rfl
    | cons h _ ih => simp only [List.map_cons]; rw [ih]; congr 1; exact h.x
  have hy : l'.map (·.y) = (l.map (·.y)).map ((Dg.X).sc s f ε * ·) := by
    induction h with
    | nil => rfl
    | cons h _ ih => simp only [List.map_cons]; rw [ih (by simp_all)]; congr 1; exact h.y
  unfold polyArea areaOfPolygon
  rw [hx, hy]
  generalize (l.map (·.x)) = x
  generalize (l.map (·.y)) = y
  have := R.areaLoop_gd (s := s) (f := f) (ε := ε) rfl x y (List.range x.length) (.ok (.zero Dg.A) : ERel (Gd s f ε .A) (.ok (0:ℝ)) (.ok 0))
  rw [List.length_map]
  generalize (List.range x.length).foldl (R.areaStep x y) (.ok 0) = A at this ⊢
  generalize (List.range x.length).foldl (R.areaStep (x.map _) (y.map _)) (.ok 0) = B at this ⊢
  cases this with
  | ok h => exact .div R rfl (Gd.abs (R := R) h) (.num 2)
  | error e => exact .zero _

end Rounding

/-! ### meshes -/

section
variable {s f ε : ℝ} {m m' : Mesh}

theorem Spec.UnitMesh.gxyz (h : UnitMesh s f ε m m') (i : ℕ) : GV s f ε .L (m.node i).xyz (m'.node i).xyz := unitVec_iff.1 (h.xyz i)
theorem Spec.UnitMesh.gpos (h : UnitMesh s f ε m m') (i : ℕ) : GV s f ε .L (m.pos i) (m'.pos i) := unitVec_iff.1 (h.pos i)

theorem Spec.UnitMesh.setEdge (h : UnitMesh s f ε m m') (k : Key) {a b : Edge} (hab : UnitEdge s ε a b) :
    UnitMesh s f ε { m with edge := Function.update m.edge k a } { m' with edge := Function.update m'.edge k b } :=
  { h with
    edge := fun k' => by
      by_cases hk : k' = k
      · subst hk; simpa using hab
      · simpa [Function.update_of_ne hk] using h.edge k' }

theorem Spec.UnitMesh.otherNode (h : UnitMesh s f ε m m') {a b : Edge} (h1 : b.n1 = a.n1) (h2 : b.n2 = a.n2) (t : ℕ) :
    otherNode m' t b = otherNode m t a := by
  unfold Meshless.otherNode Mesh.triaNodes; rw [h.n1, h.n2, h.n3, h1, h2]

theorem unitMesh_number : ∀ (is : List ℕ) (c : ℕ) {m m' : Mesh}, UnitMesh s f ε m m' → UnitMesh s f ε (numberNodes m is c) (numberNodes m' is c) := by
  intro is
  induction is with
  | nil => intro c m m' h; exact h
  | cons i is ih =>
    intro c m m' h
    unfold numberNodes
    refine ih (c + 1) { h with xyz := fun j => ?_, pos := fun j => ?_, index := fun j => ?_, nprop := fun j => ?_ } <;>
      simp only [Mesh.updNode] <;> by_cases hj : j = i
    · subst hj; simpa using h.xyz j
    · simpa [Function.update_of_ne hj] using h.xyz j
    · subst hj; simpa using h.pos j
    · simpa [Function.update_of_ne hj] using h.pos j
    · subst hj; simp
    · simpa [Function.update_of_ne hj] using h.index j
    · subst hj; simpa using h.nprop j
    · simpa [Function.update_of_ne hj] using h.nprop j

theorem Spec.UnitMesh.nodeIdx (h : UnitMesh s f ε m m') : nodeIdx m' = nodeIdx m := by
  funext i; unfold Meshless.nodeIdx; rw [h.index]

theorem unitPts_indices {a b : List IPt} (h : List.Forall₂ (UnitPt s ε) a b) (idx : ℕ → ℤ) : iptIndices idx b = iptIndices idx a := by
  have : (b.flatMap fun p => [idx p.n1, idx p.n2, idx p.n3]) = a.flatMap fun p => [idx p.n1, idx p.n2, idx p.n3] := by
    induction h with
    | nil => rfl
    | cons h _ ih => simp only [List.flatMap_cons]; rw [ih, h.n1, h.n2, h.n3]
  unfold iptIndices
  rw [this]

theorem Spec.UnitMesh.indexed (h : UnitMesh s f ε m m') {a b : List IPt} (hp : List.Forall₂ (UnitPt s ε) a b) : iptsIndexed m' b = iptsIndexed m a := by
  unfold iptsIndexed
  induction hp with
  | nil => rfl
  | cons h1 _ ih => rw [List.all_cons, List.all_cons, ih, h1.n1, h1.n2, h1.n3, h.index, h.index, h.index]

theorem Spec.UnitPt.row {p q : IPt} (h : UnitPt s ε p q) (idx : ℕ → ℤ) (ix : List ℤ) : weightRow idx ix q = weightRow idx ix p := by
  unfold weightRow; rw [h.n1, h.n2, h.n3, h.f1, h.f2, h.f3]

end

namespace Rounding
variable (R : Rounding) {s f ε : ℝ} [G : Grading R s f ε] {m m' : Mesh}

theorem mid_gv (h : UnitMesh s f ε m m') (e : ℕ) : GV s f ε .L (R.mid m e) (R.mid m' e) := by
  unfold mid
  dsimp only
  rw [h.n1, h.n2, h.n3]
  have a := h.gpos (m.tria e).n1; have b := h.gpos (m.tria e).n2; have c := h.gpos (m.tria e).n3
  exact ⟨.div R rfl (.add' (.add' a.x b.x) c.x) (.num 3), .div R rfl (.add' (.add' a.y b.y) c.y) (.num 3), .div R rfl (.add' (.add' a.z b.z) c.z) (.num 3)⟩

theorem triaArea_gd (h : UnitMesh s f ε m m') (e : ℕ) : Gd s f ε .A (R.triaArea m e) (R.triaArea m' e) := by
  unfold triaArea
  dsimp only
  rw [h.n1, h.n2, h.n3]
  have a := h.gpos (m.tria e).n1; have b := h.gpos (m.tria e).n2; have c := h.gpos (m.tria e).n3
  exact .div R (Dg.div_one _) (R.gv_norm (g := Dg.L * Dg.L) rfl (R.gv_cross (R.gv_sub a b) (R.gv_sub a c))) (.num 2)

theorem orient_eq (h : UnitMesh s f ε m m') {c c' : Vec3} (hc : GV s f ε .L c c') (a b : ℕ) : R.orient m' c' a b = R.orient m c a b := by
  unfold orient
  have := R.gv_dot (R.gv_cross (R.gv_sub hc (h.gxyz b)) (R.gv_sub (h.gxyz a) (h.gxyz b))) (gv_z (s := s) (f := f) (ε := ε))
  simp only [Gd.neg_iff (R := R) (x := R.vdot _ _) (y := R.vdot _ _) this]

theorem mkIPt_unit (h : UnitMesh s f ε m m') (t n1 n2 n3 : ℕ) (f1 f2 f3 : ℝ) {n n' : Vec3} (hn : GV s f ε 1 n n') {le le' : ℝ} (hl : Gd s f ε .L le le') :
    UnitPt s ε (R.mkIPt m t n1 n2 n3 f1 f2 f3 n le) (R.mkIPt m' t n1 n2 n3 f1 f2 f3 n' le') :=
  ⟨rfl, rfl, rfl, rfl, rfl, rfl, rfl, gd_N.1 hn.x, gd_N.1 hn.y, gd_one.1 hn.z, gd_L.1 hl,
    unitVec_iff.2 (R.gv_add (R.gv_add (R.gv_smul f1 (h.gxyz n1)) (R.gv_smul f2 (h.gxyz n2))) (R.gv_smul f3 (h.gxyz n3)))⟩

theorem iptsA_unit (h : UnitMesh s f ε m m') (t a b o : ℕ) : List.Forall₂ (UnitPt s ε) (R.iptsA m t a b o) (R.iptsA m' t a b o) := by
  unfold iptsA
  have h1 := R.gv_sub (h.gxyz a) (R.mid_gv h t)
  have h2 := R.gv_sub (R.mid_gv h t) (h.gxyz b)
  exact .cons (R.mkIPt_unit h _ _ _ _ _ _ _ (R.gv_segNormal h1) (R.gv_norm rfl h1))
    (.cons (R.mkIPt_unit h _ _ _ _ _ _ _ (R.gv_segNormal h2) (R.gv_norm rfl h2)) .nil)

theorem iptsB_unit (h : UnitMesh s f ε m m') (t a b o : ℕ) : List.Forall₂ (UnitPt s ε) (R.iptsB m t a b o) (R.iptsB m' t a b o) := by
  unfold iptsB
  have h1 := R.gv_sub (h.gxyz b) (h.gxyz a)
  exact .cons (R.mkIPt_unit h _ _ _ _ _ _ _ (R.gv_segNormal h1) (R.gv_norm rfl h1)) .nil

theorem iptsI_unit (h : UnitMesh s f ε m m') (t a b o : ℕ) : List.Forall₂ (UnitPt s ε) (R.iptsI m t a b o) (R.iptsI m' t a b o) := by
  unfold iptsI
  have h1 := R.gv_sub (h.gxyz b) (R.mid_gv h t)
  have h2 := R.gv_sub (R.mid_gv h t) (h.gxyz a)
  exact .cons (R.mkIPt_unit h _ _ _ _ _ _ _ (R.gv_segNormal h1) (R.gv_norm rfl h1))
    (.cons (R.mkIPt_unit h _ _ _ _ _ _ _ (R.gv_segNormal h2) (R.gv_norm rfl h2)) .nil)

theorem finishEdge_unit {a b : Edge} (h1 : b.n1 = a.n1) (h2 : b.n2 = a.n2) (h3 : b.trias = a.trias) (h4 : b.other1 = a.other1) (h5 : b.other2 = a.other2)
    {sd sd' : List Vec3} (hsd : List.Forall₂ (GV s f ε .L) sd sd') {ip ip' : List IPt} (hip : List.Forall₂ (UnitPt s ε) ip ip') :
    UnitEdge s ε (R.finishEdge a sd ip) (R.finishEdge b sd' ip') :=
  ⟨h1, h2, h3, h4, h5, .some (gd_A.1 (R.polyArea_gd hsd)), hsd.imp fun _ _ h => unitVec_iff.2 h, hip⟩

theorem geomEdge_unit (h : UnitMesh s f ε m m') {a b : Edge} (hab : UnitEdge s ε a b) :
    (R.geomEdge m' b).2 = (R.geomEdge m a).2 ∧ UnitEdge s ε (R.geomEdge m a).1 (R.geomEdge m' b).1 := by
  have ho := fun t => h.otherNode hab.n1 hab.n2 t
  obtain ⟨an1, an2, at', asd, aip, aAc, ao1, ao2⟩ := a
  obtain ⟨bn1, bn2, bt', bsd, bip, bAc, bo1, bo2⟩ := b
  obtain ⟨e1, e2, e3, e4, e5, e6, e7, e8⟩ := hab
  dsimp only at e1 e2 e3 e4 e5 e6 e7 e8
  subst e1 e2 e3 e4 e5
  rcases bt' with _ | ⟨t1, _ | ⟨t2, _ | ⟨t3, l⟩⟩⟩
  · simp only [geomEdge]; exact ⟨trivial, rfl, rfl, rfl, rfl, rfl, e6, e7, e8⟩
  · simp only [geomEdge, ho]
    rcases otherNode m t1 _ with _ | o1
    · exact ⟨rfl, rfl, rfl, rfl, rfl, rfl, e6, e7, e8⟩
    · by_cases hc : o1 ∈ m.nids
      · simp only [h.nids, if_pos hc]
        rw [R.orient_eq h (R.mid_gv h t1)]
        refine ⟨trivial, R.finishEdge_unit (f := f) rfl rfl rfl rfl rfl ?_ (List.rel_append (R.iptsA_unit h _ _ _ _) (R.iptsB_unit h _ _ _ _))⟩
        exact .cons (h.gxyz _) (.cons (R.mid_gv h _) (.cons (h.gxyz _) (.cons (h.gxyz _) .nil)))
      · simp only [h.nids, if_neg hc]; exact ⟨trivial, rfl, rfl, rfl, rfl, rfl, e6, e7, e8⟩
  · simp only [geomEdge, ho]
    rcases otherNode m t1 _ with _ | o1
    · exact ⟨rfl, rfl, rfl, rfl, rfl, rfl, e6, e7, e8⟩
    rcases otherNode m t2 _ with _ | o2
    · exact ⟨rfl, rfl, rfl, rfl, rfl, rfl, e6, e7, e8⟩
    by_cases hc : o1 ∈ m.nids
    · by_cases hc2 : o2 ∈ m.nids
      · simp only [h.nids, if_pos hc, if_pos hc2]
        rw [R.orient_eq h (R.mid_gv h t1)]
        refine ⟨trivial, R.finishEdge_unit (f := f) rfl rfl rfl rfl rfl ?_ (List.rel_append (R.iptsA_unit h _ _ _ _) (R.iptsI_unit h _ _ _ _))⟩
        exact .cons (h.gxyz _) (.cons (R.mid_gv h _) (.cons (h.gxyz _) (.cons (R.mid_gv h _) (.cons (h.gxyz _) .nil))))
      · simp only [h.nids, if_pos hc, if_neg hc2]; exact ⟨trivial, rfl, rfl, rfl, rfl, rfl, e6, e7, e8⟩
    · simp only [h.nids, if_neg hc]; exact ⟨trivial, rfl, rfl, rfl, rfl, rfl, e6, e7, e8⟩
  · simp only [geomEdge]; exact ⟨trivial, rfl, rfl, rfl, rfl, rfl, e6, e7, e8⟩

theorem geomPass_unit : ∀ (ks : List Key) {m m' : Mesh}, UnitMesh s f ε m m' →
    (R.geomPass m' ks).2 = (R.geomPass m ks).2 ∧ UnitMesh s f ε (R.geomPass m ks).1 (R.geomPass m' ks).1 := by
  intro ks
  induction ks with
  | nil => intro m m' h; exact ⟨rfl, h⟩
  | cons k ks ih =>
    intro m m' h
    obtain ⟨h1, h2⟩ := R.geomEdge_unit h (h.edge k)
    simp only [geomPass]
    rw [h1]
    have hl := h.setEdge k h2
    rcases (R.geomEdge m (m.edge k)).2 with _ | e
    · exact ih hl
    · exact ⟨rfl, hl⟩

/-! ### laminates -/

theorem mix3_gd {ι : Type} {g : Dg} (c1 c2 c3 : ℝ) {P Q S P' Q' S' : ι → ι → ℝ} (hP : ∀ i j, Gd s f ε g (P i j) (P' i j)) (hQ : ∀ i j, Gd s f ε g (Q i j) (Q' i j))
    (hS : ∀ i j, Gd s f ε g (S i j) (S' i j)) (i j : ι) : Gd s f ε g (R.mix3 c1 c2 c3 P Q S i j) (R.mix3 c1 c2 c3 P' Q' S' i j) :=
  .add' (.add' (.mul R (Dg.one_mul' _) (.num c1) (hP i j)) (.mul R (Dg.one_mul' _) (.num c2) (hQ i j))) (.mul R (Dg.one_mul' _) (.num c3) (hS i j))

theorem mix4_gd {ι : Type} {g : Dg} (c1 c2 c3 c4 : ℝ) {P Q S T P' Q' S' T' : ι → ι → ℝ} (hP : ∀ i j, Gd s f ε g (P i j) (P' i j)) (hQ : ∀ i j, Gd s f ε g (Q i j) (Q' i j))
    (hS : ∀ i j, Gd s f ε g (S i j) (S' i j)) (hT : ∀ i j, Gd s f ε g (T i j) (T' i j)) (i j : ι) :
    Gd s f ε g (R.mix4 c1 c2 c3 c4 P Q S T i j) (R.mix4 c1 c2 c3 c4 P' Q' S' T' i j) :=
  .add' (R.mix3_gd c1 c2 c3 hP hQ hS i j) (.mul R (Dg.one_mul' _) (.num c4) (hT i j))

theorem gd_blend {g : Dg} {a b c a' b' c' x y x' y' : ℝ} (ha : Gd s f ε .A a a') (hb : Gd s f ε .A b b') (hc : Gd s f ε .A c c') (hx : Gd s f ε g x x') (hy : Gd s f ε g y y') :
    Gd s f ε g (R.div (R.add (R.mul a x) (R.mul b y)) c) (R.div (R.add (R.mul a' x') (R.mul b' y')) c') :=
  .div R (by
    obtain ⟨p, q, r⟩ := g
    show (⟨2 + p - 2, 0 + q - 0, xor (xor false r) false⟩ : Dg) = ⟨p, q, r⟩
    cases r <;> simp) (.add' (.mul R rfl ha hx) (.mul R rfl hb hy)) hc

theorem mixA_gd {ι : Type} {g : Dg} {a b c a' b' c' : ℝ} (ha : Gd s f ε .A a a') (hb : Gd s f ε .A b b') (hc : Gd s f ε .A c c') {P Q P' Q' : ι → ι → ℝ}
    (hP : ∀ i j, Gd s f ε g (P i j) (P' i j)) (hQ : ∀ i j, Gd s f ε g (Q i j) (Q' i j)) (i j : ι) : Gd s f ε g (R.mixA a b c P Q i j) (R.mixA a' b' c' P' Q' i j) :=
  R.gd_blend ha hb hc (hP i j) (hQ i j)

theorem edgeProp_unit (h : UnitMesh s f ε m m') (pn : Bool) {a b : Edge} (hab : UnitEdge s ε a b) {g : Dg} {sel : Lam → Fin 3 → Fin 3 → ℝ}
    (hsel : ∀ p p', UnitLam s f p p' → ∀ i j, Gd s f ε g (sel p i j) (sel p' i j)) :
    ERel (fun A A' => ∀ i j, Gd s f ε g (A i j) (A' i j)) (R.edgeProp m pn a sel) (R.edgeProp m' pn b sel) := by
  obtain ⟨an1, an2, at', asd, aip, aAc, ao1, ao2⟩ := a
  obtain ⟨bn1, bn2, bt', bsd, bip, bAc, bo1, bo2⟩ := b
  obtain ⟨e1, e2, e3, e4, e5, e6, e7, e8⟩ := hab
  dsimp only at e1 e2 e3 e4 e5 e6 e7 e8
  subst e1 e2 e3 e4 e5
  unfold edgeProp
  cases pn
  · simp only [Bool.false_eq_true, if_false]
    rcases option_rel_cases (h.tprop (bt'.getD 0 0)) with ⟨g, g'⟩ | ⟨p1, q1, g, g', h1⟩ <;> rw [g, g']
    · exact .error _
    rcases bt'[1]? with _ | t2
    · exact .ok (hsel _ _ h1)
    dsimp only
    rcases option_rel_cases (h.tprop t2) with ⟨g, g'⟩ | ⟨p2, q2, g, g', h2⟩ <;> rw [g, g']
    · exact .error _
    cases e6 with
    | none => exact .error _
    | some e6 =>
      refine .ok (R.mixA_gd (R.polyArea_gd ?_) (R.polyArea_gd ?_) (gd_A.2 e6) (hsel _ _ h1) (hsel _ _ h2))
      · exact .cons (R.mid_gv h _) (.cons (h.gxyz _) (.cons (h.gxyz _) .nil))
      · exact .cons (R.mid_gv h _) (.cons (h.gxyz _) (.cons (h.gxyz _) .nil))
  · simp only [if_true]
    rcases bo1 with _ | o1
    · exact .error _
    dsimp only
    rcases option_rel_cases (h.nprop bn1) with ⟨g, g'⟩ | ⟨p1, q1, g, g', h1⟩ <;> rw [g, g']
    · exact .error _
    rcases option_rel_cases (h.nprop bn2) with ⟨g, g'⟩ | ⟨p2, q2, g, g', h2⟩ <;> rw [g, g']
    · exact .error _
    rcases option_rel_cases (h.nprop o1) with ⟨g, g'⟩ | ⟨p3, q3, g, g', h3⟩ <;> rw [g, g']
    · exact .error _
    rcases bt'[1]? with _ | t2
    · exact .ok (R.mix3_gd _ _ _ (hsel _ _ h1) (hsel _ _ h2) (hsel _ _ h3))
    rcases bo2 with _ | o2
    · exact .error _
    dsimp only
    rcases option_rel_cases (h.nprop o2) with ⟨g, g'⟩ | ⟨p4, q4, g, g', h4⟩ <;> rw [g, g']
    · exact .error _
    exact .ok (R.mix4_gd _ _ _ _ (hsel _ _ h1) (hsel _ _ h2) (hsel _ _ h3) (hsel _ _ h4))

end Rounding
end Meshless
