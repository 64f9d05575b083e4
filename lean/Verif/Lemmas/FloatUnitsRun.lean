import Verif.Lemmas.FloatUnits

/-! `calc_k0`, `calc_kG`, `add_k0s` in rounded arithmetic, run on a mesh and on the same mesh in other units. -/

set_option autoImplicit false

namespace Meshless
open Spec

/-! ### matrices -/

/-- `M'` is `M` with the entry `(i, j)` in the other units, of the unit `w (i % 5) (j % 5)` -/
def GMat (s f ε : ℝ) (w : ℤ → ℤ → Dg) (M M' : Mat) : Prop :=
  M'.dim = M.dim ∧ M.dim % 5 = 0 ∧ ∀ i j : ℕ, Gd s f ε (w ((i : ℤ) % 5) ((j : ℤ) % 5)) (M.get i j) (M'.get i j)

theorem pyIdx_mod_units {n : ℕ} {r : ℤ} {i : ℕ} (hn : n % 5 = 0) (h : pyIdx n r = some i) : (i : ℤ) % 5 = r % 5 := by
  unfold pyIdx at h
  split_ifs at h <;> simp only [Option.some.injEq] at h <;> omega

namespace Rounding
variable (R : Rounding) {s f ε : ℝ} [G : Grading R s f ε] {w : ℤ → ℤ → Dg}

theorem addAll_graded : ∀ (L : List (ℤ × ℤ × Gr R s f ε)) {M M' : Mat}, GMat s f ε w M M' →
    (∀ t ∈ L, Gd s f ε (w (t.1 % 5) (t.2.1 % 5)) t.2.2.c t.2.2.d) →
    (R.addAll M' (L.map fun t => (t.1, t.2.1, (t.2.2.d : Fl R)))).2 = (R.addAll M (L.map fun t => (t.1, t.2.1, (t.2.2.c : Fl R)))).2 ∧
    GMat s f ε w (R.addAll M (L.map fun t => (t.1, t.2.1, (t.2.2.c : Fl R)))).1 (R.addAll M' (L.map fun t => (t.1, t.2.1, (t.2.2.d : Fl R)))).1 := by
  intro L
  induction L with
  | nil => intro M M' h _; exact ⟨rfl, h⟩
  | cons t L ih =>
    intro M M' h hL
    obtain ⟨r, c, v⟩ := t
    have hv := hL _ List.mem_cons_self
    dsimp only at hv
    simp only [List.map_cons, addAll, addAt]
    rw [h.1]
    rcases hr : pyIdx M.dim r with _ | i
    · exact ⟨rfl, h⟩
    rcases hc : pyIdx M.dim c with _ | j
    · exact ⟨rfl, h⟩
    refine ih ⟨h.1, h.2.1, fun a b => ?_⟩ fun t ht => hL t (List.mem_cons_of_mem _ ht)
    simp only [bump]
    split_ifs with hab
    · obtain ⟨rfl, rfl⟩ := hab
      have h0 := h.2.2 a b
      rw [pyIdx_mod_units h.2.1 hr, pyIdx_mod_units h.2.1 hc] at h0 ⊢
      exact h0.add' hv
    · exact h.2.2 a b

end Rounding

theorem matLoop_graded {s f ε : ℝ} {w : ℤ → ℤ → Dg} {α : Type} {F F' : Mat → α → Mat × Option Err}
    (hF : ∀ a M M', GMat s f ε w M M' → (F' M' a).2 = (F M a).2 ∧ GMat s f ε w (F M a).1 (F' M' a).1) : ∀ (l : List α) {K K' : Mat}, GMat s f ε w K K' →
    (matLoop F' K' l).2 = (matLoop F K l).2 ∧ GMat s f ε w (matLoop F K l).1 (matLoop F' K' l).1 := by
  intro l
  induction l with
  | nil => intro K K' h; exact ⟨rfl, h⟩
  | cons a l ih =>
    intro K K' h
    obtain ⟨h1, h2⟩ := hF a K K' h
    simp only [matLoop]
    rcases hg : F' K' a with ⟨N', o'⟩
    rcases hf : F K a with ⟨N, o⟩
    rw [hg, hf] at h1 h2
    dsimp only at h1 h2
    subst h1
    rcases o' with _ | e
    · exact ih h2
    · exact ⟨rfl, h2⟩

/-! ### calc_k0 -/

section
variable {s f ε : ℝ} {p p' : Lam}
theorem Spec.UnitLam.gA (h : UnitLam s f p p') (i j : Fin 3) : Gd s f ε .P (p.A i j) (p'.A i j) := by unfold Gd; rw [Dg.sc_P]; exact h.A i j
theorem Spec.UnitLam.gB (h : UnitLam s f p p') (i j : Fin 3) : Gd s f ε .F (p.B i j) (p'.B i j) := by unfold Gd; rw [Dg.sc_F]; exact h.B i j
theorem Spec.UnitLam.gD (h : UnitLam s f p p') (i j : Fin 3) : Gd s f ε .M (p.D i j) (p'.D i j) := by unfold Gd; rw [Dg.sc_M]; exact h.D i j
theorem Spec.UnitLam.gE (h : UnitLam s f p p') (i j : Fin 2) : Gd s f ε .P (p.E i j) (p'.E i j) := by unfold Gd; rw [Dg.sc_P]; exact h.E i j
theorem Spec.UnitLam.gh (h : UnitLam s f p p') : Gd s f ε .L p.h p'.h := gd_L.2 h.h
theorem Spec.UnitLam.gk13 (h : UnitLam s f p p') : Gd s f ε 1 p.k13 p'.k13 := gd_one.2 h.k13
theorem Spec.UnitLam.gk23 (h : UnitLam s f p p') : Gd s f ε 1 p.k23 p'.k23 := gd_one.2 h.k23
end

namespace Rounding
variable (R : Rounding) {s f ε : ℝ} [G : Grading R s f ε] {m m' : Mesh}

theorem k0Env_unit (h : UnitMesh s f ε m m') (pn : Bool) {a b : Edge} (hab : UnitEdge s ε a b) :
    ERel (K0Env.Graded s f ε) (R.k0Env m pn a) (R.k0Env m' pn b) := by
  have hA := R.edgeProp_unit h pn hab (sel := Lam.A) fun p p' hp => hp.gA
  have hB := R.edgeProp_unit h pn hab (sel := Lam.B) fun p p' hp => hp.gB
  have hD := R.edgeProp_unit h pn hab (sel := Lam.D) fun p p' hp => hp.gD
  unfold k0Env
  rw [hab.trias, h.indexed hab.ipts, unitPts_indices hab.ipts, hab.ipts.length_eq.symm, h.nodeIdx]
  split
  · exact .error _
  split
  · exact .error _
  split
  · exact .error _
  dsimp only
  generalize (if a.ipts.length = 3 then iptIndices (nodeIdx m) a.ipts ++ [-1] else iptIndices (nodeIdx m) a.ipts) = ix
  rcases ix with _ | ⟨i1, _ | ⟨i2, _ | ⟨i3, _ | ⟨i4, _ | ⟨i5, l⟩⟩⟩⟩⟩
  · exact .error _
  · exact .error _
  · exact .error _
  · exact .error _
  · dsimp only
    have hip := hab.ipts
    have hac := hab.Ac
    generalize a.ipts = la at hip ⊢
    generalize b.ipts = lb at hip ⊢
    generalize R.edgeProp m pn a Lam.A = A at hA ⊢
    generalize R.edgeProp m pn a Lam.B = B at hB ⊢
    generalize R.edgeProp m pn a Lam.D = D at hD ⊢
    generalize R.edgeProp m' pn b Lam.A = A' at hA ⊢
    generalize R.edgeProp m' pn b Lam.B = B' at hB ⊢
    generalize R.edgeProp m' pn b Lam.D = D' at hD ⊢
    generalize a.Ac = xa at hac ⊢
    generalize b.Ac = xb at hac ⊢
    cases hip with
    | nil => exact .error _
    | cons h1 hip =>
    cases hip with
    | nil => exact .error _
    | cons h2 hip =>
    cases hip with
    | nil => exact .error _
    | cons h3 hip =>
    rcases option_rel_cases hac with ⟨rfl, rfl⟩ | ⟨x, y, rfl, rfl, hx⟩
    · cases hA with
      | error e => exact .error _
      | ok hA =>
      cases hB with
      | error e => exact .error _
      | ok hB =>
      cases hD with
      | error e => exact .error _
      | ok hD => exact .error _
    · cases hA with
      | error e => exact .error _
      | ok hA =>
      cases hB with
      | error e => exact .error _
      | ok hB =>
      cases hD with
      | error e => exact .error _
      | ok hD =>
      refine .ok ?_
      have hN : ∀ {x y : ℝ}, y = ε * x → Gd s f ε .N x y := gd_N.2
      have hL : ∀ {x y : ℝ}, y = s * x → Gd s f ε .L x y := gd_L.2
      rw [h1.row, h2.row, h3.row]
      cases hip with
      | nil =>
        constructor <;> (first | exact rfl | exact Gd.num _ | exact gd_A.2 hx | exact hA _ _ | exact hB _ _ | exact hD _ _ | exact hL h1.le | exact hL h2.le | exact hL h3.le | exact hN h1.nx | exact hN h2.nx | exact hN h3.nx | exact hN h1.ny | exact hN h2.ny | exact hN h3.ny | exact Gd.zero _)
      | cons h4 _ =>
        dsimp only
        rw [h4.row]
        constructor <;> (first | exact rfl | exact Gd.num _ | exact gd_A.2 hx | exact hA _ _ | exact hB _ _ | exact hD _ _ | exact hL h1.le | exact hL h2.le | exact hL h3.le | exact hN h1.nx | exact hN h2.nx | exact hN h3.nx | exact hN h1.ny | exact hN h2.ny | exact hN h3.ny | exact hL h4.le | exact hN h4.nx | exact hN h4.ny)
  · exact .error _

theorem k0Edge_unit (h : UnitMesh s f ε m m') (pn : Bool) (k : Key) {M M' : Mat} (hM : GMat s f ε entryDg M M') :
    (R.k0Edge m' pn M' k).2 = (R.k0Edge m pn M k).2 ∧ GMat s f ε entryDg (R.k0Edge m pn M k).1 (R.k0Edge m' pn M' k).1 := by
  have he := R.k0Env_unit h pn (h.edge k)
  unfold k0Edge
  generalize R.k0Env m pn (m.edge k) = a at he ⊢
  generalize R.k0Env m' pn (m'.edge k) = b at he ⊢
  cases he with
  | error e => exact ⟨rfl, hM⟩
  | ok he =>
    dsimp only
    obtain ⟨L, l1, l2, l3⟩ := k0Entries_graded (R := R) he
    rw [← l1, ← l2]
    exact R.addAll_graded L hM l3

theorem zeros_graded (n : ℕ) (w : ℤ → ℤ → Dg) : GMat s f ε w (Mat.zeros (n * 5)) (Mat.zeros (n * 5)) :=
  ⟨rfl, by show n * 5 % 5 = 0; omega, fun _ _ => .zero _⟩

theorem calcK0_unit (h : UnitMesh s f ε m m') (pn : Bool) :
    ERel (GMat s f ε entryDg) (R.calcK0 m pn).2 (R.calcK0 m' pn).2 ∧ UnitMesh s f ε (R.calcK0 m pn).1 (R.calcK0 m' pn).1 := by
  have hmiss : m'.ekeys.any (edgeMissing m' pn) = m.ekeys.any (edgeMissing m pn) := by
    have hi : ∀ {o o' : Option Lam}, Option.Rel (UnitLam s f) o o' → o'.isNone = o.isNone := fun h => by cases h <;> rfl
    rw [h.ekeys]
    congr 1
    funext k
    unfold edgeMissing
    rw [(h.edge k).n1, (h.edge k).n2, (h.edge k).trias]
    simp only [hi (h.nprop _), hi (h.tprop _)]
  unfold calcK0
  rw [hmiss]
  split
  · exact ⟨.error _, h⟩
  obtain ⟨g1, g2⟩ := R.geomPass_unit m.ekeys h
  rw [h.ekeys]
  generalize R.geomPass m m.ekeys = a at g1 g2 ⊢
  generalize R.geomPass m' m.ekeys = b at g1 g2 ⊢
  obtain ⟨a1, a2⟩ := a
  obtain ⟨b1, b2⟩ := b
  dsimp only at g1 g2
  subst g1
  rcases b2 with _ | e
  · dsimp only
    rw [g2.nids]
    split
    · exact ⟨.error _, g2⟩
    · have hn := unitMesh_number a1.nids 0 g2
      obtain ⟨k1, k2⟩ := matLoop_graded (F := R.k0Edge (numberNodes a1 a1.nids 0) pn) (F' := R.k0Edge (numberNodes b1 a1.nids 0) pn)
        (fun k M M' hM => R.k0Edge_unit hn pn k hM) (numberNodes a1 a1.nids 0).ekeys
        (zeros_graded (s := s) (f := f) (ε := ε) (numberNodes a1 a1.nids 0).nids.length entryDg)
      rw [hn.nids, hn.ekeys]
      generalize matLoop (R.k0Edge (numberNodes a1 a1.nids 0) pn) _ _ = x at k1 k2 ⊢
      generalize matLoop (R.k0Edge (numberNodes b1 a1.nids 0) pn) _ _ = y at k1 k2 ⊢
      obtain ⟨x1, x2⟩ := x
      obtain ⟨y1, y2⟩ := y
      dsimp only at k1 k2
      subst k1
      rcases y2 with _ | e
      · exact ⟨.ok k2, hn⟩
      · exact ⟨.error _, hn⟩
  · exact ⟨.error _, g2⟩

end Rounding
end Meshless
