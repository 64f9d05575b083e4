import Verif.Lemmas.IeeeLike

/-! The same outcome of the shear assembly in every format. -/

set_option autoImplicit false

namespace Meshless
open Rounding (SameOutcome)

variable {f : Fmt}

theorem addAll_err_fmt (M : FMat) (es : List (ℤ × ℤ × Fo f)) : (f.addAll M es).1.dim = M.dim ∧
    ((∀ p ∈ es.map pos2, (pyIdx M.dim p.1).isSome ∧ (pyIdx M.dim p.2).isSome) → (f.addAll M es).2 = none) ∧
    ((f.addAll M es).2 = none → ∀ p ∈ es.map pos2, (pyIdx M.dim p.1).isSome ∧ (pyIdx M.dim p.2).isSome) ∧
    ((f.addAll M es).2 = none ∨ (f.addAll M es).2 = some .indexError) := by
  induction es generalizing M with
  | nil => exact ⟨rfl, fun _ => rfl, fun _ p hp => by simp at hp, Or.inl rfl⟩
  | cons e es ih =>
    obtain ⟨r, c, v⟩ := e
    simp only [Fmt.addAll, List.map_cons, List.forall_mem_cons, pos2]
    unfold Fmt.addAt
    rcases h1 : pyIdx M.dim r with _ | i
    · exact ⟨rfl, by simp, by simp, by simp⟩
    rcases h2 : pyIdx M.dim c with _ | j
    · exact ⟨rfl, by simp, by simp, by simp⟩
    obtain ⟨i1, i2, i3, i4⟩ := ih (f.bump M i j v)
    refine ⟨i1, fun h => i2 h.2, fun h => ⟨⟨rfl, rfl⟩, i3 h⟩, i4⟩

theorem addAll_err_exact (M : Mat) (es : List (ℤ × ℤ × ℝ)) : (M.addAll es).1.dim = M.dim ∧
    ((∀ p ∈ es.map pos2, (pyIdx M.dim p.1).isSome ∧ (pyIdx M.dim p.2).isSome) → (M.addAll es).2 = none) ∧
    ((M.addAll es).2 = none → ∀ p ∈ es.map pos2, (pyIdx M.dim p.1).isSome ∧ (pyIdx M.dim p.2).isSome) ∧
    ((M.addAll es).2 = none ∨ (M.addAll es).2 = some .indexError) := by
  induction es generalizing M with
  | nil => exact ⟨rfl, fun _ => rfl, fun _ p hp => by simp at hp, Or.inl rfl⟩
  | cons e es ih =>
    obtain ⟨r, c, v⟩ := e
    simp only [Mat.addAll, List.map_cons, List.forall_mem_cons, pos2]
    unfold Mat.addAt
    rcases h1 : pyIdx M.dim r with _ | i
    · exact ⟨rfl, by simp, by simp, by simp⟩
    rcases h2 : pyIdx M.dim c with _ | j
    · exact ⟨rfl, by simp, by simp, by simp⟩
    obtain ⟨i1, i2, i3, i4⟩ := ih (M.bump i j v)
    refine ⟨i1, fun h => i2 h.2, fun h => ⟨⟨rfl, rfl⟩, i3 h⟩, i4⟩

theorem addAll_mem_fmt (es : List (ℤ × ℤ × ℝ)) (es' : List (ℤ × ℤ × Fo f)) {M : Mat} {M' : FMat} (hd : M'.dim = M.dim)
    (hp : ∀ p, p ∈ es'.map pos2 ↔ p ∈ es.map pos2) :
    (f.addAll M' es').2 = (M.addAll es).2 ∧ (f.addAll M' es').1.dim = (M.addAll es).1.dim := by
  obtain ⟨a1, a2, a3, a4⟩ := addAll_err_exact M es
  obtain ⟨b1, b2, b3, b4⟩ := addAll_err_fmt M' es'
  refine ⟨?_, by rw [a1, b1, hd]⟩
  rw [hd] at b2 b3
  rcases a4 with ha | ha
  · rw [ha]; exact b2 fun p h => a3 ha p ((hp p).1 h)
  · rcases b4 with hb | hb
    · rw [a2 fun p h => b3 hb p ((hp p).2 h), hb]
    · rw [ha, hb]

variable (f)

theorem cellOrient_fmt (m : Mesh) (e : ℕ) : f.cellOrient m e = cellOrient m e ∨
    f.cellOrient m e = ((cellOrient m e).2.1, (cellOrient m e).1, (cellOrient m e).2.2) := by
  unfold cellOrient Fmt.cellOrient; dsimp only; split <;> split <;> simp
theorem cellNSOrient_fmt (m : Mesh) (e : ℕ) : f.cellNSOrient m e = cellNSOrient m e ∨
    f.cellNSOrient m e = ((cellNSOrient m e).2.1, (cellNSOrient m e).1, (cellNSOrient m e).2.2) := by
  unfold cellNSOrient Fmt.cellNSOrient; dsimp only; split <;> split <;> simp

theorem cellShear_fmt {m : Mesh} (pn : Bool) (e : ℕ) {t t' : ℕ × ℕ × ℕ}
    (h : t' = t ∨ t' = (t.2.1, t.1, t.2.2)) :
    SameOutcome (cellShear m pn e t.1 t.2.1 t.2.2) (f.cellShear m pn e t'.1 t'.2.1 t'.2.2) := by
  unfold Rounding.SameOutcome cellShear Fmt.cellShear
  cases pn
  · simp only [Bool.false_eq_true, if_false]; rcases (m.tria e).prop with _ | p <;> rfl
  · simp only [if_true]
    rcases h with rfl | rfl
    · rcases (m.node t'.1).prop with _ | p <;> rcases (m.node t'.2.1).prop with _ | q <;> rcases (m.node t'.2.2).prop with _ | r <;> rfl
    · rcases (m.node t.1).prop with _ | p <;> rcases (m.node t.2.1).prop with _ | q <;> rcases (m.node t.2.2).prop with _ | r <;> rfl

theorem cellMaxl_fmt {m : Mesh} (e : ℕ) (A : ℝ) (A' : Flo) (fa : Bool) : SameOutcome (cellMaxl m e A fa) (f.cellMaxl m e A' fa) := by
  unfold Rounding.SameOutcome cellMaxl Fmt.cellMaxl
  cases fa
  · simp only [Bool.false_eq_true, if_false]
    rcases (m.tria e).edges with _ | ⟨k, l⟩ <;> rfl
  · rfl

theorem cellSEnv_fmt {m : Mesh} (pn : Bool) (al : ℝ) (fa : Bool) (e : ℕ) :
    Rounding.Swap3 (fun e => (e.i1, e.i2, e.i3)) (fun e => (e.i1, e.i2, e.i3)) (cellSEnv m pn al fa e) (f.cellSEnv m pn al fa e) := by
  have ho := cellOrient_fmt f m e
  have h1 := (cellShear_fmt f (m := m) pn e ho).cases
  have h2 := (cellMaxl_fmt f (m := m) e (m.triaArea e) (f.triaArea m e) fa).cases
  unfold cellSEnv Fmt.cellSEnv
  generalize cellOrient m e = t at ho h1 ⊢
  generalize f.cellOrient m e = t' at ho h1 ⊢
  obtain ⟨a, b, c⟩ := t
  obtain ⟨a', b', c'⟩ := t'
  dsimp only at ho h1 ⊢
  rcases h1 with ⟨x, y, e1, e2⟩ | ⟨er, e1, e2⟩ <;> rw [e1, e2]
  · rcases h2 with ⟨l, l', f1, f2⟩ | ⟨er, f1, f2⟩ <;> rw [f1, f2]
    · simp only [bind, Except.bind]
      simp only [Prod.mk.injEq] at ho
      rcases ho with ⟨rfl, rfl, rfl⟩ | ⟨rfl, rfl, rfl⟩
      · rcases (m.node a').index with _ | i
        · exact Or.inl ⟨_, rfl, rfl⟩
        rcases (m.node b').index with _ | j
        · exact Or.inl ⟨_, rfl, rfl⟩
        rcases (m.node c').index with _ | k
        · exact Or.inl ⟨_, rfl, rfl⟩
        exact Or.inr ⟨_, _, rfl, rfl, Or.inl rfl⟩
      · rcases (m.node a').index with _ | i <;> rcases (m.node b').index with _ | j
        · exact Or.inl ⟨_, rfl, rfl⟩
        · exact Or.inl ⟨_, rfl, rfl⟩
        · exact Or.inl ⟨_, rfl, rfl⟩
        rcases (m.node c').index with _ | k
        · exact Or.inl ⟨_, rfl, rfl⟩
        exact Or.inr ⟨_, _, rfl, rfl, Or.inr rfl⟩
    · exact Or.inl ⟨_, rfl, rfl⟩
  · exact Or.inl ⟨_, rfl, rfl⟩

theorem cellNSEnv_fmt {m : Mesh} (pn : Bool) (al : ℝ) (fa : Bool) (e : ℕ) :
    Rounding.Swap3 (fun e => (e.i1, e.i2, e.i3)) (fun e => (e.i1, e.i2, e.i3)) (cellNSEnv m pn al fa e) (f.cellNSEnv m pn al fa e) := by
  have ho := cellNSOrient_fmt f m e
  have h1 := (cellShear_fmt f (m := m) pn e ho).cases
  have h2 := (cellMaxl_fmt f (m := m) e (m.triaArea e) (f.triaArea m e) fa).cases
  unfold cellNSEnv Fmt.cellNSEnv
  generalize cellNSOrient m e = t at ho h1 ⊢
  generalize f.cellNSOrient m e = t' at ho h1 ⊢
  obtain ⟨a, b, c⟩ := t
  obtain ⟨a', b', c'⟩ := t'
  dsimp only at ho h1 ⊢
  rcases h1 with ⟨x, y, e1, e2⟩ | ⟨er, e1, e2⟩ <;> rw [e1, e2]
  · rcases h2 with ⟨l, l', f1, f2⟩ | ⟨er, f1, f2⟩ <;> rw [f1, f2]
    · simp only [bind, Except.bind]
      simp only [Prod.mk.injEq] at ho
      rcases ho with ⟨rfl, rfl, rfl⟩ | ⟨rfl, rfl, rfl⟩
      · rcases (m.node a').index with _ | i
        · exact Or.inl ⟨_, rfl, rfl⟩
        rcases (m.node b').index with _ | j
        · exact Or.inl ⟨_, rfl, rfl⟩
        rcases (m.node c').index with _ | k
        · exact Or.inl ⟨_, rfl, rfl⟩
        exact Or.inr ⟨_, _, rfl, rfl, Or.inl rfl⟩
      · rcases (m.node a').index with _ | i <;> rcases (m.node b').index with _ | j
        · exact Or.inl ⟨_, rfl, rfl⟩
        · exact Or.inl ⟨_, rfl, rfl⟩
        · exact Or.inl ⟨_, rfl, rfl⟩
        rcases (m.node c').index with _ | k
        · exact Or.inl ⟨_, rfl, rfl⟩
        exact Or.inr ⟨_, _, rfl, rfl, Or.inr rfl⟩
    · exact Or.inl ⟨_, rfl, rfl⟩
  · exact Or.inl ⟨_, rfl, rfl⟩

theorem cellSTria_fmt {m : Mesh} (pn : Bool) (al : ℝ) (fa : Bool) (e : ℕ) {M : Mat} {M' : FMat} (hd : M'.dim = M.dim) :
    (f.cellSTria m pn al fa M' e).2 = (cellSTria m pn al fa M e).2 ∧ (f.cellSTria m pn al fa M' e).1.dim = (cellSTria m pn al fa M e).1.dim := by
  unfold cellSTria Fmt.cellSTria
  rcases cellSEnv_fmt f pn al fa e with ⟨x, h1, h2⟩ | ⟨a, b, h1, h2, h3⟩ <;> rw [h1, h2]
  · exact ⟨rfl, hd⟩
  · dsimp only
    have hp : ∀ p, p ∈ (cellSEntries (K := Fo f) b).map pos2 ↔ p ∈ (cellSEntries a).map pos2 := by
      intro p
      rw [cellSEntries_at (K := Fo f) b, cellSEntries_at a, cellS_prod, cellS_prod, mem_prodPos, mem_prodPos]
      simp only [Prod.mk.injEq] at h3
      show p.1 ∈ rows3 b.i1 b.i2 b.i3 ∧ p.2 ∈ rows3 b.i1 b.i2 b.i3 ↔ p.1 ∈ rows3 a.i1 a.i2 a.i3 ∧ p.2 ∈ rows3 a.i1 a.i2 a.i3
      rcases h3 with ⟨e1, e2, e3⟩ | ⟨e1, e2, e3⟩ <;> rw [e1, e2, e3]
      exact and_congr (rows3_swap _ _ _ _) (rows3_swap _ _ _ _)
    generalize cellSEntries (K := Fo f) b = l' at hp ⊢
    generalize cellSEntries a = l at hp ⊢
    exact addAll_mem_fmt l l' hd hp

theorem cellNSTria_fmt {m : Mesh} (pn : Bool) (al : ℝ) (fa : Bool) (e : ℕ) {M : Mat} {M' : FMat} (hd : M'.dim = M.dim) :
    (f.cellNSTria m pn al fa M' e).2 = (cellNSTria m pn al fa M e).2 ∧ (f.cellNSTria m pn al fa M' e).1.dim = (cellNSTria m pn al fa M e).1.dim := by
  unfold cellNSTria Fmt.cellNSTria
  rcases cellNSEnv_fmt f pn al fa e with ⟨x, h1, h2⟩ | ⟨a, b, h1, h2, h3⟩ <;> rw [h1, h2]
  · exact ⟨rfl, hd⟩
  · dsimp only
    have hp : ∀ p, p ∈ (cellNSEntries (K := Fo f) b).map pos2 ↔ p ∈ (cellNSEntries a).map pos2 := by
      intro p
      rw [cellNSEntries_at (K := Fo f) b, cellNSEntries_at a, cellNS_prod, cellNS_prod, mem_prodPos, mem_prodPos]
      simp only [Prod.mk.injEq] at h3
      show p.1 ∈ rows3 b.i1 b.i2 b.i3 ∧ p.2 ∈ rows3 b.i1 b.i2 b.i3 ↔ p.1 ∈ rows3 a.i1 a.i2 a.i3 ∧ p.2 ∈ rows3 a.i1 a.i2 a.i3
      rcases h3 with ⟨e1, e2, e3⟩ | ⟨e1, e2, e3⟩ <;> rw [e1, e2, e3]
      exact and_congr (rows3_swap _ _ _ _) (rows3_swap _ _ _ _)
    generalize cellNSEntries (K := Fo f) b = l' at hp ⊢
    generalize cellNSEntries a = l at hp ⊢
    exact addAll_mem_fmt l l' hd hp

theorem edgeOrient_fmt (m : Mesh) (a : Edge) (t : ℕ) : f.edgeOrient m a t = edgeOrient m a t ∨
    f.edgeOrient m a t = ((edgeOrient m a t).2, (edgeOrient m a t).1) := by
  unfold edgeOrient Fmt.edgeOrient; split <;> split <;> simp

theorem edgeBShear_fmt {m : Mesh} (pn : Bool) (t o : ℕ) {ab ab' : ℕ × ℕ} (hs : ab' = ab ∨ ab' = (ab.2, ab.1)) :
    SameOutcome (edgeBShear m pn t ab.1 ab.2 o) (f.edgeBShear m pn t ab'.1 ab'.2 o) := by
  unfold Rounding.SameOutcome edgeBShear Fmt.edgeBShear
  cases pn
  · simp only [Bool.false_eq_true, if_false]; rcases (m.tria t).prop with _ | p <;> rfl
  · simp only [if_true]
    rcases hs with rfl | rfl
    · rcases (m.node ab'.1).prop with _ | p <;> rcases (m.node ab'.2).prop with _ | q <;> rcases (m.node o).prop with _ | r <;> rfl
    · rcases (m.node ab.1).prop with _ | p <;> rcases (m.node ab.2).prop with _ | q <;> rcases (m.node o).prop with _ | r <;> rfl

theorem edgeIShear_fmt {m : Mesh} (pn : Bool) (x y z : ℝ) (x' y' z' : Flo) (t s o r : ℕ) {ab ab' : ℕ × ℕ}
    (hs : ab' = ab ∨ ab' = (ab.2, ab.1)) :
    SameOutcome (edgeIShear m pn x y z t s ab.1 ab.2 o r) (f.edgeIShear m pn x' y' z' t s ab'.1 ab'.2 o r) := by
  unfold Rounding.SameOutcome edgeIShear Fmt.edgeIShear
  cases pn
  · simp only [Bool.false_eq_true, if_false]
    rcases (m.tria t).prop with _ | p <;> rcases (m.tria s).prop with _ | q <;> rfl
  · simp only [if_true]
    rcases hs with rfl | rfl
    · rcases (m.node ab'.1).prop with _ | p <;> rcases (m.node ab'.2).prop with _ | q <;> rcases (m.node o).prop with _ | a <;>
        rcases (m.node r).prop with _ | b <;> rfl
    · rcases (m.node ab.1).prop with _ | p <;> rcases (m.node ab.2).prop with _ | q <;> rcases (m.node o).prop with _ | a <;>
        rcases (m.node r).prop with _ | b <;> rfl

theorem edgeBMaxl_fmt {a : Edge} {g : Geo} (hab : GeoLike a g) (A : ℝ) (fa : Bool) : SameOutcome (edgeBMaxl a A fa) (f.edgeBMaxl g fa) := by
  unfold Rounding.SameOutcome edgeBMaxl Fmt.edgeBMaxl
  have hl : g.ipts.length = a.ipts.length := by simpa using hab.ipts.length_eq.symm
  cases fa
  · simp only [Bool.false_eq_true, if_false]
    rcases h1 : a.ipts with _ | ⟨p, l⟩ <;> rcases h2 : g.ipts with _ | ⟨q, l'⟩ <;> rw [h1, h2] at hl <;>
      first | rfl | (exfalso; simp at hl)
  · rfl

theorem edgeIMaxl_fmt {m : Mesh} {a : Edge} {g : Geo} (hab : GeoLike a g) (A : ℝ) (fa : Bool) : SameOutcome (edgeIMaxl m a A fa) (f.edgeIMaxl m a g fa) := by
  unfold Rounding.SameOutcome edgeIMaxl Fmt.edgeIMaxl
  have hl : g.ipts.length = a.ipts.length := by simpa using hab.ipts.length_eq.symm
  cases fa
  · simp only [Bool.false_eq_true, if_false]
    rcases h1 : a.ipts with _ | ⟨p, l⟩ <;> rcases h2 : g.ipts with _ | ⟨q, l'⟩ <;> rw [h1, h2] at hl <;>
      first | rfl | (exfalso; simp at hl)
  · rfl

theorem edgeBEnv_fmt {m : Mesh} (pn : Bool) (al : ℝ) (fa : Bool) {a : Edge} {g : Geo} (hab : GeoLike a g) (t : ℕ)
    {p p' : ℕ × ℕ} (hs : p' = p ∨ p' = (p.2, p.1)) :
    Rounding.Swap3 (fun e => (e.i1, e.i2, e.i3)) (fun e => (e.i1, e.i2, e.i3)) (edgeBEnv m pn al fa a t p.1 p.2) (f.edgeBEnv m pn al fa a g t p'.1 p'.2) := by
  unfold edgeBEnv Fmt.edgeBEnv
  obtain ⟨x, hx⟩ := hab.Ac
  rw [hx]
  rcases ho : a.other1 with _ | o
  · exact Or.inl ⟨_, rfl, rfl⟩
  dsimp only
  rcases (edgeBShear_fmt f (m := m) pn t o hs).cases with ⟨u, v, e1, e2⟩ | ⟨er, e1, e2⟩ <;> rw [e1, e2]
  · rcases (edgeBMaxl_fmt f hab x fa).cases with ⟨l, l', f1, f2⟩ | ⟨er, f1, f2⟩ <;> rw [f1, f2]
    · simp only [bind, Except.bind]
      rcases hs with rfl | rfl
      · rcases (m.node p'.1).index with _ | i
        · exact Or.inl ⟨_, rfl, rfl⟩
        rcases (m.node p'.2).index with _ | j
        · exact Or.inl ⟨_, rfl, rfl⟩
        rcases (m.node o).index with _ | k
        · exact Or.inl ⟨_, rfl, rfl⟩
        exact Or.inr ⟨_, _, rfl, rfl, Or.inl rfl⟩
      · dsimp only
        rcases (m.node p.1).index with _ | i <;> rcases (m.node p.2).index with _ | j
        · exact Or.inl ⟨_, rfl, rfl⟩
        · exact Or.inl ⟨_, rfl, rfl⟩
        · exact Or.inl ⟨_, rfl, rfl⟩
        rcases (m.node o).index with _ | k
        · exact Or.inl ⟨_, rfl, rfl⟩
        exact Or.inr ⟨_, _, rfl, rfl, Or.inr rfl⟩
    · exact Or.inl ⟨_, rfl, rfl⟩
  · exact Or.inl ⟨_, rfl, rfl⟩

theorem edgeIEnv_fmt {m : Mesh} (pn : Bool) (al : ℝ) (fa : Bool) {a : Edge} {g : Geo} (hab : GeoLike a g) (t s : ℕ)
    {p p' : ℕ × ℕ} (hs : p' = p ∨ p' = (p.2, p.1)) :
    (∃ e, edgeIEnv m pn al fa a t s p.1 p.2 = .error e ∧ f.edgeIEnv m pn al fa a g t s p'.1 p'.2 = .error e) ∨
    ∃ x y, edgeIEnv m pn al fa a t s p.1 p.2 = .ok x ∧ f.edgeIEnv m pn al fa a g t s p'.1 p'.2 = .ok y ∧ y.i3 = x.i3 ∧ y.i4 = x.i4 ∧
      (y.i1 = x.i1 ∧ y.i2 = x.i2 ∨ y.i1 = x.i2 ∧ y.i2 = x.i1) := by
  unfold edgeIEnv Fmt.edgeIEnv
  obtain ⟨x, hx⟩ := hab.Ac
  rw [hx]
  rcases ho : a.other1 with _ | o
  · exact Or.inl ⟨_, rfl, rfl⟩
  rcases ho2 : a.other2 with _ | o2
  · exact Or.inl ⟨_, rfl, rfl⟩
  dsimp only
  rcases (edgeIShear_fmt f (m := m) pn (polyArea [m.mid t, (m.node p.1).xyz, (m.node p.2).xyz])
    (polyArea [(m.node p.1).xyz, m.mid s, (m.node p.2).xyz]) x
    (f.area3 (f.mid m t) (Fmt.xyz m p'.1) (Fmt.xyz m p'.2)) (f.area3 (Fmt.xyz m p'.1) (f.mid m s) (Fmt.xyz m p'.2)) g.Ac
    t s o o2 hs).cases with ⟨u, v, e1, e2⟩ | ⟨er, e1, e2⟩ <;> rw [e1, e2]
  · rcases (edgeIMaxl_fmt f (m := m) hab x fa).cases with ⟨l, l', f1, f2⟩ | ⟨er, f1, f2⟩ <;> rw [f1, f2]
    · simp only [bind, Except.bind]
      rcases hs with rfl | rfl
      · rcases (m.node p'.1).index with _ | i
        · exact Or.inl ⟨_, rfl, rfl⟩
        rcases (m.node p'.2).index with _ | j
        · exact Or.inl ⟨_, rfl, rfl⟩
        rcases (m.node o).index with _ | k
        · exact Or.inl ⟨_, rfl, rfl⟩
        rcases (m.node o2).index with _ | q
        · exact Or.inl ⟨_, rfl, rfl⟩
        exact Or.inr ⟨_, _, rfl, rfl, rfl, rfl, Or.inl ⟨rfl, rfl⟩⟩
      · dsimp only
        rcases (m.node p.1).index with _ | i <;> rcases (m.node p.2).index with _ | j
        · exact Or.inl ⟨_, rfl, rfl⟩
        · exact Or.inl ⟨_, rfl, rfl⟩
        · exact Or.inl ⟨_, rfl, rfl⟩
        rcases (m.node o).index with _ | k
        · exact Or.inl ⟨_, rfl, rfl⟩
        rcases (m.node o2).index with _ | q
        · exact Or.inl ⟨_, rfl, rfl⟩
        exact Or.inr ⟨_, _, rfl, rfl, rfl, rfl, Or.inr ⟨rfl, rfl⟩⟩
    · exact Or.inl ⟨_, rfl, rfl⟩
  · exact Or.inl ⟨_, rfl, rfl⟩

theorem edgeSEdge_fmt {m : Mesh} {g : Key → Geo} (pn : Bool) (al : ℝ) (fa : Bool) (k : Key) (hab : GeoLike (m.edge k) (g k)) {M : Mat} {M' : FMat} (hd : M'.dim = M.dim) :
    (f.edgeSEdge m g pn al fa M' k).2 = (edgeSEdge m pn al fa M k).2 ∧
    (f.edgeSEdge m g pn al fa M' k).1.dim = (edgeSEdge m pn al fa M k).1.dim := by
  unfold edgeSEdge Fmt.edgeSEdge
  dsimp only
  rcases (m.edge k).trias with _ | ⟨t1, _ | ⟨t2, _ | ⟨t3, l⟩⟩⟩
  · exact ⟨rfl, hd⟩
  · dsimp only
    rcases edgeBEnv_fmt f (m := m) pn al fa hab t1 (edgeOrient_fmt f m (m.edge k) t1) with ⟨x, h1, h2⟩ | ⟨a, b, h1, h2, h3⟩ <;> rw [h1, h2]
    · exact ⟨rfl, hd⟩
    · dsimp only
      have hp : ∀ p, p ∈ (edgeBEntries (K := Fo f) b).map pos2 ↔ p ∈ (edgeBEntries a).map pos2 := by
        intro p
        rw [edgeBEntries_at (K := Fo f) b, edgeBEntries_at a, edgeB_prod, edgeB_prod, mem_prodPos, mem_prodPos]
        simp only [Prod.mk.injEq] at h3
        show p.1 ∈ rows3 b.i1 b.i2 b.i3 ∧ p.2 ∈ rows3 b.i1 b.i2 b.i3 ↔ p.1 ∈ rows3 a.i1 a.i2 a.i3 ∧ p.2 ∈ rows3 a.i1 a.i2 a.i3
        rcases h3 with ⟨e1, e2, e3⟩ | ⟨e1, e2, e3⟩ <;> rw [e1, e2, e3]
        exact and_congr (rows3_swap _ _ _ _) (rows3_swap _ _ _ _)
      generalize edgeBEntries (K := Fo f) b = l' at hp ⊢
      generalize edgeBEntries a = l at hp ⊢
      exact addAll_mem_fmt l l' hd hp
  · dsimp only
    rcases edgeIEnv_fmt f (m := m) pn al fa hab t1 t2 (edgeOrient_fmt f m (m.edge k) t1) with ⟨x, h1, h2⟩ | ⟨a, b, h1, h2, e3, e4, h3⟩ <;> rw [h1, h2]
    · exact ⟨rfl, hd⟩
    · dsimp only
      have hp : ∀ p, p ∈ (edgeIEntries (K := Fo f) b).map pos2 ↔ p ∈ (edgeIEntries a).map pos2 := by
        intro p
        rw [edgeIEntries_at (K := Fo f) b, edgeIEntries_at a, edgeI_prod, edgeI_prod, mem_prodPos, mem_prodPos]
        show p.1 ∈ rows4 b.i1 b.i2 b.i3 b.i4 ∧ p.2 ∈ rows4 b.i1 b.i2 b.i3 b.i4 ↔ p.1 ∈ rows4 a.i1 a.i2 a.i3 a.i4 ∧ p.2 ∈ rows4 a.i1 a.i2 a.i3 a.i4
        rcases h3 with ⟨e1, e2⟩ | ⟨e1, e2⟩ <;> rw [e1, e2, e3, e4]
        exact and_congr (rows4_swap _ _ _ _ _) (rows4_swap _ _ _ _ _)
      generalize edgeIEntries (K := Fo f) b = l' at hp ⊢
      generalize edgeIEntries a = l at hp ⊢
      exact addAll_mem_fmt l l' hd hp
  · exact ⟨rfl, hd⟩

/-- `add_k0s` in a format and exactly: the same outcome, the same size -/
theorem addK0s_fmt {m : Mesh} {g : Key → Geo} (hg : ∀ k ∈ m.ekeys, GeoLike (m.edge k) (g k)) (pn : Bool) (method : String) (al : ℝ) (fa : Bool) {K : Mat} {K' : FMat} (hd : K'.dim = K.dim) :
    (f.addK0s K' m g pn method al fa).2 = (addK0s K m pn method al fa).2 ∧
    (f.addK0s K' m g pn method al fa).1.dim = (addK0s K m pn method al fa).1.dim := by
  unfold addK0s Fmt.addK0s
  split
  · exact loop_fmt _ hd fun e _ M M' hd => cellSTria_fmt f pn al fa e hd
  split
  · exact loop_fmt _ hd fun e _ M M' hd => cellNSTria_fmt f pn al fa e hd
  split
  · exact loop_fmt _ hd fun k hk M M' hd => edgeSEdge_fmt f pn al fa k (hg k hk) hd
  · exact ⟨rfl, hd⟩

end Meshless
