import Verif.Lemmas.FloatLike
import Verif.Lemmas.Static
import Verif.Model.Ieee

/-! The outcome of the numerical functions does not depend on the numbers: in every format the same exception or a matrix of the same size, and
increments at the same positions. -/

set_option autoImplicit false

namespace Meshless
open Rounding (SameOutcome)

variable (f : Fmt)

theorem orient_fmt (m : Mesh) (c : FVec) (c' : Vec3) (a b : ℕ) : f.orient m c a b = orient m c' a b ∨
    f.orient m c a b = ((orient m c' a b).2, (orient m c' a b).1) := by
  unfold Fmt.orient orient; split <;> split <;> simp

theorem iptsA_fmt {m : Mesh} (t o : ℕ) {ab ab' : ℕ × ℕ} (h : ab' = ab ∨ ab' = (ab.2, ab.1)) :
    List.Forall₂ LikePt (iptsA m t ab.1 ab.2 o) ((f.iptsA m t ab'.1 ab'.2 o).map FPt.ids) := by
  rcases h with rfl | rfl <;> simp [iptsA, mkIPt, Fmt.iptsA, Fmt.mkIPt, FPt.ids, LikePt]

theorem iptsB_fmt {m : Mesh} (t o : ℕ) {ab ab' : ℕ × ℕ} (h : ab' = ab ∨ ab' = (ab.2, ab.1)) :
    List.Forall₂ LikePt (iptsB m t ab.1 ab.2 o) ((f.iptsB m t ab'.1 ab'.2 o).map FPt.ids) := by
  rcases h with rfl | rfl <;> simp [iptsB, mkIPt, Fmt.iptsB, Fmt.mkIPt, FPt.ids, LikePt]

theorem iptsI_fmt {m : Mesh} (t o : ℕ) {ab ab' : ℕ × ℕ} (h : ab' = ab ∨ ab' = (ab.2, ab.1)) :
    List.Forall₂ LikePt (iptsI m t ab.1 ab.2 o) ((f.iptsI m t ab'.1 ab'.2 o).map FPt.ids) := by
  rcases h with rfl | rfl <;> simp [iptsI, mkIPt, Fmt.iptsI, Fmt.mkIPt, FPt.ids, LikePt]

/-- the numbers `g` belong to the edge `e`: integration points on the same nodes -/
structure GeoLike (e : Edge) (g : Geo) : Prop where
  ipts : List.Forall₂ LikePt e.ipts (g.ipts.map FPt.ids)
  Ac : ∃ a, e.Ac = some a

/-- an edge left by `calc_k0` and the numbers computed for it -/
theorem geo_like {m : Mesh} {e : Edge} (h : geomEdge m e = (e, none)) : GeoLike e (f.geo m e) := by
  unfold geomEdge at h
  split at h
  · rename_i t1 ht
    split at h
    · exact absurd (congrArg Prod.snd h) (by simp)
    rename_i o1 ho
    split at h
    swap
    · exact absurd (congrArg Prod.snd h) (by simp)
    have he := congrArg Prod.fst h
    dsimp only at he
    have h1 : e.other1 = some o1 := by rw [← he]; rfl
    have h2 : e.ipts = iptsA m t1 (orient m (m.mid t1) e.n1 e.n2).1 (orient m (m.mid t1) e.n1 e.n2).2 o1 ++
      iptsB m t1 (orient m (m.mid t1) e.n1 e.n2).1 (orient m (m.mid t1) e.n1 e.n2).2 o1 := by rw [← he]; rfl
    refine ⟨?_, ⟨_, by rw [← he]; rfl⟩⟩
    unfold Fmt.geo
    rw [ht, h1, h2]
    dsimp only
    rw [List.map_append]
    have hor := orient_fmt f m (f.mid m t1) (m.mid t1) e.n1 e.n2
    exact List.rel_append (iptsA_fmt f t1 o1 hor) (iptsB_fmt f t1 o1 hor)
  · rename_i t1 t2 ht
    split at h
    swap
    · exact absurd (congrArg Prod.snd h) (by simp)
    rename_i o1 o2 ho1 ho2
    split at h
    swap
    · exact absurd (congrArg Prod.snd h) (by simp)
    dsimp only at h
    split at h
    swap
    · exact absurd (congrArg Prod.snd h) (by simp)
    have he := congrArg Prod.fst h
    dsimp only at he
    have h1 : e.other1 = some o1 := by rw [← he]; rfl
    have h1' : e.other2 = some o2 := by rw [← he]; rfl
    have h2 : e.ipts = iptsA m t1 (orient m (m.mid t1) e.n1 e.n2).1 (orient m (m.mid t1) e.n1 e.n2).2 o1 ++
      iptsI m t2 (orient m (m.mid t1) e.n1 e.n2).1 (orient m (m.mid t1) e.n1 e.n2).2 o2 := by rw [← he]; rfl
    refine ⟨?_, ⟨_, by rw [← he]; rfl⟩⟩
    unfold Fmt.geo
    rw [ht, h1, h1', h2]
    dsimp only
    rw [List.map_append]
    have hor := orient_fmt f m (f.mid m t1) (m.mid t1) e.n1 e.n2
    exact List.rel_append (iptsA_fmt f t1 o1 hor) (iptsI_fmt f t2 o2 hor)
  · exact absurd (congrArg Prod.snd h) (by simp)

theorem edgeProp_fmt {m : Mesh} (pn : Bool) {e : Edge} (h : ∃ a, e.Ac = some a) (A : Flo)
    (sel : Lam → Fin 3 → Fin 3 → ℝ) : SameOutcome (edgeProp m pn e sel) (f.edgeProp m pn e A sel) := by
  obtain ⟨a, h⟩ := h
  unfold Rounding.SameOutcome edgeProp Fmt.edgeProp
  cases pn
  · simp only [Bool.false_eq_true, if_false]
    rcases (m.tria _).prop with _ | p
    · rfl
    rcases e.trias[1]? with _ | t2
    · rfl
    dsimp only
    rcases (m.tria t2).prop with _ | q
    · rfl
    rw [h]
    rfl
  · simp only [if_true]
    rcases e.other1 with _ | o1
    · rfl
    dsimp only
    rcases (m.node e.n1).prop with _ | p
    · rfl
    rcases (m.node e.n2).prop with _ | q
    · rfl
    rcases (m.node o1).prop with _ | r
    · rfl
    rcases e.trias[1]? with _ | t2
    · rfl
    rcases e.other2 with _ | o2
    · rfl
    dsimp only
    rcases (m.node o2).prop with _ | s <;> rfl

/-- the same exception, or success with the same node indices and the area of `g` -/
theorem k0Env_fmt {m : Mesh} (pn : Bool) {e : Edge} {g : Geo} (h : GeoLike e g) :
    (f.k0Env m pn e g).map (·.map fun _ => Nil.mk) = (k0Env m pn e).map (·.map fun _ => Nil.mk) ∧
    ∀ E, f.k0Env m pn e g = .ok E → E.Ac = g.Ac := by
  have hA := (edgeProp_fmt f (m := m) pn h.Ac g.Ac Lam.A).cases
  have hB := (edgeProp_fmt f (m := m) pn h.Ac g.Ac Lam.B).cases
  have hD := (edgeProp_fmt f (m := m) pn h.Ac g.Ac Lam.D).cases
  have hlen : g.ipts.length = e.ipts.length := by simpa using h.ipts.length_eq.symm
  unfold k0Env Fmt.k0Env
  rw [iptsIndexed_like rfl h.ipts, iptIndices_like h.ipts, hlen]
  split
  · exact ⟨rfl, fun E hE => by cases hE⟩
  split
  · exact ⟨rfl, fun E hE => by cases hE⟩
  split
  · exact ⟨rfl, fun E hE => by cases hE⟩
  dsimp only
  generalize (if e.ipts.length = 3 then iptIndices (nodeIdx m) e.ipts ++ [-1] else iptIndices (nodeIdx m) e.ipts) = ix
  rcases ix with _ | ⟨i1, _ | ⟨i2, _ | ⟨i3, _ | ⟨i4, _ | ⟨i5, l⟩⟩⟩⟩⟩
  · exact ⟨rfl, fun E hE => by cases hE⟩
  · exact ⟨rfl, fun E hE => by cases hE⟩
  · exact ⟨rfl, fun E hE => by cases hE⟩
  · exact ⟨rfl, fun E hE => by cases hE⟩
  · dsimp only
    obtain ⟨a, ha1⟩ := h.Ac
    rw [ha1]
    rcases hb : g.ipts with _ | ⟨q1, _ | ⟨q2, _ | ⟨q3, lq⟩⟩⟩ <;> rcases ha : e.ipts with _ | ⟨p1, _ | ⟨p2, _ | ⟨p3, lp⟩⟩⟩ <;>
      rw [ha, hb] at hlen <;> first | exact ⟨rfl, fun E hE => by cases hE⟩ | (exfalso; simp at hlen; done) | skip
    dsimp only
    rcases hA with ⟨A, A', e1, e2⟩ | ⟨e, e1, e2⟩ <;> rcases hB with ⟨B, B', f1, f2⟩ | ⟨e', f1, f2⟩ <;>
        rcases hD with ⟨D, D', g1, g2⟩ | ⟨e'', g1, g2⟩ <;> rw [e1, e2, f1, f2, g1, g2] <;>
        exact ⟨rfl, fun E hE => by cases hE <;> rfl⟩
  · exact ⟨rfl, fun E hE => by cases hE⟩

theorem kGEnv_fmt {m : Mesh} {d d' : List ℝ} (hl : d'.length = d.length) (pn : Bool) {e : Edge} {g : Geo} (h : GeoLike e g) :
    (f.kGEnv m d' pn e g).map (·.map fun _ => Nil.mk) = (kGEnv m d pn e).map (·.map fun _ => Nil.mk) ∧
    ∀ E, f.kGEnv m d' pn e g = .ok E → E.Ac = g.Ac := by
  have hA := (edgeProp_fmt f (m := m) pn h.Ac g.Ac Lam.A).cases
  have hB := (edgeProp_fmt f (m := m) pn h.Ac g.Ac Lam.B).cases
  have hs : ∀ i, (dSlice d' i).length = (dSlice d i).length := by intro i; simp [dSlice, hl]
  have hlen : g.ipts.length = e.ipts.length := by simpa using h.ipts.length_eq.symm
  unfold kGEnv Fmt.kGEnv
  rw [iptsIndexed_like rfl h.ipts, iptIndices_like h.ipts, hlen]
  split
  · exact ⟨rfl, fun E hE => by cases hE⟩
  split
  · exact ⟨rfl, fun E hE => by cases hE⟩
  split
  · exact ⟨rfl, fun E hE => by cases hE⟩
  dsimp only
  generalize (if e.ipts.length = 3 then iptIndices (nodeIdx m) e.ipts ++ [0] else iptIndices (nodeIdx m) e.ipts) = ix
  rcases ix with _ | ⟨i1, _ | ⟨i2, _ | ⟨i3, _ | ⟨i4, _ | ⟨i5, l⟩⟩⟩⟩⟩
  · exact ⟨rfl, fun E hE => by cases hE⟩
  · exact ⟨rfl, fun E hE => by cases hE⟩
  · exact ⟨rfl, fun E hE => by cases hE⟩
  · exact ⟨rfl, fun E hE => by cases hE⟩
  · dsimp only
    simp only [hs]
    obtain ⟨a, ha1⟩ := h.Ac
    rw [ha1]
    rcases hb : g.ipts with _ | ⟨q1, _ | ⟨q2, _ | ⟨q3, lq⟩⟩⟩ <;> rcases ha : e.ipts with _ | ⟨p1, _ | ⟨p2, _ | ⟨p3, lp⟩⟩⟩ <;>
      rw [ha, hb] at hlen <;> first | exact ⟨rfl, fun E hE => by cases hE⟩ | (exfalso; simp at hlen; done) | skip
    dsimp only
    rcases hA with ⟨A, A', e1, e2⟩ | ⟨e, e1, e2⟩ <;> rcases hB with ⟨B, B', f1, f2⟩ | ⟨e', f1, f2⟩ <;>
        rw [e1, e2, f1, f2] <;> first | exact ⟨rfl, fun E hE => by cases hE⟩ | skip
    dsimp only
    split
    · exact ⟨rfl, fun E hE => by cases hE <;> rfl⟩
    · split <;> exact ⟨rfl, fun E hE => by cases hE⟩
  · exact ⟨rfl, fun E hE => by cases hE⟩

variable {f}

theorem addAt_fmt {M : Mat} {M' : FMat} (hd : M'.dim = M.dim) (r c : ℤ) (v : ℝ) (v' : Flo) :
    (∃ N N', M.addAt r c v = .ok N ∧ f.addAt M' r c v' = .ok N' ∧ N'.dim = N.dim) ∨
    (M.addAt r c v = .error .indexError ∧ f.addAt M' r c v' = .error .indexError) := by
  unfold Fmt.addAt Mat.addAt
  rw [hd]
  rcases pyIdx M.dim r with _ | i
  · exact Or.inr ⟨rfl, rfl⟩
  rcases pyIdx M.dim c with _ | j
  · exact Or.inr ⟨rfl, rfl⟩
  exact Or.inl ⟨_, _, rfl, rfl, hd⟩

theorem addAll_fmt : ∀ (es : List (ℤ × ℤ × ℝ)) (es' : List (ℤ × ℤ × Fo f)) {M : Mat} {M' : FMat}, M'.dim = M.dim → es'.map pos2 = es.map pos2 →
    (f.addAll M' es').2 = (M.addAll es).2 ∧ (f.addAll M' es').1.dim = (M.addAll es).1.dim := by
  intro es
  induction es with
  | nil =>
    intro es' M M' hd hp
    simp only [List.map_nil, List.map_eq_nil_iff] at hp
    subst hp
    exact ⟨rfl, hd⟩
  | cons e es ih =>
    intro es' M M' hd hp
    rcases es' with _ | ⟨e', es'⟩
    · simp at hp
    obtain ⟨r, c, v⟩ := e
    obtain ⟨r', c', v'⟩ := e'
    simp only [List.map_cons, List.cons.injEq, pos2, Prod.mk.injEq] at hp
    obtain ⟨⟨rfl, rfl⟩, hp⟩ := hp
    simp only [Fmt.addAll, Mat.addAll]
    rcases addAt_fmt (f := f) hd r' c' v v' with ⟨N, N', h1, h2, h3⟩ | ⟨h1, h2⟩
    · rw [h1, h2]; exact ih es' h3 hp
    · rw [h1, h2]; exact ⟨rfl, hd⟩

theorem loop_fmt {α : Type} {p : Mat → α → Mat × Option Err} {g : FMat → α → FMat × Option Err} : ∀ (l : List α) {K : Mat} {K' : FMat}, K'.dim = K.dim →
    (∀ a ∈ l, ∀ (M : Mat) (M' : FMat), M'.dim = M.dim → (g M' a).2 = (p M a).2 ∧ (g M' a).1.dim = (p M a).1.dim) →
    (Fmt.loop g K' l).2 = (matLoop p K l).2 ∧ (Fmt.loop g K' l).1.dim = (matLoop p K l).1.dim := by
  intro l
  induction l with
  | nil => intro K K' hd _; exact ⟨rfl, hd⟩
  | cons a l ih =>
    intro K K' hd h
    obtain ⟨h1, h2⟩ := h a (by simp) K K' hd
    simp only [matLoop, Fmt.loop]
    rcases hg : g K' a with ⟨N', o'⟩
    rcases hf : p K a with ⟨N, o⟩
    rw [hg, hf] at h1 h2
    dsimp only at h1 h2
    subst h1
    rcases o' with _ | e
    · exact ih h2 fun b hb => h b (by simp [hb])
    · exact ⟨rfl, h2⟩

theorem k0Edge_fmt {m : Mesh} {g : Key → Geo} (pn : Bool) {k : Key} (h : GeoLike (m.edge k) (g k)) {M : Mat} {M' : FMat} (hd : M'.dim = M.dim) :
    (f.k0Edge m g pn M' k).2 = (k0Edge m pn M k).2 ∧ (f.k0Edge m g pn M' k).1.dim = (k0Edge m pn M k).1.dim := by
  have he := (k0Env_fmt f (m := m) pn h).1
  unfold Fmt.k0Edge k0Edge
  rcases h1 : k0Env m pn (m.edge k) with x | env <;> rcases h2 : f.k0Env m pn (m.edge k) (g k) with x' | env' <;>
    rw [h1, h2] at he <;> simp only [Except.map, Except.error.injEq, Except.ok.injEq, reduceCtorEq] at he
  · subst he; exact ⟨rfl, hd⟩
  · dsimp only
    have hp : (k0Entries (K := Fo f) env').map pos2 = (k0Entries env).map pos2 :=
      (k0Entries_at (K := Fo f) env').trans ((congrArg (fun e => (k0Entries e).map pos2) he).trans (k0Entries_at env).symm)
    generalize k0Entries (K := Fo f) env' = l' at hp ⊢
    generalize k0Entries env = l at hp ⊢
    exact addAll_fmt l l' hd hp

theorem kGEdge_fmt {m : Mesh} {g : Key → Geo} {d d' : List ℝ} (hl : d'.length = d.length) (pn : Bool) {k : Key} (h : GeoLike (m.edge k) (g k)) {M : Mat} {M' : FMat}
    (hd : M'.dim = M.dim) :
    (f.kGEdge m g d' pn M' k).2 = (kGEdge m d pn M k).2 ∧ (f.kGEdge m g d' pn M' k).1.dim = (kGEdge m d pn M k).1.dim := by
  have he := (kGEnv_fmt f (m := m) hl pn h).1
  unfold Fmt.kGEdge kGEdge
  rcases h1 : kGEnv m d pn (m.edge k) with x | env <;> rcases h2 : f.kGEnv m d' pn (m.edge k) (g k) with x' | env' <;>
    rw [h1, h2] at he <;> simp only [Except.map, Except.error.injEq, Except.ok.injEq, reduceCtorEq] at he
  · subst he; exact ⟨rfl, hd⟩
  · dsimp only
    have hp : (kGEntries (K := Fo f) env').map pos2 = (kGEntries env).map pos2 :=
      (kGEntries_at (K := Fo f) env').trans ((congrArg (fun e => (kGEntries e).map pos2) he).trans (kGEntries_at env).symm)
    generalize kGEntries (K := Fo f) env' = l' at hp ⊢
    generalize kGEntries env = l at hp ⊢
    exact addAll_fmt l l' hd hp

end Meshless
