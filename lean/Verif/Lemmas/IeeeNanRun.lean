import Verif.Lemmas.IeeeNanK0
import Verif.Lemmas.IeeeNanKG
import Verif.Lemmas.IeeeLikeS
import Verif.Lemmas.EdgeShape
import Verif.Lemmas.K0Edge
import Verif.Spec.Ieee

/-! NaN increments spoil the entries they are added to, and later additions keep them so. -/

set_option autoImplicit false

namespace Meshless
open Spec

variable {f : Fmt}

/-- entry (i, j) is NaN -/
def NanAt (i j : ℕ) (M : FMat) : Prop := M.get i j = .nan

theorem nanAt_bump {i j : ℕ} {M : FMat} (h : NanAt i j M) (r c : ℕ) (v : Flo) : NanAt i j (f.bump M r c v) := by
  unfold NanAt Fmt.bump at *
  dsimp only
  split
  · rename_i hij
    rw [h, f.add_nan_left]
  · exact h

theorem nanAt_addAll {i j : ℕ} : ∀ (es : List (ℤ × ℤ × Fo f)) {M : FMat}, NanAt i j M → NanAt i j (f.addAll M es).1 := by
  intro es
  induction es with
  | nil => intro M h; exact h
  | cons e es ih =>
    obtain ⟨r, c, v⟩ := e
    intro M h
    simp only [Fmt.addAll]
    unfold Fmt.addAt
    rcases pyIdx M.dim r with _ | a
    · exact h
    rcases pyIdx M.dim c with _ | b
    · exact h
    exact ih (nanAt_bump h a b v)

theorem nanAt_added {i j : ℕ} : ∀ (es : List (ℤ × ℤ × Fo f)) {M : FMat} {r c : ℤ}, (r, c, (Flo.nan : Fo f)) ∈ es → pyIdx M.dim r = some i →
    pyIdx M.dim c = some j → (f.addAll M es).2 = none → NanAt i j (f.addAll M es).1 := by
  intro es
  induction es with
  | nil => intro M r c h; cases h
  | cons e es ih =>
    obtain ⟨r', c', v⟩ := e
    intro M r c h hr hc hn
    simp only [Fmt.addAll] at hn ⊢
    unfold Fmt.addAt at hn ⊢
    rcases h1 : pyIdx M.dim r' with _ | a
    · rw [h1] at hn; cases hn
    rcases h2 : pyIdx M.dim c' with _ | b
    · rw [h1, h2] at hn; cases hn
    rw [h1, h2] at hn
    dsimp only at hn ⊢
    rcases List.mem_cons.1 h with h | h
    · cases h
      rw [hr] at h1; rw [hc] at h2
      obtain rfl := Option.some.inj h1
      obtain rfl := Option.some.inj h2
      refine nanAt_addAll es ?_
      unfold NanAt Fmt.bump
      dsimp only
      rw [if_pos ⟨rfl, rfl⟩]
      exact f.add_nan_right _
    · exact ih h hr hc hn

theorem nanAt_loop {α : Type} {g : FMat → α → FMat × Option Err} {i j : ℕ} (hg : ∀ M a, NanAt i j M → NanAt i j (g M a).1) : ∀ (l : List α) {K : FMat},
    NanAt i j K → NanAt i j (Fmt.loop g K l).1 := by
  intro l
  induction l with
  | nil => intro K h; exact h
  | cons a l ih =>
    intro K h
    simp only [Fmt.loop]
    have := hg K a h
    rcases hh : g K a with ⟨N, o⟩
    rw [hh] at this
    rcases o with _ | e
    · exact ih this
    · exact this

/-- one step makes the entry NaN, the others keep it so -/
theorem nanAt_loop_mem {α : Type} {g : FMat → α → FMat × Option Err} {i j : ℕ} (hg : ∀ M a, NanAt i j M → NanAt i j (g M a).1) {n : ℕ}
    (hdim : ∀ M a, (g M a).1.dim = M.dim) {a : α} (ha : ∀ M : FMat, M.dim = n → (g M a).2 = none → NanAt i j (g M a).1) : ∀ (l : List α) {K : FMat}, K.dim = n → a ∈ l →
    (Fmt.loop g K l).2 = none → NanAt i j (Fmt.loop g K l).1 := by
  intro l
  induction l with
  | nil => intro K _ h; simp at h
  | cons b l ih =>
    intro K hd h hn
    simp only [Fmt.loop] at hn ⊢
    have h1 := hdim K b
    have h2 := fun e : a = b => e ▸ ha K hd
    rcases hh : g K b with ⟨N, o⟩
    rw [hh] at h1 h2 hn
    rcases o with _ | e
    · dsimp only at h1 h2 hn ⊢
      rcases List.mem_cons.1 h with rfl | h
      · have h3 := ha K hd
        rw [hh] at h3
        exact nanAt_loop hg l (h3 rfl)
      · exact ih (h1.trans hd) h hn
    · cases hn

theorem nanAt_k0Edge {m : Mesh} {g : Key → Geo} {pn : Bool} {i j : ℕ} (M : FMat) (k : Key) (h : NanAt i j M) : NanAt i j (f.k0Edge m g pn M k).1 := by
  unfold Fmt.k0Edge
  split
  · exact h
  · exact nanAt_addAll _ h

theorem nanAt_kGEdge {m : Mesh} {g : Key → Geo} {d : List ℝ} {pn : Bool} {i j : ℕ} (M : FMat) (k : Key) (h : NanAt i j M) : NanAt i j (f.kGEdge m g d pn M k).1 := by
  unfold Fmt.kGEdge
  split
  · exact h
  · exact nanAt_addAll _ h

theorem k0Edge_dim_fmt {m : Mesh} {g : Key → Geo} {pn : Bool} (M : FMat) (k : Key) : (f.k0Edge m g pn M k).1.dim = M.dim := by
  unfold Fmt.k0Edge
  split
  · rfl
  · exact (addAll_err_fmt _ _).1

theorem kGEdge_dim_fmt {m : Mesh} {g : Key → Geo} {d : List ℝ} {pn : Bool} (M : FMat) (k : Key) : (f.kGEdge m g d pn M k).1.dim = M.dim := by
  unfold Fmt.kGEdge
  split
  · rfl
  · exact (addAll_err_fmt _ _).1

theorem nanAt_addK0s {m : Mesh} {g : Key → Geo} {pn : Bool} {method : String} {al : ℝ} {fa : Bool} {i j : ℕ} {K : FMat} (h : NanAt i j K) :
    NanAt i j (f.addK0s K m g pn method al fa).1 := by
  unfold Fmt.addK0s
  split
  · refine nanAt_loop (fun M e h => ?_) _ h
    unfold Fmt.cellSTria
    split
    · exact h
    · exact nanAt_addAll _ h
  split
  · refine nanAt_loop (fun M e h => ?_) _ h
    unfold Fmt.cellNSTria
    split
    · exact h
    · exact nanAt_addAll _ h
  split
  · refine nanAt_loop (fun M e h => ?_) _ h
    unfold Fmt.edgeSEdge
    dsimp only
    split
    · exact h
    · split
      · exact h
      · exact nanAt_addAll _ h
    · split
      · exact h
      · exact nanAt_addAll _ h
    · exact h
  · exact h

/-- the rows of the u, v, phix, phiy freedoms -/
def rowsK (l : List ℤ) : List ℤ := l.flatMap fun i => [i * 5 + 0, i * 5 + 1, i * 5 + 3, i * 5 + 4]

section
variable (e : K0Env Nil)
private theorem k0_i1_0_row : (k0_i1_0 e).map pos2 = (rowsK [e.i1, e.i2, e.i3, e.i4]).map (Prod.mk (e.i1 * 5 + 0)) := rfl
private theorem k0_i1_1_row : (k0_i1_1 e).map pos2 = (rowsK [e.i1, e.i2, e.i3, e.i4]).map (Prod.mk (e.i1 * 5 + 1)) := rfl
private theorem k0_i1_3_row : (k0_i1_3 e).map pos2 = (rowsK [e.i1, e.i2, e.i3, e.i4]).map (Prod.mk (e.i1 * 5 + 3)) := rfl
private theorem k0_i1_4_row : (k0_i1_4 e).map pos2 = (rowsK [e.i1, e.i2, e.i3, e.i4]).map (Prod.mk (e.i1 * 5 + 4)) := rfl
private theorem k0_i2_0_row : (k0_i2_0 e).map pos2 = (rowsK [e.i1, e.i2, e.i3, e.i4]).map (Prod.mk (e.i2 * 5 + 0)) := rfl
private theorem k0_i2_1_row : (k0_i2_1 e).map pos2 = (rowsK [e.i1, e.i2, e.i3, e.i4]).map (Prod.mk (e.i2 * 5 + 1)) := rfl
private theorem k0_i2_3_row : (k0_i2_3 e).map pos2 = (rowsK [e.i1, e.i2, e.i3, e.i4]).map (Prod.mk (e.i2 * 5 + 3)) := rfl
private theorem k0_i2_4_row : (k0_i2_4 e).map pos2 = (rowsK [e.i1, e.i2, e.i3, e.i4]).map (Prod.mk (e.i2 * 5 + 4)) := rfl
private theorem k0_i3_0_row : (k0_i3_0 e).map pos2 = (rowsK [e.i1, e.i2, e.i3, e.i4]).map (Prod.mk (e.i3 * 5 + 0)) := rfl
private theorem k0_i3_1_row : (k0_i3_1 e).map pos2 = (rowsK [e.i1, e.i2, e.i3, e.i4]).map (Prod.mk (e.i3 * 5 + 1)) := rfl
private theorem k0_i3_3_row : (k0_i3_3 e).map pos2 = (rowsK [e.i1, e.i2, e.i3, e.i4]).map (Prod.mk (e.i3 * 5 + 3)) := rfl
private theorem k0_i3_4_row : (k0_i3_4 e).map pos2 = (rowsK [e.i1, e.i2, e.i3, e.i4]).map (Prod.mk (e.i3 * 5 + 4)) := rfl
private theorem k0_i4_0_row : (k0_i4_0 e).map pos2 = (rowsK [e.i1, e.i2, e.i3, e.i4]).map (Prod.mk (e.i4 * 5 + 0)) := rfl
private theorem k0_i4_1_row : (k0_i4_1 e).map pos2 = (rowsK [e.i1, e.i2, e.i3, e.i4]).map (Prod.mk (e.i4 * 5 + 1)) := rfl
private theorem k0_i4_3_row : (k0_i4_3 e).map pos2 = (rowsK [e.i1, e.i2, e.i3, e.i4]).map (Prod.mk (e.i4 * 5 + 3)) := rfl
private theorem k0_i4_4_row : (k0_i4_4 e).map pos2 = (rowsK [e.i1, e.i2, e.i3, e.i4]).map (Prod.mk (e.i4 * 5 + 4)) := rfl
theorem k0_prod : (k0Entries e).map pos2 = prodPos (rowsK [e.i1, e.i2, e.i3, e.i4]) := by
  have h : prodPos (rowsK [e.i1, e.i2, e.i3, e.i4]) = ([e.i1, e.i2, e.i3, e.i4].flatMap fun i => [i * 5 + 0, i * 5 + 1, i * 5 + 3, i * 5 + 4]).flatMap
      fun r => (rowsK [e.i1, e.i2, e.i3, e.i4]).map (Prod.mk r) := rfl
  rw [h]
  unfold k0Entries
  simp only [List.map_append, k0_i1_0_row, k0_i1_1_row, k0_i1_3_row, k0_i1_4_row, k0_i2_0_row, k0_i2_1_row, k0_i2_3_row, k0_i2_4_row, k0_i3_0_row, k0_i3_1_row, k0_i3_3_row, k0_i3_4_row, k0_i4_0_row, k0_i4_1_row, k0_i4_3_row, k0_i4_4_row]
  generalize rowsK [e.i1, e.i2, e.i3, e.i4] = l
  simp only [List.flatMap_cons, List.flatMap_nil, List.append_nil, List.cons_append, List.nil_append, List.append_assoc]
end
theorem kG_prod (e : KGEnv Nil) : (kGEntries e).map pos2 = prodPos ([e.i1, e.i2, e.i3, e.i4].map fun i => i * 5 + 2) := rfl

theorem mem_iptIndices {idx : ℕ → ℤ} {l : List IPt} {x : ℤ} : x ∈ iptIndices idx l ↔ ∃ p ∈ l, x = idx p.n1 ∨ x = idx p.n2 ∨ x = idx p.n3 := by
  unfold iptIndices
  simp [List.mem_insertionSort, List.mem_dedup]

theorem not_usable {a : Flo} (h : ¬ Usable a) : a.Zn ∨ a.Bad := by
  rcases a with x | t | _
  · simp only [Usable, not_not] at h
    subst h; exact Or.inl rfl
  · exact Or.inr (by simp [Flo.Bad])
  · exact Or.inr (by simp [Flo.Bad])

theorem k0Env_ix {m : Mesh} {pn : Bool} {ed : Edge} {g : Geo} {E : K0Env Flo} (h : f.k0Env m pn ed g = .ok E) :
    [E.i1, E.i2, E.i3, E.i4] = if g.ipts.length = 3 then iptIndices (nodeIdx m) (g.ipts.map FPt.ids) ++ [-1] else iptIndices (nodeIdx m) (g.ipts.map FPt.ids) := by
  unfold Fmt.k0Env at h
  split at h
  · cases h
  split at h
  · cases h
  split at h
  · cases h
  dsimp only at h
  generalize (if g.ipts.length = 3 then iptIndices (nodeIdx m) (g.ipts.map FPt.ids) ++ [-1] else iptIndices (nodeIdx m) (g.ipts.map FPt.ids)) = ix at h ⊢
  split at h
  · split at h
    · split at h
      · obtain rfl := Except.ok.inj h; rfl
      all_goals cases h
    · cases h
  · cases h

theorem kGEnv_ix {m : Mesh} {d : List ℝ} {pn : Bool} {ed : Edge} {g : Geo} {E : KGEnv Flo} (h : f.kGEnv m d pn ed g = .ok E) :
    [E.i1, E.i2, E.i3, E.i4] = if g.ipts.length = 3 then iptIndices (nodeIdx m) (g.ipts.map FPt.ids) ++ [0] else iptIndices (nodeIdx m) (g.ipts.map FPt.ids) := by
  unfold Fmt.kGEnv at h
  split at h
  · cases h
  split at h
  · cases h
  split at h
  · cases h
  dsimp only at h
  generalize (if g.ipts.length = 3 then iptIndices (nodeIdx m) (g.ipts.map FPt.ids) ++ [0] else iptIndices (nodeIdx m) (g.ipts.map FPt.ids)) = ix at h ⊢
  split at h
  · split at h
    · split at h
      · split at h
        · obtain rfl := Except.ok.inj h; rfl
        · split at h <;> cases h
      all_goals cases h
    · cases h
  · cases h

section
variable (f) {m : Mesh} (w : WF m) (hp : Proper m) (hq : Prepared m) {k : Key} (hk : k ∈ m.ekeys)
include w hp hq hk

theorem geo_corner {i : ℕ} (hi : AtEdge m k i) : nodeIdx m i ∈ iptIndices (nodeIdx m) ((f.geo m (m.edge k)).ipts.map FPt.ids) := by
  obtain ⟨t, ht, hc⟩ := hi
  rw [mem_iptIndices]
  rcases prepared_shape w hp hq hk with ⟨t', o, he, hs⟩ | ⟨t1, t2, o1, o2, he, hs1, hs2, _, _⟩
  · rw [he] at ht ⊢
    have ht : t = t' := by simpa [bEdge] using ht
    subst ht
    refine ⟨((f.iptsA m t (f.orient m (f.mid m t) k.1 k.2).1 (f.orient m (f.mid m t) k.1 k.2).2 o)[0]'(by simp [Fmt.iptsA])).ids, ?_, ?_⟩
    · simp [Fmt.geo, bEdge, Fmt.iptsA]
    · have : f.orient m (f.mid m t) k.1 k.2 = (k.1, k.2) ∨ f.orient m (f.mid m t) k.1 k.2 = (k.2, k.1) := by unfold Fmt.orient; split <;> simp
      rcases this with h | h <;> rw [h] <;> rcases (hs.corner_iff i).1 hc with rfl | rfl | rfl <;> simp [Fmt.iptsA, Fmt.mkIPt, FPt.ids]
  · rw [he] at ht ⊢
    have hor : f.orient m (f.mid m t1) k.1 k.2 = (k.1, k.2) ∨ f.orient m (f.mid m t1) k.1 k.2 = (k.2, k.1) := by unfold Fmt.orient; split <;> simp
    have ht : t = t1 ∨ t = t2 := by simpa [iEdge] using ht
    rcases ht with rfl | rfl
    · refine ⟨((f.iptsA m t (f.orient m (f.mid m t) k.1 k.2).1 (f.orient m (f.mid m t) k.1 k.2).2 o1)[0]'(by simp [Fmt.iptsA])).ids, ?_, ?_⟩
      · simp [Fmt.geo, iEdge, Fmt.iptsA]
      · rcases hor with h | h <;> rw [h] <;> rcases (hs1.corner_iff i).1 hc with rfl | rfl | rfl <;> simp [Fmt.iptsA, Fmt.mkIPt, FPt.ids]
    · refine ⟨((f.iptsI m t (f.orient m (f.mid m t1) k.1 k.2).1 (f.orient m (f.mid m t1) k.1 k.2).2 o2)[0]'(by simp [Fmt.iptsI])).ids, ?_, ?_⟩
      · simp [Fmt.geo, iEdge, Fmt.iptsI]
      · rcases hor with h | h <;> rw [h] <;> rcases (hs2.corner_iff i).1 hc with rfl | rfl | rfl <;> simp [Fmt.iptsI, Fmt.mkIPt, FPt.ids]

theorem geo_pts3 (hb : OneTria m k) : (f.geo m (m.edge k)).ipts.length = 3 := by
  unfold OneTria at hb
  rcases prepared_shape w hp hq hk with ⟨t', o, he, hs⟩ | ⟨t1, t2, o1, o2, he, hs1, hs2, _, _⟩
  · rw [he]; simp [Fmt.geo, bEdge, Fmt.iptsA, Fmt.iptsB]
  · rw [he] at hb; simp [iEdge] at hb

omit w hp hk in
theorem corner_pos {i : ℕ} (hi : i ∈ m.nids) {r : ℕ} (hr : r < 5) : pyIdx (m.nids.length * 5) (nodeIdx m i * 5 + r) = some (5 * m.nids.idxOf i + r) := by
  rw [hq.nodeIdx' hi]
  have hlt := List.idxOf_lt_length_iff.2 hi
  have : ((m.nids.idxOf i : ℤ) * 5 + r) = ((5 * m.nids.idxOf i + r : ℕ) : ℤ) := by push_cast; ring
  rw [this]
  exact pyIdx_nonneg (by omega)

end

theorem Flo.Zn.areaTerm {a : Flo} (h : a.Zn) {p next prev : FVec} (hp : p.x.Zn ∨ (next.y.Zn ∧ prev.y.Zn)) : (f.areaTerm a p next prev).Zn := by
  unfold Fmt.areaTerm
  rcases hp with hp | ⟨h1, h2⟩
  · exact h.add hp.mul_left
  · exact h.add (h1.add h2.neg).mul_right

theorem Flo.Zn.half {a : Flo} (h : a.Zn) : (f.div a.abs (.fin 2)).Zn := h.abs.div

theorem zero_zn {x : ℝ} (h : x = 0) : (Flo.fin x).Zn := h

section
variable (f) {m : Mesh} (w : WF m) (hp : Proper m) (hq : Prepared m) {k : Key} (hk : k ∈ m.ekeys)
include w hp hq hk

theorem geo_onAxis (hx : OnAxis m k) : (f.geo m (m.edge k)).Ac.Zn := by
  have mx : ∀ t, (∀ i, IsCorner m t i → (m.pos i).x = 0) → (f.mid m t).x.Zn := by
    intro t h
    unfold Fmt.mid Vec3.flo
    exact (((zero_zn (h _ (by simp [IsCorner]))).add (zero_zn (h _ (by simp [IsCorner])))).add (zero_zn (h _ (by simp [IsCorner])))).div
  have my : ∀ t, (∀ i, IsCorner m t i → (m.pos i).y = 0) → (f.mid m t).y.Zn := by
    intro t h
    unfold Fmt.mid Vec3.flo
    exact (((zero_zn (h _ (by simp [IsCorner]))).add (zero_zn (h _ (by simp [IsCorner])))).add (zero_zn (h _ (by simp [IsCorner])))).div
  have z : (Flo.fin 0).Zn := rfl
  rcases prepared_shape w hp hq hk with ⟨t, o, he, hs⟩ | ⟨t1, t2, o1, o2, he, hs1, hs2, _, _⟩
  · have ht : (m.edge k).trias = [t] := by rw [he]; rfl
    have hc : ∀ i, IsCorner m t i → AtEdge m k i := fun i h => ⟨t, by rw [ht]; simp, h⟩
    have h1 := hc k.1 ((hs.corner_iff _).2 (by simp))
    have h2 := hc k.2 ((hs.corner_iff _).2 (by simp))
    have hor : f.orient m (f.mid m t) k.1 k.2 = (k.1, k.2) ∨ f.orient m (f.mid m t) k.1 k.2 = (k.2, k.1) := by unfold Fmt.orient; split <;> simp
    have hA : (f.geo m (m.edge k)).Ac = f.area4 (Fmt.xyz m (f.orient m (f.mid m t) k.1 k.2).1) (f.mid m t) (Fmt.xyz m (f.orient m (f.mid m t) k.1 k.2).2)
      (Fmt.xyz m (f.orient m (f.mid m t) k.1 k.2).1) := by rw [he]; rfl
    rw [hA]
    unfold Fmt.area4
    rcases hx with hx | hx
    · have q1 : (Fmt.xyz m k.1).x.Zn := zero_zn (hx _ h1).2
      have q2 : (Fmt.xyz m k.2).x.Zn := zero_zn (hx _ h2).2
      have q3 := mx t fun i hi => (hx i (hc i hi)).1
      rcases hor with h | h <;> rw [h]
      · exact ((((z.areaTerm (Or.inl q1)).areaTerm (Or.inl q1)).areaTerm (Or.inl q3)).areaTerm (Or.inl q2)).half
      · exact ((((z.areaTerm (Or.inl q2)).areaTerm (Or.inl q2)).areaTerm (Or.inl q3)).areaTerm (Or.inl q1)).half
    · have q1 : (Fmt.xyz m k.1).y.Zn := zero_zn (hx _ h1).2
      have q2 : (Fmt.xyz m k.2).y.Zn := zero_zn (hx _ h2).2
      have q3 := my t fun i hi => (hx i (hc i hi)).1
      rcases hor with h | h <;> rw [h]
      · exact ((((z.areaTerm (Or.inr ⟨q1, q2⟩)).areaTerm (Or.inr ⟨q3, q1⟩)).areaTerm (Or.inr ⟨q2, q1⟩)).areaTerm (Or.inr ⟨q1, q3⟩)).half
      · exact ((((z.areaTerm (Or.inr ⟨q2, q1⟩)).areaTerm (Or.inr ⟨q3, q2⟩)).areaTerm (Or.inr ⟨q1, q2⟩)).areaTerm (Or.inr ⟨q2, q3⟩)).half
  · have ht : (m.edge k).trias = [t1, t2] := by rw [he]; rfl
    have hc1 : ∀ i, IsCorner m t1 i → AtEdge m k i := fun i h => ⟨t1, by rw [ht]; simp, h⟩
    have hc2 : ∀ i, IsCorner m t2 i → AtEdge m k i := fun i h => ⟨t2, by rw [ht]; simp, h⟩
    have h1 := hc1 k.1 ((hs1.corner_iff _).2 (by simp))
    have h2 := hc1 k.2 ((hs1.corner_iff _).2 (by simp))
    have hor : f.orient m (f.mid m t1) k.1 k.2 = (k.1, k.2) ∨ f.orient m (f.mid m t1) k.1 k.2 = (k.2, k.1) := by unfold Fmt.orient; split <;> simp
    have hA : (f.geo m (m.edge k)).Ac = f.area5 (Fmt.xyz m (f.orient m (f.mid m t1) k.1 k.2).1) (f.mid m t1) (Fmt.xyz m (f.orient m (f.mid m t1) k.1 k.2).2)
      (f.mid m t2) (Fmt.xyz m (f.orient m (f.mid m t1) k.1 k.2).1) := by rw [he]; rfl
    rw [hA]
    unfold Fmt.area5
    rcases hx with hx | hx
    · have q1 : (Fmt.xyz m k.1).x.Zn := zero_zn (hx _ h1).2
      have q2 : (Fmt.xyz m k.2).x.Zn := zero_zn (hx _ h2).2
      have q3 := mx t1 fun i hi => (hx i (hc1 i hi)).1
      have q4 := mx t2 fun i hi => (hx i (hc2 i hi)).1
      rcases hor with h | h <;> rw [h]
      · exact (((((z.areaTerm (Or.inl q1)).areaTerm (Or.inl q1)).areaTerm (Or.inl q3)).areaTerm (Or.inl q2)).areaTerm (Or.inl q4)).half
      · exact (((((z.areaTerm (Or.inl q2)).areaTerm (Or.inl q2)).areaTerm (Or.inl q3)).areaTerm (Or.inl q1)).areaTerm (Or.inl q4)).half
    · have q1 : (Fmt.xyz m k.1).y.Zn := zero_zn (hx _ h1).2
      have q2 : (Fmt.xyz m k.2).y.Zn := zero_zn (hx _ h2).2
      have q3 := my t1 fun i hi => (hx i (hc1 i hi)).1
      have q4 := my t2 fun i hi => (hx i (hc2 i hi)).1
      rcases hor with h | h <;> rw [h]
      · exact (((((z.areaTerm (Or.inr ⟨q1, q4⟩)).areaTerm (Or.inr ⟨q3, q1⟩)).areaTerm (Or.inr ⟨q2, q1⟩)).areaTerm (Or.inr ⟨q4, q3⟩)).areaTerm (Or.inr ⟨q1, q2⟩)).half
      · exact (((((z.areaTerm (Or.inr ⟨q2, q4⟩)).areaTerm (Or.inr ⟨q3, q2⟩)).areaTerm (Or.inr ⟨q1, q2⟩)).areaTerm (Or.inr ⟨q4, q3⟩)).areaTerm (Or.inr ⟨q2, q1⟩)).half

/-- `x` is a fourth index of an edge as used by `calc_k0` (`pad` = -1) or `calc_kG` (`pad` = 0) -/
def IxOf (m : Mesh) (k : Key) (pad x : ℤ) : Prop := (∃ i, AtEdge m k i ∧ x = nodeIdx m i) ∨ OneTria m k ∧ x = pad

theorem k0Env_mem {pn : Bool} {E : K0Env Flo} (h : f.k0Env m pn (m.edge k) (f.geo m (m.edge k)) = .ok E) {x : ℤ} (hx : IxOf m k (-1) x) :
    x ∈ [E.i1, E.i2, E.i3, E.i4] := by
  rw [k0Env_ix h]
  rcases hx with ⟨i, hi, rfl⟩ | ⟨hb, rfl⟩
  · split
    · exact List.mem_append_left _ (geo_corner f w hp hq hk hi)
    · exact geo_corner f w hp hq hk hi
  · rw [if_pos (geo_pts3 f w hp hq hk hb)]; simp

theorem kGEnv_mem {pn : Bool} {d : List ℝ} {E : KGEnv Flo} (h : f.kGEnv m d pn (m.edge k) (f.geo m (m.edge k)) = .ok E) {x : ℤ} (hx : IxOf m k 0 x) :
    x ∈ [E.i1, E.i2, E.i3, E.i4] := by
  rw [kGEnv_ix h]
  rcases hx with ⟨i, hi, rfl⟩ | ⟨hb, rfl⟩
  · split
    · exact List.mem_append_left _ (geo_corner f w hp hq hk hi)
    · exact geo_corner f w hp hq hk hi
  · rw [if_pos (geo_pts3 f w hp hq hk hb)]; simp

theorem nanAt_k0Edge_new {pn : Bool} (hA : ¬ Usable (f.geo m (m.edge k)).Ac) {x y : ℤ} (hx : IxOf m k (-1) x) (hy : IxOf m k (-1) y) {r s : ℕ}
    (hr : r ∈ [0, 1, 3, 4]) (hs : s ∈ [0, 1, 3, 4]) {M : FMat} {i j : ℕ} (hi : pyIdx M.dim (x * 5 + r) = some i) (hj : pyIdx M.dim (y * 5 + s) = some j)
    (hn : (f.k0Edge m (fun k => f.geo m (m.edge k)) pn M k).2 = none) : NanAt i j (f.k0Edge m (fun k => f.geo m (m.edge k)) pn M k).1 := by
  have hAc := ((k0Env_fmt f (m := m) pn (geo_like f (hq.geom k hk))).2)
  unfold Fmt.k0Edge at hn ⊢
  dsimp only at hn ⊢
  rcases hE : f.k0Env m pn (m.edge k) (f.geo m (m.edge k)) with e | E
  · rw [hE] at hn; cases hn
  rw [hE] at hn
  dsimp only at hn ⊢
  have hx' := k0Env_mem f w hp hq hk hE hx
  have hy' := k0Env_mem f w hp hq hk hE hy
  have hnan : ∀ t ∈ k0Entries (K := Fo f) E, t.2.2 = Flo.nan := by
    rcases not_usable hA with h | h
    · exact k0Entries_zn E (by rw [hAc E hE]; exact h)
    · exact k0Entries_bad E (by rw [hAc E hE]; exact h)
  have hpos : (x * 5 + r, y * 5 + s) ∈ (k0Entries (K := Fo f) E).map pos2 := by
    rw [k0Entries_at (K := Fo f) E, k0_prod, mem_prodPos]
    have key : ∀ z : ℤ, z ∈ [E.i1, E.i2, E.i3, E.i4] → ∀ q ∈ [0, 1, 3, 4], z * 5 + ((q : ℕ) : ℤ) ∈ rowsK [E.i1, E.i2, E.i3, E.i4] := by
      intro z hz q hq
      refine List.mem_flatMap.2 ⟨z, hz, ?_⟩
      simp only [List.mem_cons, List.not_mem_nil, or_false] at hq
      rcases hq with rfl | rfl | rfl | rfl <;> simp
    exact ⟨key x hx' r hr, key y hy' s hs⟩
  obtain ⟨t, ht, hp2⟩ := List.mem_map.1 hpos
  obtain ⟨a, b, v⟩ := t
  have hv := hnan _ ht
  dsimp only at hv
  simp only [pos2, Prod.mk.injEq] at hp2
  obtain ⟨rfl, rfl⟩ := hp2
  subst hv
  exact nanAt_added _ ht hi hj hn

theorem nanAt_kGEdge_new {pn : Bool} {d : List ℝ} (hA : ¬ Usable (f.geo m (m.edge k)).Ac) {x y : ℤ} (hx : IxOf m k 0 x) (hy : IxOf m k 0 y)
    {M : FMat} {i j : ℕ} (hi : pyIdx M.dim (x * 5 + 2) = some i) (hj : pyIdx M.dim (y * 5 + 2) = some j)
    (hn : (f.kGEdge m (fun k => f.geo m (m.edge k)) d pn M k).2 = none) : NanAt i j (f.kGEdge m (fun k => f.geo m (m.edge k)) d pn M k).1 := by
  have hAc := ((kGEnv_fmt f (m := m) (d := d) (d' := d) rfl pn (geo_like f (hq.geom k hk))).2)
  unfold Fmt.kGEdge at hn ⊢
  dsimp only at hn ⊢
  rcases hE : f.kGEnv m d pn (m.edge k) (f.geo m (m.edge k)) with e | E
  · rw [hE] at hn; cases hn
  rw [hE] at hn
  dsimp only at hn ⊢
  have hx' := kGEnv_mem f w hp hq hk hE hx
  have hy' := kGEnv_mem f w hp hq hk hE hy
  have hnan : ∀ t ∈ kGEntries (K := Fo f) E, t.2.2 = Flo.nan := by
    rcases not_usable hA with h | h
    · exact kGEntries_zn E (by rw [hAc E hE]; exact h)
    · exact kGEntries_bad E (by rw [hAc E hE]; exact h)
  have hpos : (x * 5 + 2, y * 5 + 2) ∈ (kGEntries (K := Fo f) E).map pos2 := by
    rw [kGEntries_at (K := Fo f) E, kG_prod, mem_prodPos]
    exact ⟨List.mem_map.2 ⟨x, hx', rfl⟩, List.mem_map.2 ⟨y, hy', rfl⟩⟩
  obtain ⟨t, ht, hp2⟩ := List.mem_map.1 hpos
  obtain ⟨a, b, v⟩ := t
  have hv := hnan _ ht
  dsimp only at hv
  simp only [pos2, Prod.mk.injEq] at hp2
  obtain ⟨rfl, rfl⟩ := hp2
  subst hv
  exact nanAt_added _ ht hi hj hn

end

end Meshless
