import Verif.Lemmas.FloatPos
import Verif.Lemmas.FloatStatic
import Verif.Lemmas.FloatExact

/-! Two runs with different rounding rules: the meshes stay alike, i.e. equal except for the numbers stored on edges and for the order of the
two end nodes at an integration point. -/

set_option autoImplicit false

namespace Meshless

/-- same triangle, same opposite node, same two ends in either order -/
def LikePt (p q : IPt) : Prop := q.tria = p.tria ∧ q.n3 = p.n3 ∧ (q.n1 = p.n1 ∧ q.n2 = p.n2 ∨ q.n1 = p.n2 ∧ q.n2 = p.n1)

theorem LikePt.refl (p : IPt) : LikePt p p := ⟨rfl, rfl, Or.inl ⟨rfl, rfl⟩⟩

/-- the same edge up to numbers -/
structure LikeEdge (a b : Edge) : Prop where
  n1 : b.n1 = a.n1
  n2 : b.n2 = a.n2
  trias : b.trias = a.trias
  other1 : b.other1 = a.other1
  other2 : b.other2 = a.other2
  Ac : b.Ac.isSome = a.Ac.isSome
  ipts : List.Forall₂ LikePt a.ipts b.ipts

theorem LikeEdge.refl (a : Edge) : LikeEdge a a := ⟨rfl, rfl, rfl, rfl, rfl, rfl, List.forall₂_same.2 fun p _ => LikePt.refl p⟩

/-- the same mesh up to the numbers stored on edges -/
structure LikeMesh (m m' : Mesh) : Prop where
  nids : m'.nids = m.nids
  node : m'.node = m.node
  eids : m'.eids = m.eids
  tria : m'.tria = m.tria
  ekeys : m'.ekeys = m.ekeys
  edge : ∀ k, LikeEdge (m.edge k) (m'.edge k)

theorem LikeMesh.refl (m : Mesh) : LikeMesh m m := ⟨rfl, rfl, rfl, rfl, rfl, fun _ => LikeEdge.refl _⟩

theorem LikeMesh.setEdge {m m' : Mesh} (h : LikeMesh m m') (k : Key) {a b : Edge} (hab : LikeEdge a b) :
    LikeMesh { m with edge := Function.update m.edge k a } { m' with edge := Function.update m'.edge k b } := by
  refine ⟨h.nids, h.node, h.eids, h.tria, h.ekeys, fun k' => ?_⟩
  by_cases hk : k' = k
  · subst hk; simpa using hab
  · simpa [Function.update_of_ne hk] using h.edge k'

theorem LikeMesh.otherNode {m m' : Mesh} (h : LikeMesh m m') {a b : Edge} (hab : LikeEdge a b) (t : ℕ) :
    otherNode m' t b = otherNode m t a := by
  unfold Meshless.otherNode Mesh.triaNodes; rw [h.tria, hab.n1, hab.n2]

namespace Rounding
variable (R R' : Rounding)

theorem orient_like (m m' : Mesh) (c c' : Vec3) (a b : ℕ) : R'.orient m' c' a b = R.orient m c a b ∨
    R'.orient m' c' a b = ((R.orient m c a b).2, (R.orient m c a b).1) := by
  unfold orient; split <;> split <;> simp

theorem iptsA_like {m m' : Mesh} (t o : ℕ) {ab ab' : ℕ × ℕ} (h : ab' = ab ∨ ab' = (ab.2, ab.1)) :
    List.Forall₂ LikePt (R.iptsA m t ab.1 ab.2 o) (R'.iptsA m' t ab'.1 ab'.2 o) := by
  rcases h with rfl | rfl <;> simp [iptsA, mkIPt, LikePt]

theorem iptsB_like {m m' : Mesh} (t o : ℕ) {ab ab' : ℕ × ℕ} (h : ab' = ab ∨ ab' = (ab.2, ab.1)) :
    List.Forall₂ LikePt (R.iptsB m t ab.1 ab.2 o) (R'.iptsB m' t ab'.1 ab'.2 o) := by
  rcases h with rfl | rfl <;> simp [iptsB, mkIPt, LikePt]

theorem iptsI_like {m m' : Mesh} (t o : ℕ) {ab ab' : ℕ × ℕ} (h : ab' = ab ∨ ab' = (ab.2, ab.1)) :
    List.Forall₂ LikePt (R.iptsI m t ab.1 ab.2 o) (R'.iptsI m' t ab'.1 ab'.2 o) := by
  rcases h with rfl | rfl <;> simp [iptsI, mkIPt, LikePt]

theorem geomEdge_like {m m' : Mesh} (h : LikeMesh m m') {a b : Edge} (hab : LikeEdge a b) :
    (R'.geomEdge m' b).2 = (R.geomEdge m a).2 ∧ LikeEdge (R.geomEdge m a).1 (R'.geomEdge m' b).1 := by
  have ho := fun t => h.otherNode hab t
  obtain ⟨an1, an2, at', asd, aip, aAc, ao1, ao2⟩ := a
  obtain ⟨bn1, bn2, bt', bsd, bip, bAc, bo1, bo2⟩ := b
  obtain ⟨e1, e2, e3, e4, e5, e6, e7⟩ := hab
  dsimp only at e1 e2 e3 e4 e5 e6 e7
  subst e1 e2 e3 e4 e5
  rcases bt' with _ | ⟨t1, _ | ⟨t2, _ | ⟨t3, l⟩⟩⟩
  · simp only [geomEdge]; exact ⟨trivial, rfl, rfl, rfl, rfl, rfl, e6, e7⟩
  · simp only [geomEdge, ho]
    rcases otherNode m t1 _ with _ | o1
    · exact ⟨rfl, rfl, rfl, rfl, rfl, rfl, e6, e7⟩
    · by_cases hc : o1 ∈ m.nids
      · simp only [h.nids, if_pos hc, finishEdge]
        have hor := R.orient_like R' m m' (R.mid m t1) (R'.mid m' t1) bn1 bn2
        exact ⟨trivial, rfl, rfl, rfl, rfl, rfl, rfl, List.rel_append (R.iptsA_like R' _ _ hor) (R.iptsB_like R' _ _ hor)⟩
      · simp only [h.nids, if_neg hc]; exact ⟨trivial, rfl, rfl, rfl, rfl, rfl, e6, e7⟩
  · simp only [geomEdge, ho]
    rcases otherNode m t1 _ with _ | o1
    · exact ⟨rfl, rfl, rfl, rfl, rfl, rfl, e6, e7⟩
    rcases otherNode m t2 _ with _ | o2
    · exact ⟨rfl, rfl, rfl, rfl, rfl, rfl, e6, e7⟩
    by_cases hc : o1 ∈ m.nids
    · by_cases hc2 : o2 ∈ m.nids
      · simp only [h.nids, if_pos hc, if_pos hc2, finishEdge]
        have hor := R.orient_like R' m m' (R.mid m t1) (R'.mid m' t1) bn1 bn2
        exact ⟨trivial, rfl, rfl, rfl, rfl, rfl, rfl, List.rel_append (R.iptsA_like R' _ _ hor) (R.iptsI_like R' _ _ hor)⟩
      · simp only [h.nids, if_pos hc, if_neg hc2]; exact ⟨trivial, rfl, rfl, rfl, rfl, rfl, e6, e7⟩
    · simp only [h.nids, if_neg hc]; exact ⟨trivial, rfl, rfl, rfl, rfl, rfl, e6, e7⟩
  · simp only [geomEdge]; exact ⟨trivial, rfl, rfl, rfl, rfl, rfl, e6, e7⟩

theorem geomPass_like : ∀ (ks : List Key) {m m' : Mesh}, LikeMesh m m' →
    (R'.geomPass m' ks).2 = (R.geomPass m ks).2 ∧ LikeMesh (R.geomPass m ks).1 (R'.geomPass m' ks).1 := by
  intro ks
  induction ks with
  | nil => intro m m' h; exact ⟨rfl, h⟩
  | cons k ks ih =>
    intro m m' h
    obtain ⟨h1, h2⟩ := R.geomEdge_like R' h (h.edge k)
    simp only [geomPass]
    rw [h1]
    have hl := h.setEdge k h2
    rcases (R.geomEdge m (m.edge k)).2 with _ | e
    · exact ih hl
    · exact ⟨rfl, hl⟩

end Rounding

theorem numberNodes_like : ∀ (is : List ℕ) (c : ℕ) {m m' : Mesh}, LikeMesh m m' → LikeMesh (numberNodes m is c) (numberNodes m' is c) := by
  intro is
  induction is with
  | nil => intro c m m' h; exact h
  | cons i is ih =>
    intro c m m' h
    unfold numberNodes
    refine ih (c + 1) ⟨h.nids, ?_, h.eids, h.tria, h.ekeys, h.edge⟩
    simp only [Mesh.updNode, h.node]

theorem likePts_perm {a b : List IPt} (h : List.Forall₂ LikePt a b) (idx : ℕ → ℤ) :
    (b.flatMap fun p => [idx p.n1, idx p.n2, idx p.n3]).Perm (a.flatMap fun p => [idx p.n1, idx p.n2, idx p.n3]) := by
  induction h with
  | nil => exact List.Perm.refl _
  | cons h1 _ ih =>
    simp only [List.flatMap_cons]
    refine List.Perm.append ?_ ih
    obtain ⟨_, h3, ⟨h1, h2⟩ | ⟨h1, h2⟩⟩ := h1
    · rw [h1, h2, h3]
    · rw [h1, h2, h3]; exact List.Perm.swap _ _ _

theorem iptIndices_like {a b : List IPt} (h : List.Forall₂ LikePt a b) (idx : ℕ → ℤ) : iptIndices idx b = iptIndices idx a := by
  unfold iptIndices
  have hp := (likePts_perm h idx).dedup
  exact List.Perm.eq_of_pairwise (le := (· ≤ ·)) (fun a b _ _ h1 h2 => le_antisymm h1 h2)
    (List.pairwise_insertionSort _ _) (List.pairwise_insertionSort _ _)
    (((List.perm_insertionSort _ _).trans hp).trans (List.perm_insertionSort _ _).symm)

theorem iptsIndexed_like {m m' : Mesh} (hn : m'.node = m.node) {a b : List IPt} (h : List.Forall₂ LikePt a b) :
    iptsIndexed m' b = iptsIndexed m a := by
  unfold iptsIndexed
  rw [hn]
  induction h with
  | nil => rfl
  | cons h1 _ ih =>
    simp only [List.all_cons, ih]
    obtain ⟨_, h3, ⟨h1, h2⟩ | ⟨h1, h2⟩⟩ := h1
    · rw [h1, h2, h3]
    · rw [h1, h2, h3, Bool.and_comm (m.node _).index.isSome]

namespace Rounding
variable (R R' : Rounding)

/-- success or the same exception -/
def SameOutcome {α β : Type} (a : Except Err α) (b : Except Err β) : Prop := b.map (fun _ => ()) = a.map (fun _ => ())

theorem edgeProp_like {m m' : Mesh} (h : LikeMesh m m') (pn : Bool) {a b : Edge} (hab : LikeEdge a b)
    (sel : Lam → Fin 3 → Fin 3 → ℝ) : SameOutcome (R.edgeProp m pn a sel) (R'.edgeProp m' pn b sel) := by
  obtain ⟨an1, an2, at', asd, aip, aAc, ao1, ao2⟩ := a
  obtain ⟨bn1, bn2, bt', bsd, bip, bAc, bo1, bo2⟩ := b
  obtain ⟨e1, e2, e3, e4, e5, e6, e7⟩ := hab
  dsimp only at e1 e2 e3 e4 e5 e6 e7
  subst e1 e2 e3 e4 e5
  unfold SameOutcome edgeProp
  simp only [h.node, h.tria]
  cases pn
  · simp only [Bool.false_eq_true, if_false]
    rcases (m.tria _).prop with _ | p
    · rfl
    rcases bt'[1]? with _ | t2
    · rfl
    dsimp only
    rcases (m.tria t2).prop with _ | q
    · rfl
    rcases aAc with _ | x <;> rcases bAc with _ | y <;> first | rfl | simp at e6
  · simp only [if_true]
    rcases bo1 with _ | o1
    · rfl
    dsimp only
    rcases (m.node bn1).prop with _ | p
    · rfl
    rcases (m.node bn2).prop with _ | q
    · rfl
    rcases (m.node o1).prop with _ | r
    · rfl
    rcases bt'[1]? with _ | t2
    · rfl
    rcases bo2 with _ | o2
    · rfl
    dsimp only
    rcases (m.node o2).prop with _ | s <;> rfl

theorem SameOutcome.cases {α β : Type} {a : Except Err α} {b : Except Err β} (h : SameOutcome a b) :
    (∃ x y, a = .ok x ∧ b = .ok y) ∨ ∃ e, a = .error e ∧ b = .error e := by
  rcases a with e | x <;> rcases b with e' | y
  · right; refine ⟨e, rfl, ?_⟩; simp [SameOutcome, Except.map] at h; rw [h]
  · simp [SameOutcome, Except.map] at h
  · simp [SameOutcome, Except.map] at h
  · left; exact ⟨x, y, rfl, rfl⟩

/-- the same exception, or success with the same node indices -/
theorem k0Env_like {m m' : Mesh} (h : LikeMesh m m') (pn : Bool) {a b : Edge} (hab : LikeEdge a b) :
    (R'.k0Env m' pn b).map (·.map fun _ => Nil.mk) = (R.k0Env m pn a).map (·.map fun _ => Nil.mk) := by
  have hA := (R.edgeProp_like R' h pn hab Lam.A).cases
  have hB := (R.edgeProp_like R' h pn hab Lam.B).cases
  have hD := (R.edgeProp_like R' h pn hab Lam.D).cases
  have hidx : nodeIdx m' = nodeIdx m := by funext i; unfold nodeIdx; rw [h.node]
  unfold k0Env
  rw [hab.trias, iptsIndexed_like h.node hab.ipts, iptIndices_like hab.ipts, hab.ipts.length_eq.symm, hidx]
  split
  · rfl
  split
  · rfl
  split
  · rfl
  dsimp only
  generalize (if a.ipts.length = 3 then iptIndices (nodeIdx m) a.ipts ++ [-1] else iptIndices (nodeIdx m) a.ipts) = ix
  rcases ix with _ | ⟨i1, _ | ⟨i2, _ | ⟨i3, _ | ⟨i4, _ | ⟨i5, l⟩⟩⟩⟩⟩
  · rfl
  · rfl
  · rfl
  · rfl
  · dsimp only
    have hip := hab.ipts
    have hac := hab.Ac
    rcases hb : b.ipts with _ | ⟨q1, _ | ⟨q2, _ | ⟨q3, lq⟩⟩⟩ <;> rcases ha : a.ipts with _ | ⟨p1, _ | ⟨p2, _ | ⟨p3, lp⟩⟩⟩ <;>
      rw [ha, hb] at hip <;> first | rfl | (exfalso; simpa using hip.length_eq) | skip
    dsimp only
    rcases hb1 : b.Ac with _ | y <;> rcases ha1 : a.Ac with _ | x <;> rw [ha1, hb1] at hac <;> first | (exfalso; simp at hac; done) | skip
    all_goals
      rcases hA with ⟨A, A', e1, e2⟩ | ⟨e, e1, e2⟩ <;> rcases hB with ⟨B, B', f1, f2⟩ | ⟨e', f1, f2⟩ <;>
        rcases hD with ⟨D, D', g1, g2⟩ | ⟨e'', g1, g2⟩ <;> rw [e1, e2, f1, f2, g1, g2] <;> rfl
  · rfl

theorem addAt_like {M M' : Mat} (hd : M'.dim = M.dim) (r c : ℤ) (v v' : ℝ) :
    (∃ N N', R.addAt M r c v = .ok N ∧ R'.addAt M' r c v' = .ok N' ∧ N'.dim = N.dim) ∨
    (R.addAt M r c v = .error .indexError ∧ R'.addAt M' r c v' = .error .indexError) := by
  unfold addAt
  rw [hd]
  rcases pyIdx M.dim r with _ | i
  · exact Or.inr ⟨rfl, rfl⟩
  rcases pyIdx M.dim c with _ | j
  · exact Or.inr ⟨rfl, rfl⟩
  exact Or.inl ⟨_, _, rfl, rfl, hd⟩

theorem addAll_like : ∀ (es : List (ℤ × ℤ × Fl R)) (es' : List (ℤ × ℤ × Fl R')) {M M' : Mat}, M'.dim = M.dim → es'.map pos2 = es.map pos2 →
    (R'.addAll M' es').2 = (R.addAll M es).2 ∧ (R'.addAll M' es').1.dim = (R.addAll M es).1.dim := by
  intro es
  induction es with
  | nil =>
    intro es' M M' hd hp
    simp only [List.map_nil, List.map_eq_nil_iff] at hp
    subst hp
    exact ⟨rfl, hd⟩
  | cons e es ih =>
    intro es' M M' hd hp
    rcases es' with _ | ⟨e', es'⟩
    · simp at hp
    obtain ⟨r, c, v⟩ := e
    obtain ⟨r', c', v'⟩ := e'
    simp only [List.map_cons, List.cons.injEq, pos2, Prod.mk.injEq] at hp
    obtain ⟨⟨rfl, rfl⟩, hp⟩ := hp
    simp only [addAll]
    rcases R.addAt_like R' hd r' c' v v' with ⟨N, N', h1, h2, h3⟩ | ⟨h1, h2⟩
    · rw [h1, h2]; exact ih es' h3 hp
    · rw [h1, h2]; exact ⟨rfl, hd⟩

end Rounding

theorem matLoop_like {α : Type} {f g : Mat → α → Mat × Option Err} : ∀ (l : List α) {K K' : Mat}, K'.dim = K.dim →
    (∀ a ∈ l, ∀ M M' : Mat, M'.dim = M.dim → (g M' a).2 = (f M a).2 ∧ (g M' a).1.dim = (f M a).1.dim) →
    (matLoop g K' l).2 = (matLoop f K l).2 ∧ (matLoop g K' l).1.dim = (matLoop f K l).1.dim := by
  intro l
  induction l with
  | nil => intro K K' hd _; exact ⟨rfl, hd⟩
  | cons a l ih =>
    intro K K' hd h
    obtain ⟨h1, h2⟩ := h a (by simp) K K' hd
    simp only [matLoop]
    rcases hg : g K' a with ⟨N', o'⟩
    rcases hf : f K a with ⟨N, o⟩
    rw [hg, hf] at h1 h2
    dsimp only at h1 h2
    subst h1
    rcases o' with _ | e
    · exact ih h2 fun b hb => h b (by simp [hb])
    · exact ⟨rfl, h2⟩

namespace Rounding
variable (R R' : Rounding)

theorem k0Edge_like {m m' : Mesh} (h : LikeMesh m m') (pn : Bool) (k : Key) {M M' : Mat} (hd : M'.dim = M.dim) :
    (R'.k0Edge m' pn M' k).2 = (R.k0Edge m pn M k).2 ∧ (R'.k0Edge m' pn M' k).1.dim = (R.k0Edge m pn M k).1.dim := by
  have he := R.k0Env_like R' h pn (h.edge k)
  unfold k0Edge
  rcases h1 : R.k0Env m pn (m.edge k) with x | env <;> rcases h2 : R'.k0Env m' pn (m'.edge k) with x' | env' <;>
    rw [h1, h2] at he <;> simp only [Except.map, Except.error.injEq, Except.ok.injEq, reduceCtorEq] at he
  · subst he; exact ⟨rfl, hd⟩
  · dsimp only
    have hp : (k0Entries (K := Fl R') env').map pos2 = (k0Entries (K := Fl R) env).map pos2 :=
      (k0Entries_at (K := Fl R') env').trans ((congrArg (fun e => (k0Entries e).map pos2) he).trans (k0Entries_at (K := Fl R) env).symm)
    generalize k0Entries (K := Fl R') env' = l' at hp ⊢
    generalize k0Entries (K := Fl R) env = l at hp ⊢
    exact R.addAll_like R' l l' hd hp

/-- `calc_k0` with two rounding rules on meshes that are alike: the same outcome, matrices of the same size, meshes alike -/
theorem calcK0_like {m m' : Mesh} (h : LikeMesh m m') (pn : Bool) :
    SameOutcome (R.calcK0 m pn).2 (R'.calcK0 m' pn).2 ∧ LikeMesh (R.calcK0 m pn).1 (R'.calcK0 m' pn).1 ∧
    ∀ K K', (R.calcK0 m pn).2 = .ok K → (R'.calcK0 m' pn).2 = .ok K' → K'.dim = K.dim := by
  have hmiss : m'.ekeys.any (edgeMissing m' pn) = m.ekeys.any (edgeMissing m pn) := by
    rw [h.ekeys]
    congr 1
    funext k
    unfold edgeMissing
    rw [(h.edge k).n1, (h.edge k).n2, (h.edge k).trias, h.node, h.tria]
  unfold calcK0
  rw [hmiss]
  split
  · exact ⟨rfl, h, fun K K' hK => by cases hK⟩
  obtain ⟨g1, g2⟩ := R.geomPass_like R' m.ekeys h
  rw [← h.ekeys] at g1 g2
  conv at g1 => rhs; rw [h.ekeys]
  conv at g2 => lhs; rw [h.ekeys]
  rcases hg : R.geomPass m m.ekeys with ⟨m1, o⟩
  rcases hg' : R'.geomPass m' m'.ekeys with ⟨m1', o'⟩
  rw [hg, hg'] at g1 g2
  dsimp only at g1 g2
  subst g1
  rcases o' with _ | e
  · dsimp only
    rw [g2.nids]
    split
    · exact ⟨rfl, g2, fun K K' hK => by cases hK⟩
    have hn := numberNodes_like m1.nids 0 g2
    set m2 := numberNodes m1 m1.nids 0
    set m2' := numberNodes m1' m1.nids 0
    have hl := matLoop_like (f := R.k0Edge m2 pn) (g := R'.k0Edge m2' pn) m2.ekeys
      (K := Mat.zeros (m2.nids.length * 5)) (K' := Mat.zeros (m2'.nids.length * 5)) (by rw [hn.nids])
      fun k _ M M' hd => R.k0Edge_like R' hn pn k hd
    rw [hn.ekeys]
    rcases ha : matLoop (R.k0Edge m2 pn) (Mat.zeros (m2.nids.length * 5)) m2.ekeys with ⟨K, o⟩
    rcases hb : matLoop (R'.k0Edge m2' pn) (Mat.zeros (m2'.nids.length * 5)) m2.ekeys with ⟨K', o'⟩
    rw [ha, hb] at hl
    obtain ⟨l1, l2⟩ := hl
    dsimp only at l1 l2
    subst l1
    rcases o' with _ | e
    · refine ⟨rfl, hn, fun L L' h1 h2 => ?_⟩
      injection h1 with h1; injection h2 with h2
      rw [← h1, ← h2]; exact l2
    · exact ⟨rfl, hn, fun K K' hK => by cases hK⟩
  · exact ⟨rfl, g2, fun K K' hK => by cases hK⟩

theorem kGEnv_like {m m' : Mesh} (h : LikeMesh m m') {d d' : List ℝ} (hl : d'.length = d.length) (pn : Bool) {a b : Edge} (hab : LikeEdge a b) :
    (R'.kGEnv m' d' pn b).map (·.map fun _ => Nil.mk) = (R.kGEnv m d pn a).map (·.map fun _ => Nil.mk) := by
  have hA := (R.edgeProp_like R' h pn hab Lam.A).cases
  have hB := (R.edgeProp_like R' h pn hab Lam.B).cases
  have hidx : nodeIdx m' = nodeIdx m := by funext i; unfold nodeIdx; rw [h.node]
  have hs : ∀ i, (dSlice d' i).length = (dSlice d i).length := by intro i; simp [dSlice, hl]
  unfold kGEnv
  rw [hab.trias, iptsIndexed_like h.node hab.ipts, iptIndices_like hab.ipts, hab.ipts.length_eq.symm, hidx]
  split
  · rfl
  split
  · rfl
  split
  · rfl
  dsimp only
  generalize (if a.ipts.length = 3 then iptIndices (nodeIdx m) a.ipts ++ [0] else iptIndices (nodeIdx m) a.ipts) = ix
  rcases ix with _ | ⟨i1, _ | ⟨i2, _ | ⟨i3, _ | ⟨i4, _ | ⟨i5, l⟩⟩⟩⟩⟩
  · rfl
  · rfl
  · rfl
  · rfl
  · dsimp only
    simp only [hs]
    have hip := hab.ipts
    have hac := hab.Ac
    rcases hb : b.ipts with _ | ⟨q1, _ | ⟨q2, _ | ⟨q3, lq⟩⟩⟩ <;> rcases ha : a.ipts with _ | ⟨p1, _ | ⟨p2, _ | ⟨p3, lp⟩⟩⟩ <;>
      rw [ha, hb] at hip <;> first | rfl | (exfalso; simpa using hip.length_eq) | skip
    dsimp only
    rcases hb1 : b.Ac with _ | y <;> rcases ha1 : a.Ac with _ | x <;> rw [ha1, hb1] at hac <;> first | (exfalso; simp at hac; done) | skip
    all_goals
      rcases hA with ⟨A, A', e1, e2⟩ | ⟨e, e1, e2⟩ <;> rcases hB with ⟨B, B', f1, f2⟩ | ⟨e', f1, f2⟩ <;>
        rw [e1, e2, f1, f2]
    dsimp only
    split
    · rfl
    · split <;> rfl
  · rfl

theorem kGEdge_like {m m' : Mesh} (h : LikeMesh m m') {d d' : List ℝ} (hl : d'.length = d.length) (pn : Bool) (k : Key) {M M' : Mat} (hd : M'.dim = M.dim) :
    (R'.kGEdge m' d' pn M' k).2 = (R.kGEdge m d pn M k).2 ∧ (R'.kGEdge m' d' pn M' k).1.dim = (R.kGEdge m d pn M k).1.dim := by
  have he := R.kGEnv_like R' h hl pn (h.edge k)
  unfold kGEdge
  rcases h1 : R.kGEnv m d pn (m.edge k) with x | env <;> rcases h2 : R'.kGEnv m' d' pn (m'.edge k) with x' | env' <;>
    rw [h1, h2] at he <;> simp only [Except.map, Except.error.injEq, Except.ok.injEq, reduceCtorEq] at he
  · subst he; exact ⟨rfl, hd⟩
  · dsimp only
    have hp : (kGEntries (K := Fl R') env').map pos2 = (kGEntries (K := Fl R) env).map pos2 :=
      (kGEntries_at (K := Fl R') env').trans ((congrArg (fun e => (kGEntries e).map pos2) he).trans (kGEntries_at (K := Fl R) env).symm)
    generalize kGEntries (K := Fl R') env' = l' at hp ⊢
    generalize kGEntries (K := Fl R) env = l at hp ⊢
    exact R.addAll_like R' l l' hd hp

/-- `calc_kG` with two rounding rules, meshes alike and displacement vectors of the same length: the same outcome, the same size -/
theorem calcKG_like {m m' : Mesh} (h : LikeMesh m m') {d d' : List ℝ} (hl : d'.length = d.length) (pn : Bool) :
    SameOutcome (R.calcKG m d pn) (R'.calcKG m' d' pn) ∧
    ∀ K K', R.calcKG m d pn = .ok K → R'.calcKG m' d' pn = .ok K' → K'.dim = K.dim := by
  unfold calcKG
  rw [h.ekeys, hl]
  have hl := matLoop_like (f := R.kGEdge m d pn) (g := R'.kGEdge m' d' pn) m.ekeys
    (K := Mat.zeros (d.length / 5 * 5)) (K' := Mat.zeros (d.length / 5 * 5)) rfl
    fun k _ M M' hd => R.kGEdge_like R' h hl pn k hd
  rcases ha : matLoop (R.kGEdge m d pn) (Mat.zeros (d.length / 5 * 5)) m.ekeys with ⟨K, o⟩
  rcases hb : matLoop (R'.kGEdge m' d' pn) (Mat.zeros (d.length / 5 * 5)) m.ekeys with ⟨K', o'⟩
  rw [ha, hb] at hl
  obtain ⟨l1, l2⟩ := hl
  dsimp only at l1 l2
  subst l1
  rcases o' with _ | e
  · refine ⟨rfl, fun L L' h1 h2 => ?_⟩
    injection h1 with h1; injection h2 with h2
    rw [← h1, ← h2]; exact l2
  · exact ⟨rfl, fun K K' hK => by cases hK⟩

theorem addAll_err (M : Mat) (es : List (ℤ × ℤ × Fl R)) : (R.addAll M es).1.dim = M.dim ∧
    ((∀ p ∈ es.map pos2, (pyIdx M.dim p.1).isSome ∧ (pyIdx M.dim p.2).isSome) → (R.addAll M es).2 = none) ∧
    ((R.addAll M es).2 = none → ∀ p ∈ es.map pos2, (pyIdx M.dim p.1).isSome ∧ (pyIdx M.dim p.2).isSome) ∧
    ((R.addAll M es).2 = none ∨ (R.addAll M es).2 = some .indexError) := by
  induction es generalizing M with
  | nil => exact ⟨rfl, fun _ => rfl, fun _ p hp => by simp at hp, Or.inl rfl⟩
  | cons e es ih =>
    obtain ⟨r, c, v⟩ := e
    simp only [addAll, List.map_cons, List.forall_mem_cons, pos2]
    unfold addAt
    rcases h1 : pyIdx M.dim r with _ | i
    · exact ⟨rfl, by simp, by simp, by simp⟩
    rcases h2 : pyIdx M.dim c with _ | j
    · exact ⟨rfl, by simp, by simp, by simp⟩
    obtain ⟨i1, i2, i3, i4⟩ := ih (R.bump M i j v)
    refine ⟨i1, fun h => i2 h.2, fun h => ⟨⟨rfl, rfl⟩, i3 h⟩, i4⟩

theorem addAll_mem (es : List (ℤ × ℤ × Fl R)) (es' : List (ℤ × ℤ × Fl R')) {M M' : Mat} (hd : M'.dim = M.dim)
    (hp : ∀ p, p ∈ es'.map pos2 ↔ p ∈ es.map pos2) :
    (R'.addAll M' es').2 = (R.addAll M es).2 ∧ (R'.addAll M' es').1.dim = (R.addAll M es).1.dim := by
  obtain ⟨a1, a2, a3, a4⟩ := R.addAll_err M es
  obtain ⟨b1, b2, b3, b4⟩ := R'.addAll_err M' es'
  refine ⟨?_, by rw [a1, b1, hd]⟩
  rw [hd] at b2 b3
  rcases a4 with ha | ha
  · rw [ha]; exact b2 fun p h => a3 ha p ((hp p).1 h)
  · rcases b4 with hb | hb
    · rw [a2 fun p h => b3 hb p ((hp p).2 h), hb]
    · rw [ha, hb]

theorem pyMax_isSome {a b : List ℝ} (h : a.length = b.length) : (pyMax a).isSome = (pyMax b).isSome := by
  rcases a with _ | ⟨x, a⟩ <;> rcases b with _ | ⟨y, b⟩ <;> first | rfl | simp at h

theorem cellOrient_like {m m' : Mesh} (ht : m'.tria = m.tria) (e : ℕ) : R'.cellOrient m' e = R.cellOrient m e ∨
    R'.cellOrient m' e = ((R.cellOrient m e).2.1, (R.cellOrient m e).1, (R.cellOrient m e).2.2) := by
  unfold cellOrient; rw [ht]; dsimp only; split <;> split <;> simp
theorem cellNSOrient_like {m m' : Mesh} (ht : m'.tria = m.tria) (e : ℕ) : R'.cellNSOrient m' e = R.cellNSOrient m e ∨
    R'.cellNSOrient m' e = ((R.cellNSOrient m e).2.1, (R.cellNSOrient m e).1, (R.cellNSOrient m e).2.2) := by
  unfold cellNSOrient; rw [ht]; dsimp only; split <;> split <;> simp

theorem cellShear_like {m m' : Mesh} (hn : m'.node = m.node) (ht : m'.tria = m.tria) (pn : Bool) (e : ℕ) {t t' : ℕ × ℕ × ℕ}
    (h : t' = t ∨ t' = (t.2.1, t.1, t.2.2)) :
    SameOutcome (R.cellShear m pn e t.1 t.2.1 t.2.2) (R'.cellShear m' pn e t'.1 t'.2.1 t'.2.2) := by
  unfold SameOutcome cellShear
  rw [hn, ht]
  cases pn
  · simp only [Bool.false_eq_true, if_false]
  · simp only [if_true]
    rcases h with rfl | rfl
    · rcases (m.node t'.1).prop with _ | p <;> rcases (m.node t'.2.1).prop with _ | q <;> rcases (m.node t'.2.2).prop with _ | r <;> rfl
    · rcases (m.node t.1).prop with _ | p <;> rcases (m.node t.2.1).prop with _ | q <;> rcases (m.node t.2.2).prop with _ | r <;> rfl

theorem cellMaxl_like {m m' : Mesh} (ht : m'.tria = m.tria) (e : ℕ) (A A' : ℝ) (f : Bool) :
    SameOutcome (R.cellMaxl m e A f) (R'.cellMaxl m' e A' f) := by
  unfold SameOutcome cellMaxl
  cases f
  · simp only [Bool.false_eq_true, if_false]
    rw [ht]
    have := pyMax_isSome (a := (m.tria e).edges.map (R.edgeLen m)) (b := (m.tria e).edges.map (R'.edgeLen m')) (by simp)
    rcases h1 : pyMax ((m.tria e).edges.map (R.edgeLen m)) with _ | x <;> rcases h2 : pyMax ((m.tria e).edges.map (R'.edgeLen m')) with _ | y <;>
      rw [h1, h2] at this <;> first | (exfalso; simp at this; done) | rfl
  · rfl

/-- indices of three corners up to an exchange of the first two -/
def Swap3 {α β : Type} (f : α → ℤ × ℤ × ℤ) (g : β → ℤ × ℤ × ℤ) (a : Except Err α) (b : Except Err β) : Prop :=
  (∃ e, a = .error e ∧ b = .error e) ∨ ∃ x y, a = .ok x ∧ b = .ok y ∧ (g y = f x ∨ g y = ((f x).2.1, (f x).1, (f x).2.2))

theorem cellSEnv_like {m m' : Mesh} (hn : m'.node = m.node) (ht : m'.tria = m.tria) (pn : Bool) (al : ℝ) (f : Bool) (e : ℕ) :
    Swap3 (fun e => (e.i1, e.i2, e.i3)) (fun e => (e.i1, e.i2, e.i3)) (R.cellSEnv m pn al f e) (R'.cellSEnv m' pn al f e) := by
  have ho := R.cellOrient_like R' ht e
  have h1 := (R.cellShear_like R' hn ht pn e ho).cases
  have h2 := (R.cellMaxl_like R' ht e (R.triaArea m e) (R'.triaArea m' e) f).cases
  unfold cellSEnv
  rw [hn]
  generalize R.cellOrient m e = t at ho h1 ⊢
  generalize R'.cellOrient m' e = t' at ho h1 ⊢
  obtain ⟨a, b, c⟩ := t
  obtain ⟨a', b', c'⟩ := t'
  dsimp only at ho h1 ⊢
  rcases h1 with ⟨x, y, e1, e2⟩ | ⟨er, e1, e2⟩ <;> rw [e1, e2]
  · rcases h2 with ⟨l, l', f1, f2⟩ | ⟨er, f1, f2⟩ <;> rw [f1, f2]
    · simp only [bind, Except.bind]
      simp only [Prod.mk.injEq] at ho
      rcases ho with ⟨rfl, rfl, rfl⟩ | ⟨rfl, rfl, rfl⟩
      · rcases (m.node a').index with _ | i
        · exact Or.inl ⟨_, rfl, rfl⟩
        rcases (m.node b').index with _ | j
        · exact Or.inl ⟨_, rfl, rfl⟩
        rcases (m.node c').index with _ | k
        · exact Or.inl ⟨_, rfl, rfl⟩
        exact Or.inr ⟨_, _, rfl, rfl, Or.inl rfl⟩
      · rcases (m.node a').index with _ | i <;> rcases (m.node b').index with _ | j
        · exact Or.inl ⟨_, rfl, rfl⟩
        · exact Or.inl ⟨_, rfl, rfl⟩
        · exact Or.inl ⟨_, rfl, rfl⟩
        rcases (m.node c').index with _ | k
        · exact Or.inl ⟨_, rfl, rfl⟩
        exact Or.inr ⟨_, _, rfl, rfl, Or.inr rfl⟩
    · exact Or.inl ⟨_, rfl, rfl⟩
  · exact Or.inl ⟨_, rfl, rfl⟩

theorem cellNSEnv_like {m m' : Mesh} (hn : m'.node = m.node) (ht : m'.tria = m.tria) (pn : Bool) (al : ℝ) (f : Bool) (e : ℕ) :
    Swap3 (fun e => (e.i1, e.i2, e.i3)) (fun e => (e.i1, e.i2, e.i3)) (R.cellNSEnv m pn al f e) (R'.cellNSEnv m' pn al f e) := by
  have ho := R.cellNSOrient_like R' ht e
  have h1 := (R.cellShear_like R' hn ht pn e ho).cases
  have h2 := (R.cellMaxl_like R' ht e (R.triaArea m e) (R'.triaArea m' e) f).cases
  unfold cellNSEnv
  rw [hn]
  generalize R.cellNSOrient m e = t at ho h1 ⊢
  generalize R'.cellNSOrient m' e = t' at ho h1 ⊢
  obtain ⟨a, b, c⟩ := t
  obtain ⟨a', b', c'⟩ := t'
  dsimp only at ho h1 ⊢
  rcases h1 with ⟨x, y, e1, e2⟩ | ⟨er, e1, e2⟩ <;> rw [e1, e2]
  · rcases h2 with ⟨l, l', f1, f2⟩ | ⟨er, f1, f2⟩ <;> rw [f1, f2]
    · simp only [bind, Except.bind]
      simp only [Prod.mk.injEq] at ho
      rcases ho with ⟨rfl, rfl, rfl⟩ | ⟨rfl, rfl, rfl⟩
      · rcases (m.node a').index with _ | i
        · exact Or.inl ⟨_, rfl, rfl⟩
        rcases (m.node b').index with _ | j
        · exact Or.inl ⟨_, rfl, rfl⟩
        rcases (m.node c').index with _ | k
        · exact Or.inl ⟨_, rfl, rfl⟩
        exact Or.inr ⟨_, _, rfl, rfl, Or.inl rfl⟩
      · rcases (m.node a').index with _ | i <;> rcases (m.node b').index with _ | j
        · exact Or.inl ⟨_, rfl, rfl⟩
        · exact Or.inl ⟨_, rfl, rfl⟩
        · exact Or.inl ⟨_, rfl, rfl⟩
        rcases (m.node c').index with _ | k
        · exact Or.inl ⟨_, rfl, rfl⟩
        exact Or.inr ⟨_, _, rfl, rfl, Or.inr rfl⟩
    · exact Or.inl ⟨_, rfl, rfl⟩
  · exact Or.inl ⟨_, rfl, rfl⟩

theorem cellSTria_like {m m' : Mesh} (hn : m'.node = m.node) (ht : m'.tria = m.tria) (pn : Bool) (al : ℝ) (f : Bool) (e : ℕ) {M M' : Mat} (hd : M'.dim = M.dim) :
    (R'.cellSTria m' pn al f M' e).2 = (R.cellSTria m pn al f M e).2 ∧ (R'.cellSTria m' pn al f M' e).1.dim = (R.cellSTria m pn al f M e).1.dim := by
  unfold cellSTria
  rcases R.cellSEnv_like R' hn ht pn al f e with ⟨x, h1, h2⟩ | ⟨a, b, h1, h2, h3⟩ <;> rw [h1, h2]
  · exact ⟨rfl, hd⟩
  · dsimp only
    have hp : ∀ p, p ∈ (cellSEntries (K := Fl R') b).map pos2 ↔ p ∈ (cellSEntries (K := Fl R) a).map pos2 := by
      intro p
      rw [cellSEntries_at (K := Fl R') b, cellSEntries_at (K := Fl R) a, cellS_prod, cellS_prod, mem_prodPos, mem_prodPos]
      simp only [Prod.mk.injEq] at h3
      show p.1 ∈ rows3 b.i1 b.i2 b.i3 ∧ p.2 ∈ rows3 b.i1 b.i2 b.i3 ↔ p.1 ∈ rows3 a.i1 a.i2 a.i3 ∧ p.2 ∈ rows3 a.i1 a.i2 a.i3
      rcases h3 with ⟨e1, e2, e3⟩ | ⟨e1, e2, e3⟩ <;> rw [e1, e2, e3]
      exact and_congr (rows3_swap _ _ _ _) (rows3_swap _ _ _ _)
    generalize cellSEntries (K := Fl R') b = l' at hp ⊢
    generalize cellSEntries (K := Fl R) a = l at hp ⊢
    exact R.addAll_mem R' l l' hd hp

theorem cellNSTria_like {m m' : Mesh} (hn : m'.node = m.node) (ht : m'.tria = m.tria) (pn : Bool) (al : ℝ) (f : Bool) (e : ℕ) {M M' : Mat} (hd : M'.dim = M.dim) :
    (R'.cellNSTria m' pn al f M' e).2 = (R.cellNSTria m pn al f M e).2 ∧ (R'.cellNSTria m' pn al f M' e).1.dim = (R.cellNSTria m pn al f M e).1.dim := by
  unfold cellNSTria
  rcases R.cellNSEnv_like R' hn ht pn al f e with ⟨x, h1, h2⟩ | ⟨a, b, h1, h2, h3⟩ <;> rw [h1, h2]
  · exact ⟨rfl, hd⟩
  · dsimp only
    have hp : ∀ p, p ∈ (cellNSEntries (K := Fl R') b).map pos2 ↔ p ∈ (cellNSEntries (K := Fl R) a).map pos2 := by
      intro p
      rw [cellNSEntries_at (K := Fl R') b, cellNSEntries_at (K := Fl R) a, cellNS_prod, cellNS_prod, mem_prodPos, mem_prodPos]
      simp only [Prod.mk.injEq] at h3
      show p.1 ∈ rows3 b.i1 b.i2 b.i3 ∧ p.2 ∈ rows3 b.i1 b.i2 b.i3 ↔ p.1 ∈ rows3 a.i1 a.i2 a.i3 ∧ p.2 ∈ rows3 a.i1 a.i2 a.i3
      rcases h3 with ⟨e1, e2, e3⟩ | ⟨e1, e2, e3⟩ <;> rw [e1, e2, e3]
      exact and_congr (rows3_swap _ _ _ _) (rows3_swap _ _ _ _)
    generalize cellNSEntries (K := Fl R') b = l' at hp ⊢
    generalize cellNSEntries (K := Fl R) a = l at hp ⊢
    exact R.addAll_mem R' l l' hd hp

theorem edgeOrient_like (m m' : Mesh) {a b : Edge} (hab : LikeEdge a b) (t : ℕ) : R'.edgeOrient m' b t = R.edgeOrient m a t ∨
    R'.edgeOrient m' b t = ((R.edgeOrient m a t).2, (R.edgeOrient m a t).1) := by
  unfold edgeOrient; rw [hab.n1, hab.n2]; split <;> split <;> simp

theorem edgeBShear_like {m m' : Mesh} (h : LikeMesh m m') (pn : Bool) (t o : ℕ) {ab ab' : ℕ × ℕ} (hs : ab' = ab ∨ ab' = (ab.2, ab.1)) :
    SameOutcome (R.edgeBShear m pn t ab.1 ab.2 o) (R'.edgeBShear m' pn t ab'.1 ab'.2 o) := by
  unfold SameOutcome edgeBShear
  rw [h.node, h.tria]
  cases pn
  · simp only [Bool.false_eq_true, if_false]
  · simp only [if_true]
    rcases hs with rfl | rfl
    · rcases (m.node ab'.1).prop with _ | p <;> rcases (m.node ab'.2).prop with _ | q <;> rcases (m.node o).prop with _ | r <;> rfl
    · rcases (m.node ab.1).prop with _ | p <;> rcases (m.node ab.2).prop with _ | q <;> rcases (m.node o).prop with _ | r <;> rfl

theorem edgeIShear_like {m m' : Mesh} (h : LikeMesh m m') (pn : Bool) (x y z x' y' z' : ℝ) (t s o r : ℕ) {ab ab' : ℕ × ℕ}
    (hs : ab' = ab ∨ ab' = (ab.2, ab.1)) :
    SameOutcome (R.edgeIShear m pn x y z t s ab.1 ab.2 o r) (R'.edgeIShear m' pn x' y' z' t s ab'.1 ab'.2 o r) := by
  unfold SameOutcome edgeIShear
  rw [h.node, h.tria]
  cases pn
  · simp only [Bool.false_eq_true, if_false]
    rcases (m.tria t).prop with _ | p <;> rcases (m.tria s).prop with _ | q <;> rfl
  · simp only [if_true]
    rcases hs with rfl | rfl
    · rcases (m.node ab'.1).prop with _ | p <;> rcases (m.node ab'.2).prop with _ | q <;> rcases (m.node o).prop with _ | a <;>
        rcases (m.node r).prop with _ | b <;> rfl
    · rcases (m.node ab.1).prop with _ | p <;> rcases (m.node ab.2).prop with _ | q <;> rcases (m.node o).prop with _ | a <;>
        rcases (m.node r).prop with _ | b <;> rfl

theorem edgeBMaxl_like {a b : Edge} (hab : LikeEdge a b) (A A' : ℝ) (f : Bool) : SameOutcome (R.edgeBMaxl a A f) (R'.edgeBMaxl b A' f) := by
  unfold SameOutcome edgeBMaxl
  cases f
  · simp only [Bool.false_eq_true, if_false]
    have := pyMax_isSome (a := a.ipts.map (·.le)) (b := b.ipts.map (·.le)) (by simpa using hab.ipts.length_eq)
    rcases h1 : pyMax (a.ipts.map (·.le)) with _ | x <;> rcases h2 : pyMax (b.ipts.map (·.le)) with _ | y <;>
      rw [h1, h2] at this <;> first | (exfalso; simp at this; done) | (rw [h1, h2] <;> rfl)
  · rfl

theorem edgeIMaxl_like {m m' : Mesh} {a b : Edge} (hab : LikeEdge a b) (A A' : ℝ) (f : Bool) :
    SameOutcome (R.edgeIMaxl m a A f) (R'.edgeIMaxl m' b A' f) := by
  unfold SameOutcome edgeIMaxl
  cases f
  · simp only [Bool.false_eq_true, if_false]
    have := pyMax_isSome (a := a.ipts.map (·.le)) (b := b.ipts.map (·.le)) (by simpa using hab.ipts.length_eq)
    rcases h1 : pyMax (a.ipts.map (·.le)) with _ | x <;> rcases h2 : pyMax (b.ipts.map (·.le)) with _ | y <;>
      rw [h1, h2] at this <;> first | (exfalso; simp at this; done) | (rw [h1, h2] <;> rfl)
  · rfl

theorem edgeBEnv_like {m m' : Mesh} (h : LikeMesh m m') (pn : Bool) (al : ℝ) (f : Bool) {a b : Edge} (hab : LikeEdge a b) (t : ℕ)
    {p p' : ℕ × ℕ} (hs : p' = p ∨ p' = (p.2, p.1)) :
    Swap3 (fun e => (e.i1, e.i2, e.i3)) (fun e => (e.i1, e.i2, e.i3)) (R.edgeBEnv m pn al f a t p.1 p.2) (R'.edgeBEnv m' pn al f b t p'.1 p'.2) := by
  unfold edgeBEnv
  rw [h.node, hab.other1]
  have hac := hab.Ac
  rcases ho : a.other1 with _ | o
  · exact Or.inl ⟨_, rfl, rfl⟩
  rcases h1 : a.Ac with _ | x <;> rcases h2 : b.Ac with _ | y <;> rw [h1, h2] at hac <;> first | (exfalso; simp at hac; done) | skip
  · exact Or.inl ⟨_, rfl, rfl⟩
  dsimp only
  rcases (R.edgeBShear_like R' h pn t o hs).cases with ⟨u, v, e1, e2⟩ | ⟨er, e1, e2⟩ <;> rw [e1, e2]
  · rcases (R.edgeBMaxl_like R' hab x y f).cases with ⟨l, l', f1, f2⟩ | ⟨er, f1, f2⟩ <;> rw [f1, f2]
    · simp only [bind, Except.bind]
      rcases hs with rfl | rfl
      · rcases (m.node p'.1).index with _ | i
        · exact Or.inl ⟨_, rfl, rfl⟩
        rcases (m.node p'.2).index with _ | j
        · exact Or.inl ⟨_, rfl, rfl⟩
        rcases (m.node o).index with _ | k
        · exact Or.inl ⟨_, rfl, rfl⟩
        exact Or.inr ⟨_, _, rfl, rfl, Or.inl rfl⟩
      · dsimp only
        rcases (m.node p.1).index with _ | i <;> rcases (m.node p.2).index with _ | j
        · exact Or.inl ⟨_, rfl, rfl⟩
        · exact Or.inl ⟨_, rfl, rfl⟩
        · exact Or.inl ⟨_, rfl, rfl⟩
        rcases (m.node o).index with _ | k
        · exact Or.inl ⟨_, rfl, rfl⟩
        exact Or.inr ⟨_, _, rfl, rfl, Or.inr rfl⟩
    · exact Or.inl ⟨_, rfl, rfl⟩
  · exact Or.inl ⟨_, rfl, rfl⟩

theorem edgeIEnv_like {m m' : Mesh} (h : LikeMesh m m') (pn : Bool) (al : ℝ) (f : Bool) {a b : Edge} (hab : LikeEdge a b) (t s : ℕ)
    {p p' : ℕ × ℕ} (hs : p' = p ∨ p' = (p.2, p.1)) :
    (∃ e, R.edgeIEnv m pn al f a t s p.1 p.2 = .error e ∧ R'.edgeIEnv m' pn al f b t s p'.1 p'.2 = .error e) ∨
    ∃ x y, R.edgeIEnv m pn al f a t s p.1 p.2 = .ok x ∧ R'.edgeIEnv m' pn al f b t s p'.1 p'.2 = .ok y ∧ y.i3 = x.i3 ∧ y.i4 = x.i4 ∧
      (y.i1 = x.i1 ∧ y.i2 = x.i2 ∨ y.i1 = x.i2 ∧ y.i2 = x.i1) := by
  unfold edgeIEnv
  rw [h.node, hab.other1, hab.other2]
  have hac := hab.Ac
  rcases ho : a.other1 with _ | o
  · exact Or.inl ⟨_, rfl, rfl⟩
  rcases ho2 : a.other2 with _ | o2
  · exact Or.inl ⟨_, rfl, rfl⟩
  rcases h1 : a.Ac with _ | x <;> rcases h2 : b.Ac with _ | y <;> rw [h1, h2] at hac <;> first | (exfalso; simp at hac; done) | skip
  · exact Or.inl ⟨_, rfl, rfl⟩
  dsimp only
  rcases (R.edgeIShear_like R' h pn (R.polyArea [R.mid m t, (m.node p.1).xyz, (m.node p.2).xyz])
    (R.polyArea [(m.node p.1).xyz, R.mid m s, (m.node p.2).xyz]) x
    (R'.polyArea [R'.mid m' t, (m.node p'.1).xyz, (m.node p'.2).xyz]) (R'.polyArea [(m.node p'.1).xyz, R'.mid m' s, (m.node p'.2).xyz]) y
    t s o o2 hs).cases with ⟨u, v, e1, e2⟩ | ⟨er, e1, e2⟩ <;> rw [e1, e2]
  · rcases (R.edgeIMaxl_like R' (m := m) (m' := m') hab x y f).cases with ⟨l, l', f1, f2⟩ | ⟨er, f1, f2⟩ <;> rw [f1, f2]
    · simp only [bind, Except.bind]
      rcases hs with rfl | rfl
      · rcases (m.node p'.1).index with _ | i
        · exact Or.inl ⟨_, rfl, rfl⟩
        rcases (m.node p'.2).index with _ | j
        · exact Or.inl ⟨_, rfl, rfl⟩
        rcases (m.node o).index with _ | k
        · exact Or.inl ⟨_, rfl, rfl⟩
        rcases (m.node o2).index with _ | q
        · exact Or.inl ⟨_, rfl, rfl⟩
        exact Or.inr ⟨_, _, rfl, rfl, rfl, rfl, Or.inl ⟨rfl, rfl⟩⟩
      · dsimp only
        rcases (m.node p.1).index with _ | i <;> rcases (m.node p.2).index with _ | j
        · exact Or.inl ⟨_, rfl, rfl⟩
        · exact Or.inl ⟨_, rfl, rfl⟩
        · exact Or.inl ⟨_, rfl, rfl⟩
        rcases (m.node o).index with _ | k
        · exact Or.inl ⟨_, rfl, rfl⟩
        rcases (m.node o2).index with _ | q
        · exact Or.inl ⟨_, rfl, rfl⟩
        exact Or.inr ⟨_, _, rfl, rfl, rfl, rfl, Or.inr ⟨rfl, rfl⟩⟩
    · exact Or.inl ⟨_, rfl, rfl⟩
  · exact Or.inl ⟨_, rfl, rfl⟩

theorem edgeSEdge_like {m m' : Mesh} (h : LikeMesh m m') (pn : Bool) (al : ℝ) (f : Bool) (k : Key) {M M' : Mat} (hd : M'.dim = M.dim) :
    (R'.edgeSEdge m' pn al f M' k).2 = (R.edgeSEdge m pn al f M k).2 ∧
    (R'.edgeSEdge m' pn al f M' k).1.dim = (R.edgeSEdge m pn al f M k).1.dim := by
  unfold edgeSEdge
  dsimp only
  have hab := h.edge k
  rw [hab.trias]
  rcases (m.edge k).trias with _ | ⟨t1, _ | ⟨t2, _ | ⟨t3, l⟩⟩⟩
  · exact ⟨rfl, hd⟩
  · dsimp only
    rcases R.edgeBEnv_like R' h pn al f hab t1 (R.edgeOrient_like R' m m' hab t1) with ⟨x, h1, h2⟩ | ⟨a, b, h1, h2, h3⟩ <;> rw [h1, h2]
    · exact ⟨rfl, hd⟩
    · dsimp only
      have hp : ∀ p, p ∈ (edgeBEntries (K := Fl R') b).map pos2 ↔ p ∈ (edgeBEntries (K := Fl R) a).map pos2 := by
        intro p
        rw [edgeBEntries_at (K := Fl R') b, edgeBEntries_at (K := Fl R) a, edgeB_prod, edgeB_prod, mem_prodPos, mem_prodPos]
        simp only [Prod.mk.injEq] at h3
        show p.1 ∈ rows3 b.i1 b.i2 b.i3 ∧ p.2 ∈ rows3 b.i1 b.i2 b.i3 ↔ p.1 ∈ rows3 a.i1 a.i2 a.i3 ∧ p.2 ∈ rows3 a.i1 a.i2 a.i3
        rcases h3 with ⟨e1, e2, e3⟩ | ⟨e1, e2, e3⟩ <;> rw [e1, e2, e3]
        exact and_congr (rows3_swap _ _ _ _) (rows3_swap _ _ _ _)
      generalize edgeBEntries (K := Fl R') b = l' at hp ⊢
      generalize edgeBEntries (K := Fl R) a = l at hp ⊢
      exact R.addAll_mem R' l l' hd hp
  · dsimp only
    rcases R.edgeIEnv_like R' h pn al f hab t1 t2 (R.edgeOrient_like R' m m' hab t1) with ⟨x, h1, h2⟩ | ⟨a, b, h1, h2, e3, e4, h3⟩ <;> rw [h1, h2]
    · exact ⟨rfl, hd⟩
    · dsimp only
      have hp : ∀ p, p ∈ (edgeIEntries (K := Fl R') b).map pos2 ↔ p ∈ (edgeIEntries (K := Fl R) a).map pos2 := by
        intro p
        rw [edgeIEntries_at (K := Fl R') b, edgeIEntries_at (K := Fl R) a, edgeI_prod, edgeI_prod, mem_prodPos, mem_prodPos]
        show p.1 ∈ rows4 b.i1 b.i2 b.i3 b.i4 ∧ p.2 ∈ rows4 b.i1 b.i2 b.i3 b.i4 ↔ p.1 ∈ rows4 a.i1 a.i2 a.i3 a.i4 ∧ p.2 ∈ rows4 a.i1 a.i2 a.i3 a.i4
        rcases h3 with ⟨e1, e2⟩ | ⟨e1, e2⟩ <;> rw [e1, e2, e3, e4]
        exact and_congr (rows4_swap _ _ _ _ _) (rows4_swap _ _ _ _ _)
      generalize edgeIEntries (K := Fl R') b = l' at hp ⊢
      generalize edgeIEntries (K := Fl R) a = l at hp ⊢
      exact R.addAll_mem R' l l' hd hp
  · exact ⟨rfl, hd⟩

/-- `add_k0s` with two rounding rules on meshes that are alike and matrices of the same size: the same outcome, the same size -/
theorem addK0s_like {m m' : Mesh} (h : LikeMesh m m') (pn : Bool) (method : String) (al : ℝ) (f : Bool) {K K' : Mat} (hd : K'.dim = K.dim) :
    (R'.addK0s K' m' pn method al f).2 = (R.addK0s K m pn method al f).2 ∧
    (R'.addK0s K' m' pn method al f).1.dim = (R.addK0s K m pn method al f).1.dim := by
  unfold addK0s
  split
  · rw [h.eids]; exact matLoop_like _ hd fun e _ M M' hd => R.cellSTria_like R' h.node h.tria pn al f e hd
  split
  · rw [h.eids]; exact matLoop_like _ hd fun e _ M M' hd => R.cellNSTria_like R' h.node h.tria pn al f e hd
  split
  · rw [h.ekeys]; exact matLoop_like _ hd fun k _ M M' hd => R.edgeSEdge_like R' h pn al f k hd
  · exact ⟨rfl, hd⟩

end Rounding
end Meshless
