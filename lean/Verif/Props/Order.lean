import Verif.Props.K0s
import Verif.Props.History

/-! C49: in which order the analysis functions can be called. -/

set_option autoImplicit false

namespace Meshless
open Spec Finset

/-! ### before any `calc_k0` -/

/-- a call of `calc_k0` -/
def Op.isK0 : Op → Bool
  | .calcK0 .. => true
  | _ => false

/-- A mesh just read, after any statements except `calc_k0`: properties and coordinates assigned, `add_k0s` and `calc_kG` attempted. -/
inductive Spec.Unprepared : Mesh → Prop
  | delaunay (pts : List Pt) (tris : List (ℤ × ℤ × ℤ)) (m : Mesh) (h : readDelaunay pts tris = .ok m) (ops : List Op)
      (ho : ∀ op ∈ ops, op.isK0 = false) : Unprepared (run m ops)
  | deck (d : Deck) (hn : (d.nodes.map (·.1)).Nodup) (he : (d.elems.map (·.1)).Nodup) (m : Mesh) (h : readMesh d = .ok m) (ops : List Op)
      (ho : ∀ op ∈ ops, op.isK0 = false) : Unprepared (run m ops)

theorem Spec.Unprepared.reachable {m : Mesh} (h : Unprepared m) : Reachable m := by
  cases h with
  | delaunay pts tris m h ops ho => exact .delaunay pts tris m h ops
  | deck d hn he m h ops ho => exact .deck d hn he m h ops

/-- no index, no data of `calc_k0` -/
structure Blank (m : Mesh) : Prop where
  node : ∀ i, (m.node i).index = none
  edge : ∀ k, (m.edge k).other1 = none ∧ (m.edge k).Ac = none ∧ (m.edge k).ipts = []

theorem blank_updNode {m : Mesh} (h : Blank m) (i : ℕ) {f : Node → Node} (hf : ∀ n, (f n).index = n.index) : Blank (m.updNode i f) := by
  refine ⟨fun j => ?_, h.edge⟩
  by_cases hj : j = i
  · subst hj; simp [Mesh.updNode, hf, h.node]
  · simp [Mesh.updNode, Function.update_of_ne hj, h.node]

theorem blank_foldl {α : Type} {f : Mesh → α → Mesh} (hf : ∀ m a, Blank m → Blank (f m a)) : ∀ (l : List α) (m : Mesh), Blank m → Blank (l.foldl f m) := by
  intro l
  induction l with
  | nil => intro m h; exact h
  | cons a l ih => intro m h; exact ih _ (hf _ _ h)

theorem blank_buildEdges {m m' : Mesh} (h : Blank m) (hb : buildEdges m = .ok m') : Blank m' := by
  unfold buildEdges at hb
  dsimp only at hb
  split at hb
  · cases hb
    have h1 : ∀ ids m k, Blank m → Blank (addEdge ids m k) := by
      intro ids m k hm
      unfold addEdge
      dsimp only
      refine blank_updNode ?_ _ ?_
      · refine blank_updNode ?_ _ ?_
        · refine ⟨hm.node, fun k' => ?_⟩
          by_cases hk : k' = k
          · subst hk; simp [Edge.init]
          · simp only [Function.update_of_ne hk]; exact hm.edge k'
        · intro n; rfl
      · intro n; rfl
    have h2 : ∀ m k, Blank m → Blank (linkEdge m k) := by
      intro m k hm
      unfold linkEdge
      refine blank_foldl ?_ _ _ hm
      intro m e hm; exact ⟨hm.node, hm.edge⟩
    have h3 : ∀ m e, Blank m → Blank (linkNodes m e) := by
      intro m e hm
      unfold linkNodes
      refine blank_foldl ?_ _ _ hm
      intro m i hm; refine blank_updNode hm i ?_; intro n; rfl
    exact blank_foldl h3 _ _ (blank_foldl h2 _ _ (blank_foldl (h1 _) _ _ h))
  · cases hb

theorem blank_empty : Blank emptyMesh := ⟨fun _ => rfl, fun _ => ⟨rfl, rfl, rfl⟩⟩

theorem blank_addPoints : ∀ (ps : List Pt) (m : Mesh) (c : ℕ), Blank m → Blank (addPoints m ps c) := by
  intro ps
  induction ps with
  | nil => intro m c h; exact h
  | cons p ps ih =>
    intro m c h
    refine ih _ _ ⟨fun j => ?_, h.edge⟩
    by_cases hj : j = c + 1
    · subst hj; simp [freshNode]
    · simp [Function.update_of_ne hj, h.node]

theorem blank_addTrias (N : ℕ) : ∀ (ts : List (ℤ × ℤ × ℤ)) (m : Mesh) (c : ℕ) (m' : Mesh), Blank m → addTrias N m ts c = .ok m' → Blank m' := by
  intro ts
  induction ts with
  | nil => intro m c m' h hb; cases hb; exact h
  | cons t ts ih =>
    intro m c m' h hb
    obtain ⟨i1, i2, i3⟩ := t
    unfold addTrias at hb
    split at hb
    · refine ih _ _ _ ?_ hb; exact ⟨h.node, h.edge⟩
    · cases hb

theorem blank_deckNodes : ∀ (l : List (ℕ × Vec3 × (Vec3 → Vec3))) (m : Mesh), Blank m → Blank (deckNodes m l) := by
  intro l
  induction l with
  | nil => intro m h; exact h
  | cons p ps ih =>
    intro m h
    obtain ⟨i, x, c⟩ := p
    refine ih _ ⟨fun j => ?_, h.edge⟩
    by_cases hj : j = i
    · subst hj; simp [freshNode]
    · simp [Function.update_of_ne hj, h.node]

theorem blank_deckElems : ∀ (l : List (ℕ × Option (ℕ × ℕ × ℕ))) (m m' : Mesh), Blank m → deckElems m l = .ok m' → Blank m' := by
  intro l
  induction l with
  | nil => intro m m' h hb; cases hb; exact h
  | cons t ts ih =>
    intro m m' h hb
    obtain ⟨e, _ | ⟨a, b, c⟩⟩ := t
    · cases hb
    · refine ih _ _ ?_ hb; exact ⟨h.node, h.edge⟩

theorem blank_step {m : Mesh} (h : Blank m) {op : Op} (ho : op.isK0 = false) : Blank (step m op) := by
  cases op <;> simp only [step] <;> try split
  all_goals first
    | exact h
    | exact blank_updNode h _ fun _ => rfl
    | exact ⟨h.node, h.edge⟩
    | cases ho

theorem blank_run : ∀ (ops : List Op) {m : Mesh}, Blank m → (∀ op ∈ ops, op.isK0 = false) → Blank (run m ops) := by
  intro ops
  induction ops with
  | nil => intro m h _; exact h
  | cons op ops ih => intro m h ho; exact ih (blank_step h (ho op (by simp))) fun o h => ho o (List.mem_cons_of_mem _ h)

theorem Spec.Unprepared.blank {m : Mesh} (h : Unprepared m) : Blank m := by
  cases h with
  | delaunay pts tris m h ops ho =>
    refine blank_run ops ?_ ho
    unfold readDelaunay at h
    split at h
    · rename_i m1 h1
      exact blank_buildEdges (blank_addTrias _ _ _ _ _ (blank_addPoints _ _ _ blank_empty) h1) h
    · cases h
  | deck d hn he m h ops ho =>
    refine blank_run ops ?_ ho
    unfold readMesh at h
    split at h
    · rename_i m1 h1
      exact blank_buildEdges (blank_deckElems _ _ _ (blank_deckNodes _ _ blank_empty) h1) h
    · cases h

theorem cellSEnv_blank {m : Mesh} (h : Blank m) (pn : Bool) (al : ℝ) (fa : Bool) (e : ℕ) : ∃ x, cellSEnv m pn al fa e = .error x := by
  unfold cellSEnv
  rcases cellOrient m e with ⟨a, b, c⟩
  dsimp only [bind, Except.bind]
  split
  · exact ⟨_, rfl⟩
  split
  · exact ⟨_, rfl⟩
  · simp only [h.node]; exact ⟨_, rfl⟩

theorem cellNSEnv_blank {m : Mesh} (h : Blank m) (pn : Bool) (al : ℝ) (fa : Bool) (e : ℕ) : ∃ x, cellNSEnv m pn al fa e = .error x := by
  unfold cellNSEnv
  rcases cellNSOrient m e with ⟨a, b, c⟩
  dsimp only [bind, Except.bind]
  split
  · exact ⟨_, rfl⟩
  split
  · exact ⟨_, rfl⟩
  · simp only [h.node]; exact ⟨_, rfl⟩

theorem edgeSG_blank {m : Mesh} (h : Blank m) (pn : Bool) (al : ℝ) (fa : Bool) (k : Key) : ∃ x, edgeSG m pn al fa k = .error x := by
  unfold edgeSG
  split
  · exact ⟨_, rfl⟩
  · unfold edgeBEnv; rw [(h.edge k).1]; exact ⟨_, rfl⟩
  · unfold edgeIEnv; rw [(h.edge k).1]; exact ⟨_, rfl⟩
  · exact ⟨_, rfl⟩

/-- C49, first half: on a mesh with a triangle for which `calc_k0` was never called, `add_k0s` raises with any method and leaves the
matrix as it was, and `calc_kG` raises -/
theorem C49_before {m : Mesh} (h : Unprepared m) (hne : m.eids ≠ []) (pn : Bool) :
    (∀ K method al fa, ∃ x, addK0s K m pn method al fa = (K, some x)) ∧ ∀ d, ∃ x, calcKG m d pn = .error x := by
  have hb := h.blank
  have hkne : m.ekeys ≠ [] := by
    obtain ⟨e, he⟩ := List.exists_mem_of_ne_nil _ hne
    intro h0
    have := (h.reachable.wf.mem_ekeys (sortPair (m.tria e).n1 (m.tria e).n2)).2 ⟨e, he, by simp [Tria.edgeIds]⟩
    rw [h0] at this; cases this
  constructor
  · intro K method al fa
    rw [addK0s_eq]
    have : ∃ x gs, k0sIncr m pn method al fa = .error x :: gs := by
      unfold k0sIncr
      split
      · obtain ⟨e, l, hl⟩ := List.exists_cons_of_ne_nil hne
        obtain ⟨x, hx⟩ := cellSEnv_blank hb pn al fa e
        rw [hl, List.map_cons, hx]; exact ⟨x, _, rfl⟩
      split
      · obtain ⟨e, l, hl⟩ := List.exists_cons_of_ne_nil hne
        obtain ⟨x, hx⟩ := cellNSEnv_blank hb pn al fa e
        rw [hl, List.map_cons, hx]; exact ⟨x, _, rfl⟩
      split
      · obtain ⟨e, l, hl⟩ := List.exists_cons_of_ne_nil hkne
        obtain ⟨x, hx⟩ := edgeSG_blank hb pn al fa e
        rw [hl, List.map_cons, hx]; exact ⟨x, _, rfl⟩
      · exact ⟨_, _, rfl⟩
    obtain ⟨x, gs, hg⟩ := this
    rw [hg]
    exact ⟨x, rfl⟩
  · intro d
    obtain ⟨k, l, hl⟩ := List.exists_cons_of_ne_nil hkne
    have : ∃ x, kGEnv m d pn (m.edge k) = .error x := by
      unfold kGEnv
      split
      · exact ⟨_, rfl⟩
      split
      · exact ⟨_, rfl⟩
      rw [(hb.edge k).2.2]
      exact ⟨_, rfl⟩
    obtain ⟨x, hx⟩ := this
    refine ⟨x, ?_⟩
    unfold calcKG
    rw [hl]
    simp only [matLoop, kGEdge, hx]

/-- C49 before `calc_k0`, concrete case: one triangle with its property assigned -/
example (K : Mat) : ∃ x, addK0s K (exOne (0, 1, 2)) false "cell-based" 0.1 true = (K, some x) :=
  (C49_before (.delaunay [.d2 0 0, .d2 1 0, .d2 0 1] (toInts [(0, 1, 2)]) _ rfl [.setTriaProp 1 (some exIso)] (by simp [Op.isK0]))
    (by rw [show (run _ [Op.setTriaProp 1 (some exIso)] : Mesh).eids = [1] from rfl]; simp) false).1 K _ _ _

/-! ### after `calc_k0` -/

theorem entriesOk_incr {m : Mesh} (hx : Indexed m) {pn : Bool} {method : String} {al : ℝ} {fa : Bool}
    (hn : ∀ p q, Coupled m method p q → p ∈ m.nids ∧ q ∈ m.nids) {es : List (ℤ × ℤ × ℝ)} (h : .ok es ∈ k0sIncr m pn method al fa) :
    EntriesOk (5 * m.nids.length) es := by
  intro x hxm
  obtain ⟨p, q, a, b, r, s, ha, hb, hc, hr, hs, e1, e2⟩ := k0sIncr_pos h hxm
  obtain ⟨hp, hq⟩ := hn p q hc
  rw [hx.index hp] at ha
  rw [hx.index hq] at hb
  have la := List.idxOf_lt_length_iff.2 hp
  have lb := List.idxOf_lt_length_iff.2 hq
  cases ha; cases hb
  rw [e1, e2]
  constructor <;>
  · unfold pyIdx
    rw [if_pos (by positivity), if_pos (by exact_mod_cast (by omega))]
    rfl

theorem pyMax_some {l : List ℝ} (h : l ≠ []) : ∃ a, pyMax l = some a := by
  cases l with
  | nil => exact absurd rfl h
  | cons a l => exact ⟨_, rfl⟩

theorem cell_incr_ok {m : Mesh} (w : WF m) (hx : Indexed m) {pn : Bool} (hh : HasProps m pn) (al : ℝ) (fa : Bool) {e : ℕ} (he : e ∈ m.eids) :
    (∃ env, cellSEnv m pn al fa e = .ok env) ∧ ∃ env, cellNSEnv m pn al fa e = .ok env := by
  obtain ⟨k1, k2, k3⟩ := w.corners he
  have hmax : ∃ a, cellMaxl m e (m.triaArea e) fa = .ok a := by
    unfold cellMaxl
    cases fa with
    | true => exact ⟨_, rfl⟩
    | false =>
      rw [if_neg (by simp)]
      obtain ⟨a, ha⟩ := pyMax_some (l := (m.tria e).edges.map (edgeLen m)) (by
        intro h0
        have := (w.tedges e he).length_eq
        rw [List.map_eq_nil_iff.1 h0] at this
        simp [Tria.edgeIds] at this)
      rw [ha]; exact ⟨_, rfl⟩
  obtain ⟨a, ha⟩ := hmax
  have ho : cellOrient m e = ((m.tria e).n1, (m.tria e).n2, (m.tria e).n3) ∨ cellOrient m e = ((m.tria e).n2, (m.tria e).n1, (m.tria e).n3) := by
    unfold cellOrient; dsimp only; split
    · right; rfl
    · left; rfl
  have ho' : cellNSOrient m e = ((m.tria e).n1, (m.tria e).n2, (m.tria e).n3) ∨ cellNSOrient m e = ((m.tria e).n2, (m.tria e).n1, (m.tria e).n3) := by
    unfold cellNSOrient; dsimp only; split
    · right; rfl
    · left; rfl
  have p1 : [(m.tria e).n1, (m.tria e).n2, (m.tria e).n3].Perm (corners m e) := List.Perm.refl _
  have p2 : [(m.tria e).n2, (m.tria e).n1, (m.tria e).n3].Perm (corners m e) := List.Perm.swap _ _ _
  constructor
  · unfold cellSEnv
    rcases ho with h | h <;> rw [h] <;> dsimp only [bind, Except.bind]
    · rw [cellShear_eq hh he p1]; dsimp only; rw [ha]; dsimp only; rw [hx.index k1, hx.index k2, hx.index k3]; exact ⟨_, rfl⟩
    · rw [cellShear_eq hh he p2]; dsimp only; rw [ha]; dsimp only; rw [hx.index k1, hx.index k2, hx.index k3]; exact ⟨_, rfl⟩
  · unfold cellNSEnv
    rcases ho' with h | h <;> rw [h] <;> dsimp only [bind, Except.bind]
    · rw [cellShear_eq hh he p1]; dsimp only; rw [ha]; dsimp only; rw [hx.index k1, hx.index k2, hx.index k3]; exact ⟨_, rfl⟩
    · rw [cellShear_eq hh he p2]; dsimp only; rw [ha]; dsimp only; rw [hx.index k1, hx.index k2, hx.index k3]; exact ⟨_, rfl⟩

theorem edge_incr_ok {m : Mesh} (w : WF m) (hp : Proper m) (hq : Prepared m) {pn : Bool} (hh : HasProps m pn) (al : ℝ) (fa : Bool) {k : Key} (hk : k ∈ m.ekeys) :
    ∃ es, edgeSG m pn al fa k = .ok es := by
  have hidx : ∀ {i}, i ∈ m.nids → ∃ a, (m.node i).index = some a := by
    intro i hi; exact ⟨_, Indexed.index hq.index hi⟩
  have hor : ∀ (ed : Edge) t, (edgeOrient m ed t) = (ed.n1, ed.n2) ∨ (edgeOrient m ed t) = (ed.n2, ed.n1) := by
    intro ed t; unfold edgeOrient; split
    · right; rfl
    · left; rfl
  have hN : pn = true → ∀ t ∈ m.eids, ∀ i, IsCorner m t i → ∃ p, (m.node i).prop = some p := by
    intro h; subst h
    intro t ht i hi
    unfold HasProps at hh
    rw [if_pos rfl] at hh
    exact Option.isSome_iff_exists.1 (hh t ht i hi)
  have hT : pn = false → ∀ t ∈ m.eids, ∃ p, (m.tria t).prop = some p := by
    intro h; subst h
    intro t ht
    unfold HasProps at hh
    exact Option.isSome_iff_exists.1 (hh t ht)
  rcases prepared_shape w hp hq hk with ⟨t, o, he, hs⟩ | ⟨t1, t2, o1, o2, he, hs1, hs2, -, -⟩
  · unfold edgeSG
    have htr : (m.edge k).trias = [t] := by rw [he]; rfl
    rw [htr]
    dsimp only
    have key : ∀ a b, (a = k.1 ∧ b = k.2 ∨ a = k.2 ∧ b = k.1) → ∃ env, edgeBEnv m pn al fa (m.edge k) t a b = .ok env := by
      intro a b hab
      have ha : a ∈ m.nids := by rcases hab with ⟨rfl, -⟩ | ⟨rfl, -⟩; exacts [hs.ina, hs.inb]
      have hb : b ∈ m.nids := by rcases hab with ⟨-, rfl⟩ | ⟨-, rfl⟩; exacts [hs.inb, hs.ina]
      obtain ⟨ia, ea⟩ := hidx ha
      obtain ⟨ib, eb⟩ := hidx hb
      obtain ⟨io, eo⟩ := hidx hs.ino
      have hsh : ∃ sp, edgeBShear m pn t a b o = .ok sp := by
        unfold edgeBShear
        cases pn with
        | true =>
          obtain ⟨p, hp1⟩ := hN rfl t hs.mem a ((hs.corner_iff _).2 (by tauto))
          obtain ⟨q, hp2⟩ := hN rfl t hs.mem b ((hs.corner_iff _).2 (by tauto))
          obtain ⟨r, hp3⟩ := hN rfl t hs.mem o ((hs.corner_iff _).2 (by tauto))
          rw [if_pos rfl, hp1, hp2, hp3]; exact ⟨_, rfl⟩
        | false =>
          obtain ⟨p, hp1⟩ := hT rfl t hs.mem
          rw [if_neg (by simp), hp1]; exact ⟨_, rfl⟩
      obtain ⟨sp, hsp⟩ := hsh
      have hmx : ∃ x, edgeBMaxl (m.edge k) (polyArea (m.edge k).sdomain) fa = .ok x := by
        unfold edgeBMaxl
        cases fa with
        | true => exact ⟨_, rfl⟩
        | false =>
          obtain ⟨x, hx⟩ := pyMax_some (l := (m.edge k).ipts.map (·.le)) (by rw [he]; simp [bEdge, iptsA])
          rw [if_neg (by simp), hx]; exact ⟨_, rfl⟩
      obtain ⟨x, hx⟩ := hmx
      unfold edgeBEnv
      rw [show (m.edge k).other1 = some o by rw [he]; rfl, show (m.edge k).Ac = some (polyArea (m.edge k).sdomain) by rw [he]; rfl]
      dsimp only [bind, Except.bind]
      rw [hsp]; dsimp only; rw [hx]; dsimp only; rw [ea, eb, eo]; exact ⟨_, rfl⟩
    have hor' := hor (m.edge k) t
    rw [show (m.edge k).n1 = k.1 by rw [he]; rfl, show (m.edge k).n2 = k.2 by rw [he]; rfl] at hor'
    obtain ⟨env, henv⟩ := key (edgeOrient m (m.edge k) t).1 (edgeOrient m (m.edge k) t).2 (by rcases hor' with h | h <;> rw [h] <;> simp)
    rw [henv]
    exact ⟨_, rfl⟩
  · unfold edgeSG
    have htr : (m.edge k).trias = [t1, t2] := by rw [he]; rfl
    rw [htr]
    dsimp only
    have key : ∀ a b, (a = k.1 ∧ b = k.2 ∨ a = k.2 ∧ b = k.1) → ∃ env, edgeIEnv m pn al fa (m.edge k) t1 t2 a b = .ok env := by
      intro a b hab
      have ha : a ∈ m.nids := by rcases hab with ⟨rfl, -⟩ | ⟨rfl, -⟩; exacts [hs1.ina, hs1.inb]
      have hb : b ∈ m.nids := by rcases hab with ⟨-, rfl⟩ | ⟨-, rfl⟩; exacts [hs1.inb, hs1.ina]
      obtain ⟨ia, ea⟩ := hidx ha
      obtain ⟨ib, eb⟩ := hidx hb
      obtain ⟨io, eo⟩ := hidx hs1.ino
      obtain ⟨ip, ep⟩ := hidx hs2.ino
      have hsh : ∀ A1 A2 A, ∃ sp, edgeIShear m pn A1 A2 A t1 t2 a b o1 o2 = .ok sp := by
        intro A1 A2 A
        unfold edgeIShear
        cases pn with
        | true =>
          obtain ⟨p, hp1⟩ := hN rfl t1 hs1.mem a ((hs1.corner_iff _).2 (by tauto))
          obtain ⟨q, hp2⟩ := hN rfl t1 hs1.mem b ((hs1.corner_iff _).2 (by tauto))
          obtain ⟨r, hp3⟩ := hN rfl t1 hs1.mem o1 ((hs1.corner_iff _).2 (by tauto))
          obtain ⟨r, hp4⟩ := hN rfl t2 hs2.mem o2 ((hs2.corner_iff _).2 (by tauto))
          rw [if_pos rfl, hp1, hp2, hp3, hp4]; exact ⟨_, rfl⟩
        | false =>
          obtain ⟨p, hp1⟩ := hT rfl t1 hs1.mem
          obtain ⟨q, hp2⟩ := hT rfl t2 hs2.mem
          rw [if_neg (by simp), hp1, hp2]; exact ⟨_, rfl⟩
      obtain ⟨sp, hsp⟩ := hsh (polyArea [m.mid t1, (m.node a).xyz, (m.node b).xyz]) (polyArea [(m.node a).xyz, m.mid t2, (m.node b).xyz]) (polyArea (m.edge k).sdomain)
      have hmx : ∃ x, edgeIMaxl m (m.edge k) (polyArea (m.edge k).sdomain) fa = .ok x := by
        unfold edgeIMaxl
        cases fa with
        | true => exact ⟨_, rfl⟩
        | false =>
          obtain ⟨x, hx⟩ := pyMax_some (l := (m.edge k).ipts.map (·.le)) (by rw [he]; simp [iEdge, iptsA])
          rw [if_neg (by simp), hx]; exact ⟨_, rfl⟩
      obtain ⟨x, hx⟩ := hmx
      unfold edgeIEnv
      rw [show (m.edge k).other1 = some o1 by rw [he]; rfl, show (m.edge k).other2 = some o2 by rw [he]; rfl,
        show (m.edge k).Ac = some (polyArea (m.edge k).sdomain) by rw [he]; rfl]
      dsimp only [bind, Except.bind]
      rw [hsp]; dsimp only; rw [hx]; dsimp only; rw [ea, eb, eo, ep]; exact ⟨_, rfl⟩
    have hor' := hor (m.edge k) t1
    rw [show (m.edge k).n1 = k.1 by rw [he]; rfl, show (m.edge k).n2 = k.2 by rw [he]; rfl] at hor'
    obtain ⟨env, henv⟩ := key (edgeOrient m (m.edge k) t1).1 (edgeOrient m (m.edge k) t1).2 (by rcases hor' with h | h <;> rw [h] <;> simp)
    rw [henv]
    exact ⟨_, rfl⟩

theorem k0sIncr_good {m : Mesh} (w : WF m) (hq : Prepared m) (hp : Proper m) {pn : Bool} (hh : HasProps m pn) {method : String}
    (hm : method = "cell-based" ∨ method = "cell-based-no-smoothing" ∨ method = "edge-based") (al : ℝ) (fa : Bool) {n : ℕ}
    (hK : n = 5 * m.nids.length) : ∀ g ∈ k0sIncr m pn method al fa, GoodE n g := by
  have hx : Indexed m := hq.index
  have hcorner : ∀ p q, (∃ e ∈ m.eids, IsCorner m e p ∧ IsCorner m e q) → p ∈ m.nids ∧ q ∈ m.nids := by
    rintro p q ⟨e, he, h1, h2⟩
    exact ⟨corner_mem w hp.distinct he h1, corner_mem w hp.distinct he h2⟩
  have hn : ∀ p q, Coupled m method p q → p ∈ m.nids ∧ q ∈ m.nids := by
    intro p q h
    unfold Coupled at h
    split at h
    · obtain ⟨k, hk, h1, h2⟩ := h
      obtain ⟨t, ht, h3⟩ := h1.near w hp hq hk
      obtain ⟨t', ht', h4⟩ := h2.near w hp hq hk
      rw [w.etrias k hk] at ht ht'
      exact ⟨corner_mem w hp.distinct (mem_sideTrias.1 ht).1 h3, corner_mem w hp.distinct (mem_sideTrias.1 ht').1 h4⟩
    · exact hcorner p q h
  intro g hg
  have : ∃ es, g = .ok es := by
    unfold k0sIncr at hg
    rcases hm with rfl | rfl | rfl
    · rw [if_pos rfl] at hg
      obtain ⟨e, he, rfl⟩ := List.mem_map.1 hg
      obtain ⟨⟨env, henv⟩, -⟩ := cell_incr_ok w hx hh al fa he
      rw [henv]; exact ⟨_, rfl⟩
    · rw [if_neg (by decide), if_pos rfl] at hg
      obtain ⟨e, he, rfl⟩ := List.mem_map.1 hg
      obtain ⟨-, env, henv⟩ := cell_incr_ok w hx hh al fa he
      rw [henv]; exact ⟨_, rfl⟩
    · rw [if_neg (by decide), if_neg (by decide), if_pos rfl] at hg
      obtain ⟨k, hk, rfl⟩ := List.mem_map.1 hg
      exact edge_incr_ok w hp hq hh al fa hk
  obtain ⟨es, rfl⟩ := this
  exact ⟨es, rfl, by rw [hK]; exact entriesOk_incr hx hn hg⟩

/-- `add_k0s` returns on a mesh prepared by `calc_k0` whose needed properties are assigned -/
theorem C49_k0s {m : Mesh} (ha : AfterK0 m) (hp : Proper m) {pn : Bool} (hh : HasProps m pn) {method : String}
    (hm : method = "cell-based" ∨ method = "cell-based-no-smoothing" ∨ method = "edge-based") (al : ℝ) (fa : Bool) {K : Mat}
    (hK : K.dim = 5 * m.nids.length) : (addK0s K m pn method al fa).2 = none := by
  rw [addK0s_eq]
  exact applyAll_ok (k0sIncr_good ha.wf ha.prepared hp hh hm al fa hK)

/-- C49, second half: after a successful `calc_k0(mesh, pn)` and any further analysis calls, `add_k0s` with the same flag and any of the
three methods returns, and so does `calc_kG` for a vector of length 5n -/
theorem C49_after {m : Mesh} (hr : Reachable m) (hp : Proper m) {pn : Bool} {K0 : Mat} (h0 : (calcK0 m pn).2 = .ok K0) (ops : List Op)
    (ho : ∀ op ∈ ops, op.isAssign = false) :
    (∀ method ∈ ["cell-based", "cell-based-no-smoothing", "edge-based"], ∀ al fa, ∀ K : Mat, K.dim = K0.dim →
      (addK0s K (run (calcK0 m pn).1 ops) pn method al fa).2 = none) ∧
    ∀ d : List ℝ, d.length = 5 * m.nids.length → ∃ KG, calcKG (run (calcK0 m pn).1 ops) d pn = .ok KG ∧ KG.dim = K0.dim := by
  have hne := ((calcK0_cases m pn hr.wf).2 K0 h0).2.2.1
  have hh : HasProps m pn := by
    by_contra hh
    rw [(C09_iff hr hp hne pn).2 hh] at h0; cases h0
  have s1 := calcK0_static m pn hr.wf
  have s2 := run_analysis ops (hr.calcK0 pn).wf ho
  have hdim : K0.dim = 5 * m.nids.length := by
    obtain ⟨K, hK, hd⟩ := C11_success hr hp hne hh
    rw [h0] at hK; cases hK; exact hd
  have hn : (run (calcK0 m pn).1 ops).nids = m.nids := by rw [s2.nids, s1.nids]
  have ha : AfterK0 (run (calcK0 m pn).1 ops) := .intro m hr pn K0 h0 ops fun op h => by
    have := ho op h
    cases op <;> first | rfl | cases this
  have hp' := s2.proper (s1.proper hp)
  have hh' := s2.hasProps (s1.hasProps hh)
  constructor
  · intro method hm al fa K hK
    exact C49_k0s ha hp' hh' (by simpa using hm) al fa (by rw [hK, hdim, hn])
  · intro d hd
    obtain ⟨KG, h1, h2⟩ := C49_kG ha hp' hh' (d := d) (by rw [hd, hn])
    exact ⟨KG, h1, by rw [h2, hdim, hn]⟩

/-- C49, concrete case: the example mesh -/
example (p1 p2 p3 p4 q1 q2 : Lam) (K : Mat) (hK : K.dim = 20) :
    (addK0s K (calcK0 (exMesh p1 p2 p3 p4 q1 q2) true).1 true "edge-based" 0.1 false).2 = none :=
  C49_k0s (exAfter_after p1 p2 p3 p4 q1 q2) (exAfter_proper ..) (exAfter_props ..) (Or.inr (Or.inr rfl)) 0.1 false
    (by rw [exAfter_nids]; exact hK)

end Meshless
