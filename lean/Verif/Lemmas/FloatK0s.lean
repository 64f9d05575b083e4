import Verif.Lemmas.FloatK0
import Verif.Lemmas.K0sEdgeForm
import Verif.Lemmas.K0sForm
import Verif.Lemmas.Numbered

/-!
Accuracy of the shear terms computed with rounding, for the three methods of `add_k0s`.
-/

set_option autoImplicit false

namespace Meshless
open Spec Filter Topology

variable {ι : Type} {π : ι → Rounding}

/-! ### laminate data, lengths, moduli -/

/-- accurate averaged laminate data -/
structure AccShear (π : ι → Rounding) (S : ι → ShearProp) (s : ShearProp) : Prop where
  k13 : Acc π (fun i => (S i).k13) s.k13
  k23 : Acc π (fun i => (S i).k23) s.k23
  h : Acc π (fun i => (S i).h) s.h
  E : ∀ a b, Acc π (fun i => (S i).E a b) (s.E a b)

theorem AccShear.const (s : ShearProp) : AccShear π (fun _ => s) s := ⟨Acc.const _, Acc.const _, Acc.const _, fun _ _ => Acc.const _⟩

theorem shear3_acc (c1 c2 c3 : ℝ) (p q r : Lam) :
    AccShear π (fun i => (π i).shear3 ((π i).fl c1) ((π i).fl c2) ((π i).fl c3) p q r) (shear3 c1 c2 c3 p q r) := by
  refine ⟨?_, ?_, ?_, fun a b => ?_⟩
  all_goals
    exact (((Acc.cst _).mul (Acc.const _)).add ((Acc.cst _).mul (Acc.const _))).add ((Acc.cst _).mul (Acc.const _))

theorem shear4_acc (p q r s : Lam) : AccShear π (fun i => (π i).shear4 p q r s) (shear4 p q r s) := by
  refine ⟨?_, ?_, ?_, fun a b => ?_⟩
  all_goals
    exact ((((Acc.cst _).mul (Acc.const _)).add ((Acc.cst _).mul (Acc.const _))).add ((Acc.cst _).mul (Acc.const _))).add ((Acc.cst _).mul (Acc.const _))

theorem shearA_acc {A B C : ι → ℝ} {a b c : ℝ} (hA : Acc π A a) (hB : Acc π B b) (hC : Acc π C c) (h0 : c ≠ 0) (p q : Lam) :
    AccShear π (fun i => (π i).shearA (A i) (B i) (C i) p q) (shearA a b c p q) := by
  refine ⟨?_, ?_, ?_, fun a b => ?_⟩
  all_goals
    exact ((hA.mul (Acc.const _)).add (hB.mul (Acc.const _))).div hC h0

theorem cellShear_acc {m : Mesh} {pn : Bool} {e a b c : ℕ} {s : ShearProp} (h : cellShear m pn e a b c = .ok s) :
    ∃ S : ι → ShearProp, (∀ i, (π i).cellShear m pn e a b c = .ok (S i)) ∧ AccShear π S s := by
  unfold cellShear at h
  unfold Rounding.cellShear
  cases pn with
  | true =>
    simp only [if_true] at h ⊢
    revert h
    rcases (m.node a).prop with _ | p <;> rcases (m.node b).prop with _ | q <;> rcases (m.node c).prop with _ | r <;> intro h <;> cases h
    exact ⟨_, fun i => rfl, shear3_acc _ _ _ _ _ _⟩
  | false =>
    simp only [Bool.false_eq_true, if_false] at h ⊢
    revert h
    rcases (m.tria e).prop with _ | p <;> intro h <;> cases h
    exact ⟨_, fun i => rfl, AccShear.const _⟩

theorem edgeBShear_acc {m : Mesh} {pn : Bool} {t a b o : ℕ} {s : ShearProp} (h : edgeBShear m pn t a b o = .ok s) :
    ∃ S : ι → ShearProp, (∀ i, (π i).edgeBShear m pn t a b o = .ok (S i)) ∧ AccShear π S s := by
  unfold edgeBShear at h
  unfold Rounding.edgeBShear
  cases pn with
  | true =>
    simp only [if_true] at h ⊢
    revert h
    rcases (m.node a).prop with _ | p <;> rcases (m.node b).prop with _ | q <;> rcases (m.node o).prop with _ | r <;> intro h <;> cases h
    exact ⟨_, fun i => rfl, shear3_acc _ _ _ _ _ _⟩
  | false =>
    simp only [Bool.false_eq_true, if_false] at h ⊢
    revert h
    rcases (m.tria t).prop with _ | p <;> intro h <;> cases h
    exact ⟨_, fun i => rfl, AccShear.const _⟩

theorem edgeIShear_acc {m : Mesh} {pn : Bool} {A B C : ι → ℝ} {x y z : ℝ} (hA : Acc π A x) (hB : Acc π B y) (hC : Acc π C z) (h0 : z ≠ 0)
    {t1 t2 a b o1 o2 : ℕ} {s : ShearProp} (h : edgeIShear m pn x y z t1 t2 a b o1 o2 = .ok s) :
    ∃ S : ι → ShearProp, (∀ i, (π i).edgeIShear m pn (A i) (B i) (C i) t1 t2 a b o1 o2 = .ok (S i)) ∧ AccShear π S s := by
  unfold edgeIShear at h
  unfold Rounding.edgeIShear
  cases pn with
  | true =>
    simp only [if_true] at h ⊢
    revert h
    rcases (m.node a).prop with _ | p <;> rcases (m.node b).prop with _ | q <;> rcases (m.node o1).prop with _ | r <;>
      rcases (m.node o2).prop with _ | s <;> intro h <;> cases h
    exact ⟨_, fun i => rfl, shear4_acc _ _ _ _⟩
  | false =>
    simp only [Bool.false_eq_true, if_false] at h ⊢
    revert h
    rcases (m.tria t1).prop with _ | p <;> rcases (m.tria t2).prop with _ | q <;> intro h <;> cases h
    exact ⟨_, fun i => rfl, shearA_acc hA hB hC h0 _ _⟩

theorem foldl_max_acc : ∀ {L : List (ι → ℝ)} {l : List ℝ}, List.Forall₂ (Acc π) L l → ∀ {A : ι → ℝ} {a : ℝ}, Acc π A a →
    Acc π (fun i => (L.map (· i)).foldl max (A i)) (l.foldl max a) := by
  intro L l h
  induction h with
  | nil => intro A a hA; exact hA
  | cons h _ ih => intro A a hA; exact ih (hA.max' h)

theorem pyMax_acc {L : List (ι → ℝ)} {l : List ℝ} (h : List.Forall₂ (Acc π) L l) {a : ℝ} (ha : pyMax l = some a) :
    ∃ A : ι → ℝ, (∀ i, pyMax (L.map (· i)) = some (A i)) ∧ Acc π A a := by
  cases h with
  | nil => cases ha
  | cons h hF =>
    obtain rfl := Option.some.inj ha
    exact ⟨_, fun i => rfl, foldl_max_acc hF h⟩

theorem stab_acc {L H : ι → ℝ} {l h : ℝ} (hL : Acc π L l) (hH : Acc π H h) (h0 : h ≠ 0) {al : ℝ} (hal : 0 ≤ al) :
    Acc π (fun i => (π i).stab al (L i) (H i)) (stab al l h) := by
  unfold stab
  have h2 : h * h ≠ 0 := mul_ne_zero h0 h0
  rw [pow_two, pow_two]
  refine (Acc.const 1).div ((Acc.const 1).add (((Acc.const al).mul (hL.mul hL)).div (hH.mul hH) h2)) ?_
  have : 0 ≤ al * (l * l) / (h * h) := div_nonneg (mul_nonneg hal (mul_self_nonneg l)) (mul_self_nonneg h)
  linarith

theorem edgeIModuli_acc {S : ι → ShearProp} {s : ShearProp} (hS : AccShear π S s) (h0 : s.h ≠ 0) {L : ι → ℝ} {l : ℝ} (hL : Acc π L l) {al : ℝ} (hal : 0 ≤ al) :
    Acc π (fun i => ((π i).edgeIModuli (S i) al (L i)).1) (edgeIModuli s al l).1 ∧
    Acc π (fun i => ((π i).edgeIModuli (S i) al (L i)).2.1) (edgeIModuli s al l).2.1 ∧
    Acc π (fun i => ((π i).edgeIModuli (S i) al (L i)).2.2) (edgeIModuli s al l).2.2 := by
  unfold edgeIModuli
  dsimp only
  rw [pow_two, pow_two]
  have h2 : 0 < s.h * s.h := mul_self_pos.2 h0
  have hc : s.h * s.h + al * (l * l) ≠ 0 := by
    have : 0 ≤ al * (l * l) := mul_nonneg hal (mul_self_nonneg l)
    linarith
  have c := (hS.h.mul hS.h).div ((hS.h.mul hS.h).add ((Acc.const al).mul (hL.mul hL))) hc
  exact ⟨c.mul (hS.k13.mul (hS.E 0 0)), c.mul ((hS.k13.min' hS.k23).mul (hS.E 0 1)), c.mul (hS.k23.mul (hS.E 1 1))⟩

theorem edgeBModuli_acc {S : ι → ShearProp} {s : ShearProp} (hS : AccShear π S s) (h0 : s.h ≠ 0) {L : ι → ℝ} {l : ℝ} (hL : Acc π L l) {al : ℝ} (hal : 0 ≤ al) :
    Acc π (fun i => ((π i).edgeBModuli (S i) al (L i)).1) (edgeBModuli s al l).1 ∧
    Acc π (fun i => ((π i).edgeBModuli (S i) al (L i)).2.1) (edgeBModuli s al l).2.1 ∧
    Acc π (fun i => ((π i).edgeBModuli (S i) al (L i)).2.2) (edgeBModuli s al l).2.2 :=
  have c := stab_acc hL hS.h h0 hal
  ⟨c.mul (hS.k23.mul (hS.E 0 0)), Acc.const _, c.mul (hS.k13.mul (hS.E 1 1))⟩

/-! ### triangles -/

/-- the corners of a triangle with an area lie apart in the plane -/
theorem apart {m : Mesh} {a b : ℕ} {P : List ℕ} (h : sarea m [[a], [b], P] ≠ 0) :
    ((m.node a).xyz.sub (m.node b).xyz).x ≠ 0 ∨ ((m.node a).xyz.sub (m.node b).xyz).y ≠ 0 := by
  by_contra hc
  push Not at hc
  obtain ⟨h1, h2⟩ := hc
  simp only [Vec3.sub] at h1 h2
  apply h
  rw [sarea3]
  simp only [mean_single, nx, ny]
  rw [sub_eq_zero.1 h1, sub_eq_zero.1 h2]
  ring

theorem edgeLen_acc {m : Mesh} (w : WF m) (hf : FlatMesh m) {e : ℕ} (he : e ∈ m.eids) {k : Key} (hk : k ∈ (m.tria e).edges) :
    Acc π (fun i => (π i).edgeLen m k) (edgeLen m k) := by
  have hk' : k ∈ (m.tria e).edgeIds := (w.tedges e he).mem_iff.1 hk
  have hm := (w.mem_ekeys _).2 ⟨e, he, hk'⟩
  refine AccV.norm ((AccV.const _).sub (AccV.const _)) ?_
  rw [(w.en _ hm).1, (w.en _ hm).2]
  have h0 := hf.nondeg e he
  have key : ∀ a b c, sarea m [[a], [b], [c]] ≠ 0 → sortPair a b = k →
      ((m.node k.1).xyz.sub (m.node k.2).xyz).x ≠ 0 ∨ ((m.node k.1).xyz.sub (m.node k.2).xyz).y ≠ 0 := by
    rintro a b c h rfl
    unfold sortPair
    split
    · exact apart h
    · apply apart (P := [c])
      intro h'; apply h
      rw [sarea3] at h' ⊢
      linarith
  simp only [Tria.edgeIds, List.mem_cons, List.not_mem_nil, or_false] at hk'
  rcases hk' with h | h | h
  · exact key _ _ _ h0 h.symm
  · refine key _ _ (m.tria e).n1 ?_ h.symm
    intro h'; apply h0; rw [sarea3] at h' ⊢; linarith
  · refine key _ _ (m.tria e).n2 ?_ h.symm
    intro h'; apply h0; rw [sarea3] at h' ⊢; linarith

theorem cellMaxl_acc {m : Mesh} (w : WF m) (hf : FlatMesh m) {e : ℕ} (he : e ∈ m.eids) {A : ι → ℝ} {a : ℝ} (hA : Acc π A a) (ha : 0 < a) {fa : Bool} {l : ℝ}
    (h : cellMaxl m e a fa = .ok l) : ∃ L : ι → ℝ, (∀ i, (π i).cellMaxl m e (A i) fa = .ok (L i)) ∧ Acc π L l := by
  unfold cellMaxl at h
  unfold Rounding.cellMaxl
  cases fa with
  | true =>
    simp only [if_true] at h ⊢
    obtain rfl := Except.ok.inj h
    exact ⟨_, fun i => rfl, hA.sqrt ha⟩
  | false =>
    simp only [Bool.false_eq_true, if_false] at h ⊢
    have hF : List.Forall₂ (Acc π) ((m.tria e).edges.map fun k i => (π i).edgeLen m k) ((m.tria e).edges.map (edgeLen m)) := by
      rw [List.forall₂_map_left_iff, List.forall₂_map_right_iff, List.forall₂_same]
      exact fun k hk => edgeLen_acc w hf he hk
    rcases hx : pyMax ((m.tria e).edges.map (edgeLen m)) with _ | x
    · rw [hx] at h; cases h
    rw [hx] at h
    obtain rfl := Except.ok.inj h
    obtain ⟨B, b1, b2⟩ := pyMax_acc hF hx
    refine ⟨B, fun i => ?_, b2⟩
    have := b1 i
    rw [List.map_map] at this
    rw [show (m.tria e).edges.map ((π i).edgeLen m) = (m.tria e).edges.map ((fun x => x i) ∘ fun k i => (π i).edgeLen m k) from rfl, this]

/-- the sign of an accurate value is the exact sign -/
theorem neg_test {a : ι → ℝ} {l : ℝ} (h : Acc π a l) (hl : l ≠ 0) : ∀ᶠ i in smallU π, (a i < 0 ↔ l < 0) := by
  rcases lt_or_gt_of_ne hl with h0 | h0
  · filter_upwards [h.tendsto.eventually (gt_mem_nhds h0)] with i hi
    exact ⟨fun _ => h0, fun _ => hi⟩
  · filter_upwards [h.tendsto.eventually (lt_mem_nhds h0)] with i hi
    exact ⟨fun hh => absurd hh (not_lt.2 hi.le), fun hh => absurd hh (not_lt.2 h0.le)⟩

theorem cellOrient_acc {m : Mesh} (w : WF m) (hf : FlatMesh m) {e : ℕ} (he : e ∈ m.eids) :
    ∀ᶠ i in smallU π, (π i).cellOrient m e = cellOrient m e := by
  have h1 := (((AccV.const (π := π) (m.node (m.tria e).n1).xyz).sub (mid_acc m e)).cross ((AccV.const (m.node (m.tria e).n2).xyz).sub (mid_acc m e))).dot
    (AccV.const zGlobal)
  have h2 : Vec3.dot (Vec3.cross ((m.node (m.tria e).n1).xyz.sub (m.mid e)) ((m.node (m.tria e).n2).xyz.sub (m.mid e))) zGlobal ≠ 0 := by
    obtain ⟨hx, hy⟩ := mid_flat w hf he
    have h0 := hf.nondeg e he
    intro h'; apply h0
    rw [sarea3]
    simp only [Vec3.dot, Vec3.cross, Vec3.sub, zGlobal, hx, hy, mean_corners'] at h'
    simp only [mean_single]
    simp only [nx, ny] at h' ⊢
    linarith
  filter_upwards [neg_test h1 h2] with i hi
  unfold Rounding.cellOrient cellOrient
  simp only [hi]

theorem cellNSOrient_acc {m : Mesh} (hf : FlatMesh m) {e : ℕ} (he : e ∈ m.eids) :
    ∀ᶠ i in smallU π, (π i).cellNSOrient m e = cellNSOrient m e := by
  have h1 := (((AccV.const (π := π) (m.node (m.tria e).n2).xyz).sub (AccV.const (m.node (m.tria e).n1).xyz)).cross
    ((AccV.const (m.node (m.tria e).n3).xyz).sub (AccV.const (m.node (m.tria e).n1).xyz))).dot (AccV.const zGlobal)
  have h2 : Vec3.dot (Vec3.cross ((m.node (m.tria e).n2).xyz.sub (m.node (m.tria e).n1).xyz) ((m.node (m.tria e).n3).xyz.sub (m.node (m.tria e).n1).xyz)) zGlobal ≠ 0 := by
    have h0 := hf.nondeg e he
    intro h'; apply h0
    rw [sarea3]
    simp only [Vec3.dot, Vec3.cross, Vec3.sub, zGlobal] at h'
    simp only [mean_single, nx, ny]
    linarith
  filter_upwards [neg_test h1 h2] with i hi
  unfold Rounding.cellNSOrient cellNSOrient
  simp only [hi]

theorem likeCellS {R : Rounding} {m m' : Mesh} (h : LikeMesh m m') (pn : Bool) (al : ℝ) (fa : Bool) (e : ℕ) :
    R.cellSEnv m' pn al fa e = R.cellSEnv m pn al fa e ∧ R.cellNSEnv m' pn al fa e = R.cellNSEnv m pn al fa e := by
  have hl : R.edgeLen m' = R.edgeLen m := by
    funext k; unfold Rounding.edgeLen; rw [(h.edge k).n1, (h.edge k).n2, h.node]
  have hm : ∀ A, R.cellMaxl m' e A fa = R.cellMaxl m e A fa := by intro A; unfold Rounding.cellMaxl; rw [hl, h.tria]
  unfold Rounding.cellSEnv Rounding.cellNSEnv
  simp only [hm]
  rw [h.eta]
  exact ⟨rfl, rfl⟩

/-- the local variables of a triangle, smoothed method -/
theorem cellSEnv_acc {m : Mesh} {pn : Bool} {M : ι → Mesh} (h : Ran π m pn M) (ht : Thick m pn) {al : ℝ} (hal : 0 ≤ al) (fa : Bool) {e : ℕ} (he : e ∈ m.eids) :
    ∃ (E' : CellSEnv (ι → ℝ)) (E0 : CellSEnv ℝ), cellSEnv m pn al fa e = .ok E0 ∧ (∀ᶠ i in smallU π, (π i).cellSEnv (M i) pn al fa e = .ok (E'.map fun a => a i)) ∧
      CellSEnv.Rel (Acc π) E' E0 ∧ E0.Ac ≠ 0 ∧ E0.Ac1 ≠ 0 ∧ E0.Ac2 ≠ 0 ∧ E0.Ac3 ≠ 0 := by
  have w := h.w
  have hf : FlatMesh m := h.hg.flatMesh
  have hi : Indexed m := h.hq.index
  have hpos : 0 < triArea m e := abs_pos.2 (hf.nondeg e he)
  have hA : Acc π (fun i => (π i).triaArea m e) (m.triaArea e) := triaArea_acc m e (by rw [triaArea_eq w hf he]; exact hpos)
  have ho := cellOrient_acc (π := π) w hf he
  have hc := cellOrient_ccw w hf he
  obtain ⟨a', b', c', -, hv⟩ := cellSEnv_eq w hi hf h.hh ht al fa he
  rcases hx : cellOrient m e with ⟨a, b, c⟩
  rw [hx] at hc ho
  dsimp only at hc
  obtain ⟨ha, hb, hc'⟩ := hc.mem w he
  have hs0 := cellShear_eq h.hh he hc.perm
  obtain ⟨S, s1, s2⟩ := cellShear_acc (π := π) hs0
  have hm0 := cellMaxl_eq w hf he fa
  obtain ⟨L, l1, l2⟩ := cellMaxl_acc w hf he hA (by rw [triaArea_eq w hf he]; exact hpos) hm0
  have hst := stab_acc l2 s2.h (ht e he) hal
  have hv0 := hv
  unfold cellSEnv at hv
  simp only [hx, hs0, hm0, Bind.bind, Except.bind, hi.index ha, hi.index hb, hi.index hc'] at hv
  have hmid := mid_acc (π := π) m e
  have hE := Except.ok.inj hv
  refine ⟨{ i1 := (m.nids.idxOf a : ℕ), i2 := (m.nids.idxOf b : ℕ), i3 := (m.nids.idxOf c : ℕ), Ac := fun i => (π i).triaArea m e,
            a1 := fun i => (π i).sub (m.node a).xyz.x ((π i).mid m e).x, b1 := fun i => (π i).sub (m.node a).xyz.y ((π i).mid m e).y,
            c1 := fun i => (π i).sub (m.node b).xyz.x ((π i).mid m e).x, d1 := fun i => (π i).sub (m.node b).xyz.y ((π i).mid m e).y,
            Ac1 := fun i => (π i).polyArea [(π i).mid m e, (m.node a).xyz, (m.node b).xyz],
            a2 := fun i => (π i).sub (m.node b).xyz.x ((π i).mid m e).x, b2 := fun i => (π i).sub (m.node b).xyz.y ((π i).mid m e).y,
            c2 := fun i => (π i).sub (m.node c).xyz.x ((π i).mid m e).x, d2 := fun i => (π i).sub (m.node c).xyz.y ((π i).mid m e).y,
            Ac2 := fun i => (π i).polyArea [(π i).mid m e, (m.node b).xyz, (m.node c).xyz],
            a3 := fun i => (π i).sub (m.node c).xyz.x ((π i).mid m e).x, b3 := fun i => (π i).sub (m.node c).xyz.y ((π i).mid m e).y,
            c3 := fun i => (π i).sub (m.node a).xyz.x ((π i).mid m e).x, d3 := fun i => (π i).sub (m.node a).xyz.y ((π i).mid m e).y,
            Ac3 := fun i => (π i).polyArea [(π i).mid m e, (m.node c).xyz, (m.node a).xyz],
            E44 := fun i => (π i).mul ((π i).stab al (L i) (S i).h) ((π i).mul (S i).k23 ((S i).E 0 0)), E45 := fun _ => 0,
            E55 := fun i => (π i).mul ((π i).stab al (L i) (S i).h) ((π i).mul (S i).k13 ((S i).E 1 1)) }, _, hv0, ?_, ?_, ?_⟩
  · filter_upwards [ho] with i hi'
    rw [(likeCellS (h.like i) pn al fa e).1]
    unfold Rounding.cellSEnv
    simp only [hi', s1 i, l1 i, Bind.bind, Except.bind, hi.index ha, hi.index hb, hi.index hc']
    rfl
  · rw [← hE]
    have vs := fun p => (AccV.const (π := π) (m.node p).xyz)
    exact { i1 := rfl, i2 := rfl, i3 := rfl, Ac := hA,
            a1 := (Acc.const _).sub hmid.x, b1 := (Acc.const _).sub hmid.y, c1 := (Acc.const _).sub hmid.x, d1 := (Acc.const _).sub hmid.y,
            Ac1 := polyArea3_acc hmid (vs _) (vs _),
            a2 := (Acc.const _).sub hmid.x, b2 := (Acc.const _).sub hmid.y, c2 := (Acc.const _).sub hmid.x, d2 := (Acc.const _).sub hmid.y,
            Ac2 := polyArea3_acc hmid (vs _) (vs _),
            a3 := (Acc.const _).sub hmid.x, b3 := (Acc.const _).sub hmid.y, c3 := (Acc.const _).sub hmid.x, d3 := (Acc.const _).sub hmid.y,
            Ac3 := polyArea3_acc hmid (vs _) (vs _),
            E44 := hst.mul (s2.k23.mul (s2.E 0 0)), E45 := Acc.const _, E55 := hst.mul (s2.k13.mul (s2.E 1 1)) }
  · have h3 : triArea m e / 3 ≠ 0 := by positivity
    exact ⟨hpos.ne', h3, h3, h3⟩

/-- the local variables of a triangle, method without smoothing -/
theorem cellNSEnv_acc {m : Mesh} {pn : Bool} {M : ι → Mesh} (h : Ran π m pn M) (ht : Thick m pn) {al : ℝ} (hal : 0 ≤ al) (fa : Bool) {e : ℕ} (he : e ∈ m.eids) :
    ∃ (E' : CellNSEnv (ι → ℝ)) (E0 : CellNSEnv ℝ), cellNSEnv m pn al fa e = .ok E0 ∧ (∀ᶠ i in smallU π, (π i).cellNSEnv (M i) pn al fa e = .ok (E'.map fun a => a i)) ∧
      CellNSEnv.Rel (Acc π) E' E0 ∧ E0.Ac ≠ 0 := by
  have w := h.w
  have hf : FlatMesh m := h.hg.flatMesh
  have hi : Indexed m := h.hq.index
  have hpos : 0 < triArea m e := abs_pos.2 (hf.nondeg e he)
  have hA : Acc π (fun i => (π i).triaArea m e) (m.triaArea e) := triaArea_acc m e (by rw [triaArea_eq w hf he]; exact hpos)
  have ho := cellNSOrient_acc (π := π) hf he
  have hc := cellNSOrient_ccw hf he
  obtain ⟨a', b', c', -, -, hv⟩ := cellNSEnv_eq w hi hf h.hh ht al fa he
  rcases hx : cellNSOrient m e with ⟨a, b, c⟩
  rw [hx] at hc ho
  dsimp only at hc
  obtain ⟨ha, hb, hc'⟩ := hc.mem w he
  have hs0 := cellShear_eq h.hh he hc.perm
  obtain ⟨S, s1, s2⟩ := cellShear_acc (π := π) hs0
  have hm0 := cellMaxl_eq w hf he fa
  obtain ⟨L, l1, l2⟩ := cellMaxl_acc w hf he hA (by rw [triaArea_eq w hf he]; exact hpos) hm0
  have hst := stab_acc l2 s2.h (ht e he) hal
  have hv0 := hv
  unfold cellNSEnv at hv
  simp only [hx, hs0, hm0, Bind.bind, Except.bind, hi.index ha, hi.index hb, hi.index hc'] at hv
  have hE := Except.ok.inj hv
  refine ⟨{ i1 := (m.nids.idxOf a : ℕ), i2 := (m.nids.idxOf b : ℕ), i3 := (m.nids.idxOf c : ℕ), Ac := fun i => (π i).triaArea m e,
            a1 := fun i => (π i).sub (m.node b).xyz.x (m.node a).xyz.x, b1 := fun i => (π i).sub (m.node b).xyz.y (m.node a).xyz.y,
            c1 := fun i => (π i).sub (m.node c).xyz.x (m.node a).xyz.x, d1 := fun i => (π i).sub (m.node c).xyz.y (m.node a).xyz.y,
            E44 := fun i => (π i).mul ((π i).stab al (L i) (S i).h) ((π i).mul (S i).k23 ((S i).E 0 0)), E45 := fun _ => 0,
            E55 := fun i => (π i).mul ((π i).stab al (L i) (S i).h) ((π i).mul (S i).k13 ((S i).E 1 1)) }, _, hv0, ?_, ?_, ?_⟩
  · filter_upwards [ho] with i hi'
    rw [(likeCellS (h.like i) pn al fa e).2]
    unfold Rounding.cellNSEnv
    simp only [hi', s1 i, l1 i, Bind.bind, Except.bind, hi.index ha, hi.index hb, hi.index hc']
    rfl
  · rw [← hE]
    exact { i1 := rfl, i2 := rfl, i3 := rfl, Ac := hA,
            a1 := (Acc.const _).sub (Acc.const _), b1 := (Acc.const _).sub (Acc.const _), c1 := (Acc.const _).sub (Acc.const _), d1 := (Acc.const _).sub (Acc.const _),
            E44 := hst.mul (s2.k23.mul (s2.E 0 0)), E45 := Acc.const _, E55 := hst.mul (s2.k13.mul (s2.E 1 1)) }
  · exact hpos.ne'

/-! ### edges -/

theorem edgeOrient_acc {m : Mesh} {k : Key} {t : ℕ} {E : ι → Edge} {e : Edge} (h : AccEdge π E e) (h1 : e.n1 = k.1) (h2 : e.n2 = k.2)
    (hi : Indep (m.node k.1).xyz (m.node k.2).xyz (m.mid t)) : ∀ᶠ i in smallU π, (π i).edgeOrient m (E i) t = edgeOrient m e t := by
  have a1 := (((AccV.const (π := π) (m.node k.2).xyz).sub (AccV.const (m.node k.1).xyz)).cross ((mid_acc m t).sub (AccV.const (m.node k.1).xyz))).dot
    (AccV.const zGlobal)
  have a2 : Vec3.dot (Vec3.cross ((m.node k.2).xyz.sub (m.node k.1).xyz) ((m.mid t).sub (m.node k.1).xyz)) zGlobal ≠ 0 := by
    intro h'; apply hi
    simp only [Vec3.dot, Vec3.cross, Vec3.sub, zGlobal] at h'
    linarith
  filter_upwards [neg_test a1 a2] with i hi'
  unfold Rounding.edgeOrient edgeOrient
  rw [h.n1, h.n2, h1, h2]
  simp only [hi']

theorem ipts_le_acc {P : List (ι → IPt)} {p : List IPt} (h : List.Forall₂ (AccPt π) P p) :
    List.Forall₂ (Acc π) (P.map fun q i => (q i).le) (p.map (·.le)) := by
  rw [List.forall₂_map_left_iff, List.forall₂_map_right_iff]
  exact h.imp fun _ _ h => h.le

theorem edgeBMaxl_acc {E : ι → Edge} {e : Edge} (h : AccEdge π E e) {A : ι → ℝ} {a : ℝ} (hA : Acc π A a) (ha : 0 < a) {fa : Bool} {l : ℝ}
    (hl : edgeBMaxl e a fa = .ok l) : ∃ L : ι → ℝ, (∀ i, (π i).edgeBMaxl (E i) (A i) fa = .ok (L i)) ∧ Acc π L l := by
  obtain ⟨P, hP, hF⟩ := h.ipts
  unfold edgeBMaxl at hl
  unfold Rounding.edgeBMaxl
  cases fa with
  | true =>
    simp only [if_true] at hl ⊢
    obtain rfl := Except.ok.inj hl
    exact ⟨_, fun i => rfl, hA.sqrt ha⟩
  | false =>
    simp only [Bool.false_eq_true, if_false] at hl ⊢
    rcases hx : pyMax (e.ipts.map (·.le)) with _ | x
    · rw [hx] at hl; cases hl
    rw [hx] at hl
    obtain rfl := Except.ok.inj hl
    obtain ⟨B, b1, b2⟩ := pyMax_acc (ipts_le_acc hF) hx
    refine ⟨B, fun i => ?_, b2⟩
    have := b1 i
    rw [List.map_map] at this
    rw [hP, List.map_map]
    rw [show P.map ((fun x => x.le) ∘ fun x => x i) = P.map ((fun x => x i) ∘ fun q i => (q i).le) from rfl, this]

theorem edgeIMaxl_acc {m : Mesh} {k : Key} {E : ι → Edge} {e : Edge} (h : AccEdge π E e) (h1 : e.n1 = k.1) (h2 : e.n2 = k.2)
    (hk : ((m.node k.1).xyz.sub (m.node k.2).xyz).x ≠ 0 ∨ ((m.node k.1).xyz.sub (m.node k.2).xyz).y ≠ 0) {A : ι → ℝ} {a : ℝ} (hA : Acc π A a) (ha : 0 < a)
    {fa : Bool} {l : ℝ} (hl : edgeIMaxl m e a fa = .ok l) : ∃ L : ι → ℝ, (∀ i, (π i).edgeIMaxl m (E i) (A i) fa = .ok (L i)) ∧ Acc π L l := by
  obtain ⟨P, hP, hF⟩ := h.ipts
  unfold edgeIMaxl at hl
  unfold Rounding.edgeIMaxl
  cases fa with
  | true =>
    simp only [if_true] at hl ⊢
    obtain rfl := Except.ok.inj hl
    exact ⟨_, fun i => rfl, hA.sqrt ha⟩
  | false =>
    simp only [Bool.false_eq_true, if_false] at hl ⊢
    rcases hx : pyMax (e.ipts.map (·.le)) with _ | x
    · rw [hx] at hl; cases hl
    rw [hx] at hl
    obtain rfl := Except.ok.inj hl
    obtain ⟨B, b1, b2⟩ := pyMax_acc (ipts_le_acc hF) hx
    have hn : Acc π (fun i => (π i).vnorm ((π i).vsub (m.node k.1).xyz (m.node k.2).xyz)) ((m.node k.1).xyz.sub (m.node k.2).xyz).norm :=
      AccV.norm ((AccV.const _).sub (AccV.const _)) hk
    rw [h1, h2]
    refine ⟨fun i => max (B i) ((π i).vnorm ((π i).vsub (m.node k.1).xyz (m.node k.2).xyz)), fun i => ?_, b2.max' hn⟩
    have := b1 i
    rw [List.map_map] at this
    rw [hP, List.map_map, h.n1, h.n2, h1, h2]
    rw [show P.map ((fun x => x.le) ∘ fun x => x i) = P.map ((fun x => x i) ∘ fun q i => (q i).le) from rfl, this]

theorem edgeBEnv_acc {m : Mesh} {pn : Bool} {E : ι → Edge} {e : Edge} (h : AccEdge π E e) {al : ℝ} (hal : 0 ≤ al) {fa : Bool} {t a b : ℕ}
    (ht : ∀ o s, e.other1 = some o → edgeBShear m pn t a b o = .ok s → s.h ≠ 0) {E0 : EdgeBEnv ℝ} (hE : edgeBEnv m pn al fa e t a b = .ok E0) :
    ∃ E' : EdgeBEnv (ι → ℝ), (∀ i, (π i).edgeBEnv m pn al fa (E i) t a b = .ok (E'.map fun a => a i)) ∧ EdgeBEnv.Rel (Acc π) E' E0 ∧ E0.Ac ≠ 0 := by
  obtain ⟨A, l, hA, hl, hacc, hpos⟩ := h.Ac
  have hmx := fun x hx => edgeBMaxl_acc h hacc hpos (fa := fa) (l := x) hx
  have hmid := mid_acc (π := π) m t
  unfold edgeBEnv at hE
  unfold Rounding.edgeBEnv
  simp only [h.other1, hA]
  rw [hl] at hE
  rcases ho : e.other1 with _ | o
  · rw [ho] at hE; cases hE
  rw [ho] at hE
  dsimp only [Bind.bind] at hE ⊢
  rcases hs : edgeBShear m pn t a b o with er | s
  · rw [hs] at hE; cases hE
  obtain ⟨S, s1, s2⟩ := edgeBShear_acc (π := π) hs
  have h0 := ht o s ho hs
  rcases hm : edgeBMaxl e l fa with er | x
  · rw [hs, hm] at hE; cases hE
  obtain ⟨L, l1, l2⟩ := hmx x hm
  obtain ⟨m1, m2, m3⟩ := edgeBModuli_acc s2 h0 l2 hal
  rw [hs, hm] at hE
  simp only [s1, l1, Except.bind] at hE ⊢
  rcases hi1 : (m.node a).index with _ | i1
  · rw [hi1] at hE; cases hE
  rcases hi2 : (m.node b).index with _ | i2
  · rw [hi1, hi2] at hE; cases hE
  rcases hi3 : (m.node o).index with _ | i3
  · rw [hi1, hi2, hi3] at hE; cases hE
  rw [hi1, hi2, hi3] at hE
  obtain rfl := Except.ok.inj hE
  exact ⟨{ i1 := i1, i2 := i2, i3 := i3, Ac := A, E44 := fun i => ((π i).edgeBModuli (S i) al (L i)).1, E45 := fun i => ((π i).edgeBModuli (S i) al (L i)).2.1,
           E55 := fun i => ((π i).edgeBModuli (S i) al (L i)).2.2,
           a1 := fun i => (π i).sub (m.node a).xyz.x ((π i).mid m t).x, b1 := fun i => (π i).sub (m.node a).xyz.y ((π i).mid m t).y,
           c1 := fun i => (π i).sub (m.node b).xyz.x ((π i).mid m t).x, d1 := fun i => (π i).sub (m.node b).xyz.y ((π i).mid m t).y }, fun i => rfl,
    { i1 := rfl, i2 := rfl, i3 := rfl, Ac := hacc, E44 := m1, E45 := m2, E55 := m3, a1 := (Acc.const _).sub hmid.x, b1 := (Acc.const _).sub hmid.y,
      c1 := (Acc.const _).sub hmid.x, d1 := (Acc.const _).sub hmid.y }, hpos.ne'⟩

theorem edgeIEnv_acc {m : Mesh} {pn : Bool} {k : Key} {E : ι → Edge} {e : Edge} (h : AccEdge π E e) (k1 : e.n1 = k.1) (k2 : e.n2 = k.2)
    (hk : ((m.node k.1).xyz.sub (m.node k.2).xyz).x ≠ 0 ∨ ((m.node k.1).xyz.sub (m.node k.2).xyz).y ≠ 0) {al : ℝ} (hal : 0 ≤ al) {fa : Bool} {t1 t2 a b : ℕ}
    (ht : ∀ o1 o2 A s, e.other1 = some o1 → e.other2 = some o2 → e.Ac = some A → edgeIShear m pn (polyArea [m.mid t1, (m.node a).xyz, (m.node b).xyz])
      (polyArea [(m.node a).xyz, m.mid t2, (m.node b).xyz]) A t1 t2 a b o1 o2 = .ok s → s.h ≠ 0)
    (hA1 : polyArea [m.mid t1, (m.node a).xyz, (m.node b).xyz] ≠ 0) (hA2 : polyArea [(m.node a).xyz, m.mid t2, (m.node b).xyz] ≠ 0) {E0 : EdgeIEnv ℝ}
    (hE : edgeIEnv m pn al fa e t1 t2 a b = .ok E0) :
    ∃ E' : EdgeIEnv (ι → ℝ), (∀ i, (π i).edgeIEnv m pn al fa (E i) t1 t2 a b = .ok (E'.map fun a => a i)) ∧ EdgeIEnv.Rel (Acc π) E' E0 ∧
      E0.Ac ≠ 0 ∧ E0.Ac1 ≠ 0 ∧ E0.Ac2 ≠ 0 := by
  obtain ⟨A, l, hA, hl, hacc, hpos⟩ := h.Ac
  have hmx := fun x hx => edgeIMaxl_acc h k1 k2 hk hacc hpos (fa := fa) (l := x) hx
  have hmid1 := mid_acc (π := π) m t1
  have hmid2 := mid_acc (π := π) m t2
  have p1 : Acc π (fun i => (π i).polyArea [(π i).mid m t1, (m.node a).xyz, (m.node b).xyz]) _ := polyArea3_acc hmid1 (AccV.const _) (AccV.const _)
  have p2 : Acc π (fun i => (π i).polyArea [(m.node a).xyz, (π i).mid m t2, (m.node b).xyz]) _ := polyArea3_acc (AccV.const _) hmid2 (AccV.const _)
  unfold edgeIEnv at hE
  unfold Rounding.edgeIEnv
  simp only [h.other1, h.other2, hA]
  rw [hl] at hE
  rcases ho1 : e.other1 with _ | o1
  · rw [ho1] at hE; cases hE
  rcases ho2 : e.other2 with _ | o2
  · rw [ho1, ho2] at hE; cases hE
  rw [ho1, ho2] at hE
  dsimp only [Bind.bind] at hE ⊢
  rcases hs : edgeIShear m pn (polyArea [m.mid t1, (m.node a).xyz, (m.node b).xyz]) (polyArea [(m.node a).xyz, m.mid t2, (m.node b).xyz]) l t1 t2 a b o1 o2 with er | s
  · rw [hs] at hE; cases hE
  obtain ⟨S, s1, s2⟩ := edgeIShear_acc p1 p2 hacc hpos.ne' hs
  have h0 := ht o1 o2 l s ho1 ho2 hl hs
  rcases hm : edgeIMaxl m e l fa with er | x
  · rw [hs, hm] at hE; cases hE
  obtain ⟨L, l1, l2⟩ := hmx x hm
  obtain ⟨m1, m2, m3⟩ := edgeIModuli_acc s2 h0 l2 hal
  rw [hs, hm] at hE
  simp only [s1, l1, Except.bind] at hE ⊢
  rcases hi1 : (m.node a).index with _ | i1
  · rw [hi1] at hE; cases hE
  rcases hi2 : (m.node b).index with _ | i2
  · rw [hi1, hi2] at hE; cases hE
  rcases hi3 : (m.node o1).index with _ | i3
  · rw [hi1, hi2, hi3] at hE; cases hE
  rcases hi4 : (m.node o2).index with _ | i4
  · rw [hi1, hi2, hi3, hi4] at hE; cases hE
  rw [hi1, hi2, hi3, hi4] at hE
  obtain rfl := Except.ok.inj hE
  exact ⟨{ i1 := i1, i2 := i2, i3 := i3, i4 := i4, Ac := A, Ac1 := fun i => (π i).polyArea [(π i).mid m t1, (m.node a).xyz, (m.node b).xyz],
           Ac2 := fun i => (π i).polyArea [(m.node a).xyz, (π i).mid m t2, (m.node b).xyz],
           E44 := fun i => ((π i).edgeIModuli (S i) al (L i)).1, E45 := fun i => ((π i).edgeIModuli (S i) al (L i)).2.1,
           E55 := fun i => ((π i).edgeIModuli (S i) al (L i)).2.2,
           a1 := fun i => (π i).sub (m.node a).xyz.x ((π i).mid m t1).x, b1 := fun i => (π i).sub (m.node a).xyz.z ((π i).mid m t1).y,
           c1 := fun i => (π i).sub (m.node b).xyz.x ((π i).mid m t1).x, d1 := fun i => (π i).sub (m.node b).xyz.y ((π i).mid m t1).y,
           a2 := fun i => (π i).sub ((π i).mid m t2).x (m.node a).xyz.x, b2 := fun i => (π i).sub ((π i).mid m t2).y (m.node a).xyz.y,
           c2 := fun i => (π i).sub (m.node b).xyz.x (m.node a).xyz.x, d2 := fun i => (π i).sub (m.node b).xyz.y (m.node a).xyz.y }, fun i => rfl,
    { i1 := rfl, i2 := rfl, i3 := rfl, i4 := rfl, Ac := hacc, Ac1 := p1, Ac2 := p2, E44 := m1, E45 := m2, E55 := m3,
      a1 := (Acc.const _).sub hmid1.x, b1 := (Acc.const _).sub hmid1.y,
      c1 := (Acc.const _).sub hmid1.x, d1 := (Acc.const _).sub hmid1.y, a2 := hmid2.x.sub (Acc.const _), b2 := hmid2.y.sub (Acc.const _),
      c2 := (Acc.const _).sub (Acc.const _), d2 := (Acc.const _).sub (Acc.const _) }, hpos.ne', hA1, hA2⟩

/-! ### the loops -/

section loop
variable {m : Mesh} {pn : Bool} {M : ι → Mesh} (h : Ran π m pn M) {al : ℝ} (hal : 0 ≤ al) (fa : Bool) {N : ι → Mat} {N0 : Mat}
include h hal

theorem cellSTria_acc (ht : Thick m pn) {e : ℕ} (he : e ∈ m.eids) (hN : AccMat π N N0) (h0 : (cellSTria m pn al fa N0 e).2 = none) :
    (∀ᶠ i in smallU π, ((π i).cellSTria (M i) pn al fa (N i) e).2 = none) ∧
    AccMat π (fun i => ((π i).cellSTria (M i) pn al fa (N i) e).1) (cellSTria m pn al fa N0 e).1 := by
  obtain ⟨E', E0, e0, e1, e2, c0, c1, c2, c3⟩ := cellSEnv_acc h ht hal fa he
  have hl : AccL π (fun i => cellSEntries (K := Fl (π i)) (E'.map fun a => a i)) (cellSEntries E0) := cellSEntries_acc e2 c0 c1 c2 c3
  have hx : cellSTria m pn al fa N0 e = N0.addAll (cellSEntries E0) := by unfold cellSTria; rw [e0]
  rw [hx] at h0 ⊢
  obtain ⟨a1, a2⟩ := accL_addAll hl hN h0
  have hr : ∀ᶠ i in smallU π, (π i).cellSTria (M i) pn al fa (N i) e = (π i).addAll (N i) (cellSEntries (K := Fl (π i)) (E'.map fun a => a i)) := by
    filter_upwards [e1] with i hi
    unfold Rounding.cellSTria
    rw [hi]
    rfl
  refine ⟨?_, a2.congr (hr.mono fun i hi => by rw [hi])⟩
  filter_upwards [hr, a1] with i x y
  rw [x]; exact y

theorem cellNSTria_acc (ht : Thick m pn) {e : ℕ} (he : e ∈ m.eids) (hN : AccMat π N N0) (h0 : (cellNSTria m pn al fa N0 e).2 = none) :
    (∀ᶠ i in smallU π, ((π i).cellNSTria (M i) pn al fa (N i) e).2 = none) ∧
    AccMat π (fun i => ((π i).cellNSTria (M i) pn al fa (N i) e).1) (cellNSTria m pn al fa N0 e).1 := by
  obtain ⟨E', E0, e0, e1, e2, c0⟩ := cellNSEnv_acc h ht hal fa he
  have hl : AccL π (fun i => cellNSEntries (K := Fl (π i)) (E'.map fun a => a i)) (cellNSEntries E0) := cellNSEntries_acc e2 c0
  have hx : cellNSTria m pn al fa N0 e = N0.addAll (cellNSEntries E0) := by unfold cellNSTria; rw [e0]
  rw [hx] at h0 ⊢
  obtain ⟨a1, a2⟩ := accL_addAll hl hN h0
  have hr : ∀ᶠ i in smallU π, (π i).cellNSTria (M i) pn al fa (N i) e = (π i).addAll (N i) (cellNSEntries (K := Fl (π i)) (E'.map fun a => a i)) := by
    filter_upwards [e1] with i hi
    unfold Rounding.cellNSTria
    rw [hi]
    rfl
  refine ⟨?_, a2.congr (hr.mono fun i hi => by rw [hi])⟩
  filter_upwards [hr, a1] with i x y
  rw [x]; exact y

theorem edgeSEdge_acc (ht : EdgeThick m pn) {k : Key} (hk : k ∈ m.ekeys) (hN : AccMat π N N0) (h0 : (edgeSEdge m pn al fa N0 k).2 = none) :
    (∀ᶠ i in smallU π, ((π i).edgeSEdge (M i) pn al fa (N i) k).2 = none) ∧
    AccMat π (fun i => ((π i).edgeSEdge (M i) pn al fa (N i) k).1) (edgeSEdge m pn al fa N0 k).1 := by
  obtain ⟨E, hE, hev⟩ := h.edge hk
  have hg := h.hg
  rcases prepared_shape h.w h.hp h.hq hk with ⟨t, o, he, hs⟩ | ⟨t1, t2, o1, o2, he, hs1, hs2, ho, _⟩
  · have htr : (m.edge k).trias = [t] := by rw [he]; rfl
    have hA := triArea_side hs
    have hA0 : triArea m t ≠ 0 := abs_ne_zero.2 (hg.nondeg t hs.mem)
    have hS0 : sarea m [[k.1], [k.2], corners m t] ≠ 0 := by intro h; rw [h, abs_zero] at hA; exact hA0 (by linarith)
    have k1 : (m.edge k).n1 = k.1 := by rw [he]; rfl
    have k2 : (m.edge k).n2 = k.2 := by rw [he]; rfl
    have hor := edgeOrient_ends hg.basic hs k1 k2
    have hora := edgeOrient_acc hE k1 k2 (side_indep hg hs)
    obtain ⟨e1, e2, e3, -⟩ := ends_spec hs hS0
    rw [hor] at hora
    rcases hab : ends m k t with ⟨a, b⟩
    rw [hab] at e1 e2 e3 hora hor
    dsimp only at e1 e2 e3
    have hsh := edgeBShear_eq h.hh e1 e3 htr hA0
    rcases henv : edgeBEnv m pn al fa (m.edge k) t a b with er | E0
    · unfold edgeSEdge at h0
      dsimp only at h0
      rw [htr] at h0
      dsimp only at h0
      rw [hor] at h0
      dsimp only at h0
      rw [henv] at h0
      cases h0
    obtain ⟨E', x1, x2, x3⟩ := edgeBEnv_acc hE hal (fun o' s ho' hs' => by
      rw [he] at ho'
      obtain rfl : o = o' := Option.some.inj ho'
      rw [hsh] at hs'
      obtain rfl := Except.ok.inj hs'
      exact ht k hk) henv
    have hl : AccL π (fun i => edgeBEntries (K := Fl (π i)) (E'.map fun a => a i)) (edgeBEntries E0) := edgeBEntries_acc x2 x3
    have hx : edgeSEdge m pn al fa N0 k = N0.addAll (edgeBEntries E0) := by
      unfold edgeSEdge
      dsimp only
      rw [htr]
      dsimp only
      rw [hor]
      dsimp only
      rw [henv]
    rw [hx] at h0 ⊢
    obtain ⟨a1, a2⟩ := accL_addAll hl hN h0
    have hr : ∀ᶠ i in smallU π, (π i).edgeSEdge (M i) pn al fa (N i) k = (π i).addAll (N i) (edgeBEntries (K := Fl (π i)) (E'.map fun a => a i)) := by
      filter_upwards [hev, hora] with i hi hj
      have q1 : (π i).edgeOrient (M i) (E i) t = (π i).edgeOrient m (E i) t := by rw [(h.like i).eta]; rfl
      have q2 : (π i).edgeBEnv (M i) pn al fa (E i) t a b = (π i).edgeBEnv m pn al fa (E i) t a b := by rw [(h.like i).eta]; rfl
      unfold Rounding.edgeSEdge
      dsimp only
      rw [hi, hE.trias, htr]
      dsimp only
      rw [q1, hj]
      dsimp only
      rw [q2, x1 i]
      rfl
    refine ⟨?_, a2.congr (hr.mono fun i hi => by rw [hi])⟩
    filter_upwards [hr, a1] with i x y
    rw [x]; exact y
  · have htr : (m.edge k).trias = [t1, t2] := by rw [he]; rfl
    have hop := hg.opposite k hk t1 t2 htr
    have hA1 := triArea_side hs1
    have p1 : 0 < triArea m t1 := abs_pos.2 (hg.nondeg t1 hs1.mem)
    have hA2 := triArea_side hs2
    have p2 : 0 < triArea m t2 := abs_pos.2 (hg.nondeg t2 hs2.mem)
    have hS0 : sarea m [[k.1], [k.2], corners m t1] ≠ 0 := by intro h; rw [h, abs_zero] at hA1; linarith
    have hAc0 : (m.edge k).Ac = some (polyArea [(m.node (orient m (m.mid t1) k.1 k.2).1).xyz, m.mid t1,
      (m.node (orient m (m.mid t1) k.1 k.2).2).xyz, m.mid t2, (m.node (orient m (m.mid t1) k.1 k.2).1).xyz]) := by rw [he]; rfl
    obtain ⟨hgeo, hsum⟩ := geo_interior hg.basic hg.flat he hs1 hs2 hop hAc0
    rw [hA1, hA2] at hsum
    have k1 : (m.edge k).n1 = k.1 := by rw [he]; rfl
    have k2 : (m.edge k).n2 = k.2 := by rw [he]; rfl
    have hor := edgeOrient_ends hg.basic hs1 k1 k2
    have hora := edgeOrient_acc hE k1 k2 (side_indep hg hs1)
    obtain ⟨e1, e2, e3, e4⟩ := ends_spec hs1 hS0
    replace e4 := e4 _ hop
    rw [hor] at hora
    rcases hab : ends m k t1 with ⟨a, b⟩
    rw [hab] at e1 e2 e3 e4 hora hor
    dsimp only at e1 e2 e3 e4
    have hs2' : Side m t2 (a, b) o2 := by rcases e3 with rfl | rfl; exacts [hs2, hs2.swap]
    have hB1 : |sarea m [corners m t1, [a], [b]]| = triArea m t1 / 3 := by
      rw [← hA1]
      rcases e3 with rfl | rfl
      · congr 1; rw [sarea3, sarea3]; ring
      · rw [← abs_neg]; congr 1; rw [sarea3, sarea3]; ring
    have hB2 : |sarea m [[a], corners m t2, [b]]| = triArea m t2 / 3 := by
      rw [← hA2]
      rcases e3 with rfl | rfl
      · rw [← abs_neg]; congr 1; rw [sarea3, sarea3]; ring
      · congr 1; rw [sarea3, sarea3]; ring
    obtain ⟨q1, q2⟩ := mid_mean hg.basic hs1
    obtain ⟨r1, r2⟩ := mid_mean hg.basic hs2
    have hpa1 : polyArea [m.mid t1, (m.node a).xyz, (m.node b).xyz] = triArea m t1 / 3 := by
      rw [polyArea3, ← hB1, sarea3, abs_div, abs_two]
      simp only [mean_single, q1, q2, nx, ny]
    have hpa2 : polyArea [(m.node a).xyz, m.mid t2, (m.node b).xyz] = triArea m t2 / 3 := by
      rw [polyArea3, ← hB2, sarea3, abs_div, abs_two]
      simp only [mean_single, r1, r2, nx, ny]
    have hsh := edgeIShear_eq h.hh e1 hs2' e3 htr
    rcases henv : edgeIEnv m pn al fa (m.edge k) t1 t2 a b with er | E0
    · unfold edgeSEdge at h0
      dsimp only at h0
      rw [htr] at h0
      dsimp only at h0
      rw [hor] at h0
      dsimp only at h0
      rw [henv] at h0
      cases h0
    obtain ⟨E', x1, x2, x3, x4, x5⟩ := edgeIEnv_acc hE k1 k2 (apart hS0) hal (fun o1' o2' A s ho1 ho2 hA' hs' => by
      rw [hAc0] at hA'
      rw [← Option.some.inj hA', ← hsum, hpa1, hpa2] at hs'
      rw [he] at ho1 ho2
      obtain rfl : o1 = o1' := Option.some.inj ho1
      obtain rfl : o2 = o2' := Option.some.inj ho2
      rw [hsh] at hs'
      obtain rfl := Except.ok.inj hs'
      exact ht k hk) (by rw [hpa1]; positivity) (by rw [hpa2]; positivity) henv
    have hl : AccL π (fun i => edgeIEntries (K := Fl (π i)) (E'.map fun a => a i)) (edgeIEntries E0) := edgeIEntries_acc x2 x3 x4 x5
    have hx : edgeSEdge m pn al fa N0 k = N0.addAll (edgeIEntries E0) := by
      unfold edgeSEdge
      dsimp only
      rw [htr]
      dsimp only
      rw [hor]
      dsimp only
      rw [henv]
    rw [hx] at h0 ⊢
    obtain ⟨a1, a2⟩ := accL_addAll hl hN h0
    have hr : ∀ᶠ i in smallU π, (π i).edgeSEdge (M i) pn al fa (N i) k = (π i).addAll (N i) (edgeIEntries (K := Fl (π i)) (E'.map fun a => a i)) := by
      filter_upwards [hev, hora] with i hi hj
      have q1 : (π i).edgeOrient (M i) (E i) t1 = (π i).edgeOrient m (E i) t1 := by rw [(h.like i).eta]; rfl
      have q2 : (π i).edgeIEnv (M i) pn al fa (E i) t1 t2 a b = (π i).edgeIEnv m pn al fa (E i) t1 t2 a b := by rw [(h.like i).eta]; rfl
      unfold Rounding.edgeSEdge
      dsimp only
      rw [hi, hE.trias, htr]
      dsimp only
      rw [q1, hj]
      dsimp only
      rw [q2, x1 i]
      rfl
    refine ⟨?_, a2.congr (hr.mono fun i hi => by rw [hi])⟩
    filter_upwards [hr, a1] with i x y
    rw [x]; exact y

/-- `add_k0s` with rounding on the meshes left by `calc_k0`, all three methods -/
theorem addK0s_acc (method : String) (ht : if method = "edge-based" then EdgeThick m pn else Thick m pn) {F : ι → Mat} {K : Mat} (hF : AccMat π F K)
    (h0 : (addK0s K m pn method al fa).2 = none) :
    AccMat π (fun i => ((π i).addK0s (F i) (M i) pn method al fa).1) (addK0s K m pn method al fa).1 := by
  unfold addK0s at h0 ⊢
  unfold Rounding.addK0s
  simp only [fun i => (h.like i).eids, fun i => (h.like i).ekeys]
  split
  · rename_i q
    rw [if_pos q] at h0
    subst q
    rw [if_neg (by decide)] at ht
    exact (matLoop_acc (f := fun i => (π i).cellSTria (M i) pn al fa) m.eids hF (fun e he {N N0} hN h0 => cellSTria_acc h hal fa ht he hN h0) h0).2
  rename_i q
  rw [if_neg q] at h0
  split
  · rename_i q
    rw [if_pos q] at h0
    subst q
    rw [if_neg (by decide)] at ht
    exact (matLoop_acc (f := fun i => (π i).cellNSTria (M i) pn al fa) m.eids hF (fun e he {N N0} hN h0 => cellNSTria_acc h hal fa ht he hN h0) h0).2
  rename_i q
  rw [if_neg q] at h0
  split
  · rename_i q
    rw [if_pos q] at h0 ht
    exact (matLoop_acc (f := fun i => (π i).edgeSEdge (M i) pn al fa) m.ekeys hF (fun k hk {N N0} hN h0 => edgeSEdge_acc h hal fa ht hk hN h0) h0).2
  rename_i q
  rw [if_neg q] at h0
  cases h0

end loop

end Meshless
