import Verif.Lemmas.IeeeRun
import Verif.Lemmas.IeeeCellS
import Verif.Lemmas.IeeeCellNS
import Verif.Lemmas.IeeeEdgeB
import Verif.Lemmas.IeeeEdgeI
import Verif.Lemmas.FloatK0s

/-! The shear terms in floating-point formats with special values, for the three methods of `add_k0s`. -/

set_option autoImplicit false

namespace Meshless
open Spec Filter Topology

variable {ι : Type} {φ : ι → Fmt}

/-- a planar mesh left by `calc_k0` -/
structure RanF (m : Mesh) (pn : Bool) : Prop where
  w : WF m
  hp : Proper m
  hg : Planar m
  hq : Prepared m
  hh : HasProps m pn

theorem RanF.geo {m : Mesh} {pn : Bool} (h : RanF m pn) {k : Key} (hk : k ∈ m.ekeys) :
    ∃ G : ι → Geo, LimGeo φ G (m.edge k) ∧ ∀ᶠ i in good φ, (φ i).geo m (m.edge k) = G i := geo_lim h.w h.hp h.hg h.hq h.hh hk

/-! ### laminate data, lengths, moduli -/

/-- accurate averaged laminate data -/
structure LimShear (φ : ι → Fmt) (S : ι → FShear) (s : ShearProp) : Prop where
  k13 : Lim φ (fun i => (S i).k13) s.k13
  k23 : Lim φ (fun i => (S i).k23) s.k23
  h : Lim φ (fun i => (S i).h) s.h
  E : ∀ a b, Lim φ (fun i => (S i).E a b) (s.E a b)

theorem LimShear.const (p : Lam) : LimShear φ (fun _ => p.fshear) p.shear := ⟨Lim.const _, Lim.const _, Lim.const _, fun _ _ => Lim.const _⟩

theorem shear3_lim (c1 c2 c3 : ℝ) (p q r : Lam) :
    LimShear φ (fun i => (φ i).shear3 ((φ i).rnd c1) ((φ i).rnd c2) ((φ i).rnd c3) p q r) (shear3 c1 c2 c3 p q r) := by
  refine ⟨?_, ?_, ?_, fun a b => ?_⟩
  all_goals
    exact (((Lim.lit _).mul (Lim.const _)).add ((Lim.lit _).mul (Lim.const _))).add ((Lim.lit _).mul (Lim.const _))

theorem shear4_lim (p q r s : Lam) : LimShear φ (fun i => (φ i).shear4 p q r s) (shear4 p q r s) := by
  refine ⟨?_, ?_, ?_, fun a b => ?_⟩
  all_goals
    exact ((((Lim.lit _).mul (Lim.const _)).add ((Lim.lit _).mul (Lim.const _))).add ((Lim.lit _).mul (Lim.const _))).add ((Lim.lit _).mul (Lim.const _))

theorem shearA_lim {A B C : ι → Flo} {a b c : ℝ} (hA : Lim φ A a) (hB : Lim φ B b) (hC : Lim φ C c) (h0 : c ≠ 0) (p q : Lam) :
    LimShear φ (fun i => (φ i).shearA (A i) (B i) (C i) p q) (shearA a b c p q) := by
  refine ⟨?_, ?_, ?_, fun a b => ?_⟩
  all_goals
    exact ((hA.mul (Lim.const _)).add (hB.mul (Lim.const _))).div hC h0

theorem cellShear_lim {m : Mesh} {pn : Bool} {e a b c : ℕ} {s : ShearProp} (h : cellShear m pn e a b c = .ok s) :
    ∃ S : ι → FShear, (∀ i, (φ i).cellShear m pn e a b c = .ok (S i)) ∧ LimShear φ S s := by
  unfold cellShear at h
  unfold Fmt.cellShear
  cases pn with
  | true =>
    simp only [if_true] at h ⊢
    revert h
    rcases (m.node a).prop with _ | p <;> rcases (m.node b).prop with _ | q <;> rcases (m.node c).prop with _ | r <;> intro h <;> cases h
    exact ⟨_, fun i => rfl, shear3_lim _ _ _ _ _ _⟩
  | false =>
    simp only [Bool.false_eq_true, if_false] at h ⊢
    revert h
    rcases (m.tria e).prop with _ | p <;> intro h <;> cases h
    exact ⟨_, fun i => rfl, LimShear.const _⟩

theorem edgeBShear_lim {m : Mesh} {pn : Bool} {t a b o : ℕ} {s : ShearProp} (h : edgeBShear m pn t a b o = .ok s) :
    ∃ S : ι → FShear, (∀ i, (φ i).edgeBShear m pn t a b o = .ok (S i)) ∧ LimShear φ S s := by
  unfold edgeBShear at h
  unfold Fmt.edgeBShear
  cases pn with
  | true =>
    simp only [if_true] at h ⊢
    revert h
    rcases (m.node a).prop with _ | p <;> rcases (m.node b).prop with _ | q <;> rcases (m.node o).prop with _ | r <;> intro h <;> cases h
    exact ⟨_, fun i => rfl, shear3_lim _ _ _ _ _ _⟩
  | false =>
    simp only [Bool.false_eq_true, if_false] at h ⊢
    revert h
    rcases (m.tria t).prop with _ | p <;> intro h <;> cases h
    exact ⟨_, fun i => rfl, LimShear.const _⟩

theorem edgeIShear_lim {m : Mesh} {pn : Bool} {A B C : ι → Flo} {x y z : ℝ} (hA : Lim φ A x) (hB : Lim φ B y) (hC : Lim φ C z) (h0 : z ≠ 0)
    {t1 t2 a b o1 o2 : ℕ} {s : ShearProp} (h : edgeIShear m pn x y z t1 t2 a b o1 o2 = .ok s) :
    ∃ S : ι → FShear, (∀ i, (φ i).edgeIShear m pn (A i) (B i) (C i) t1 t2 a b o1 o2 = .ok (S i)) ∧ LimShear φ S s := by
  unfold edgeIShear at h
  unfold Fmt.edgeIShear
  cases pn with
  | true =>
    simp only [if_true] at h ⊢
    revert h
    rcases (m.node a).prop with _ | p <;> rcases (m.node b).prop with _ | q <;> rcases (m.node o1).prop with _ | r <;>
      rcases (m.node o2).prop with _ | s <;> intro h <;> cases h
    exact ⟨_, fun i => rfl, shear4_lim _ _ _ _⟩
  | false =>
    simp only [Bool.false_eq_true, if_false] at h ⊢
    revert h
    rcases (m.tria t1).prop with _ | p <;> rcases (m.tria t2).prop with _ | q <;> intro h <;> cases h
    exact ⟨_, fun i => rfl, shearA_lim hA hB hC h0 _ _⟩

theorem foldl_max_lim : ∀ {L : List (ι → Flo)} {l : List ℝ}, List.Forall₂ (Lim φ) L l → ∀ {A : ι → Flo} {a : ℝ}, Lim φ A a →
    Lim φ (fun i => (L.map (· i)).foldl Flo.max2 (A i)) (l.foldl max a) := by
  intro L l h
  induction h with
  | nil => intro A a hA; exact hA
  | cons h _ ih => intro A a hA; exact ih (hA.max2 h)

theorem pyMax_lim {L : List (ι → Flo)} {l : List ℝ} (h : List.Forall₂ (Lim φ) L l) {a : ℝ} (ha : pyMax l = some a) :
    ∃ A : ι → Flo, (∀ i, Flo.pyMax (L.map (· i)) = some (A i)) ∧ Lim φ A a := by
  cases h with
  | nil => cases ha
  | cons h hF =>
    obtain rfl := Option.some.inj ha
    exact ⟨_, fun i => rfl, foldl_max_lim hF h⟩

theorem stab_lim {L H : ι → Flo} {l h : ℝ} (hL : Lim φ L l) (hH : Lim φ H h) (h0 : h ≠ 0) {al : ℝ} (hal : 0 ≤ al) :
    Lim φ (fun i => (φ i).stab al (L i) (H i)) (stab al l h) := by
  unfold stab
  have h2 : h * h ≠ 0 := mul_ne_zero h0 h0
  rw [pow_two, pow_two]
  refine (Lim.const 1).div ((Lim.const 1).add (((Lim.const al).mul (hL.mul hL)).div (hH.mul hH) h2)) ?_
  have : 0 ≤ al * (l * l) / (h * h) := div_nonneg (mul_nonneg hal (mul_self_nonneg l)) (mul_self_nonneg h)
  linarith

theorem edgeIModuli_lim {S : ι → FShear} {s : ShearProp} (hS : LimShear φ S s) (h0 : s.h ≠ 0) {L : ι → Flo} {l : ℝ} (hL : Lim φ L l) {al : ℝ} (hal : 0 ≤ al) :
    Lim φ (fun i => ((φ i).edgeIModuli (S i) al (L i)).1) (edgeIModuli s al l).1 ∧
    Lim φ (fun i => ((φ i).edgeIModuli (S i) al (L i)).2.1) (edgeIModuli s al l).2.1 ∧
    Lim φ (fun i => ((φ i).edgeIModuli (S i) al (L i)).2.2) (edgeIModuli s al l).2.2 := by
  unfold edgeIModuli
  dsimp only
  rw [pow_two, pow_two]
  have h2 : 0 < s.h * s.h := mul_self_pos.2 h0
  have hc : s.h * s.h + al * (l * l) ≠ 0 := by
    have : 0 ≤ al * (l * l) := mul_nonneg hal (mul_self_nonneg l)
    linarith
  have c := (hS.h.mul hS.h).div ((hS.h.mul hS.h).add ((Lim.const al).mul (hL.mul hL))) hc
  exact ⟨c.mul (hS.k13.mul (hS.E 0 0)), c.mul ((hS.k13.min2 hS.k23).mul (hS.E 0 1)), c.mul (hS.k23.mul (hS.E 1 1))⟩

theorem moduli_lim {S : ι → FShear} {s : ShearProp} (hS : LimShear φ S s) (h0 : s.h ≠ 0) {L : ι → Flo} {l : ℝ} (hL : Lim φ L l) {al : ℝ} (hal : 0 ≤ al) :
    Lim φ (fun i => ((φ i).moduli al (L i) (S i)).1) (edgeBModuli s al l).1 ∧ Lim φ (fun i => ((φ i).moduli al (L i) (S i)).2) (edgeBModuli s al l).2.2 :=
  have c := stab_lim hL hS.h h0 hal
  ⟨c.mul (hS.k23.mul (hS.E 0 0)), c.mul (hS.k13.mul (hS.E 1 1))⟩

/-! ### triangles -/

theorem edgeLen_lim {m : Mesh} (w : WF m) (hf : FlatMesh m) {e : ℕ} (he : e ∈ m.eids) {k : Key} (hk : k ∈ (m.tria e).edges) :
    Lim φ (fun i => (φ i).edgeLen m k) (edgeLen m k) := by
  have hk' : k ∈ (m.tria e).edgeIds := (w.tedges e he).mem_iff.1 hk
  have hm := (w.mem_ekeys _).2 ⟨e, he, hk'⟩
  refine LimV.norm ((xyz_lim m _).sub (xyz_lim m _)) ?_
  rw [(w.en _ hm).1, (w.en _ hm).2]
  have h0 := hf.nondeg e he
  have key : ∀ a b c, sarea m [[a], [b], [c]] ≠ 0 → sortPair a b = k →
      ((m.node k.1).xyz.sub (m.node k.2).xyz).x ≠ 0 ∨ ((m.node k.1).xyz.sub (m.node k.2).xyz).y ≠ 0 := by
    rintro a b c h rfl
    unfold sortPair
    split
    · exact apart h
    · apply apart (P := [c])
      intro h'; apply h
      rw [sarea3] at h' ⊢
      linarith
  simp only [Tria.edgeIds, List.mem_cons, List.not_mem_nil, or_false] at hk'
  rcases hk' with h | h | h
  · exact key _ _ _ h0 h.symm
  · refine key _ _ (m.tria e).n1 ?_ h.symm
    intro h'; apply h0; rw [sarea3] at h' ⊢; linarith
  · refine key _ _ (m.tria e).n2 ?_ h.symm
    intro h'; apply h0; rw [sarea3] at h' ⊢; linarith

theorem cellMaxl_lim {m : Mesh} (w : WF m) (hf : FlatMesh m) {e : ℕ} (he : e ∈ m.eids) {A : ι → Flo} {a : ℝ} (hA : Lim φ A a) (ha : 0 < a) {fa : Bool} {l : ℝ}
    (h : cellMaxl m e a fa = .ok l) : ∃ L : ι → Flo, (∀ i, (φ i).cellMaxl m e (A i) fa = .ok (L i)) ∧ Lim φ L l := by
  unfold cellMaxl at h
  unfold Fmt.cellMaxl
  cases fa with
  | true =>
    simp only [if_true] at h ⊢
    obtain rfl := Except.ok.inj h
    exact ⟨_, fun i => rfl, hA.sqrt ha⟩
  | false =>
    simp only [Bool.false_eq_true, if_false] at h ⊢
    have hF : List.Forall₂ (Lim φ) ((m.tria e).edges.map fun k i => (φ i).edgeLen m k) ((m.tria e).edges.map (edgeLen m)) := by
      rw [List.forall₂_map_left_iff, List.forall₂_map_right_iff, List.forall₂_same]
      exact fun k hk => edgeLen_lim w hf he hk
    rcases hx : pyMax ((m.tria e).edges.map (edgeLen m)) with _ | x
    · rw [hx] at h; cases h
    rw [hx] at h
    obtain rfl := Except.ok.inj h
    obtain ⟨B, b1, b2⟩ := pyMax_lim hF hx
    refine ⟨B, fun i => ?_, b2⟩
    have := b1 i
    rw [List.map_map] at this
    rw [show (m.tria e).edges.map ((φ i).edgeLen m) = (m.tria e).edges.map ((fun x => x i) ∘ fun k i => (φ i).edgeLen m k) from rfl, this]

theorem cellOrient_lim {m : Mesh} (w : WF m) (hf : FlatMesh m) {e : ℕ} (he : e ∈ m.eids) :
    ∀ᶠ i in good φ, (φ i).cellOrient m e = cellOrient m e := by
  have h1 := (((xyz_lim (φ := φ) m (m.tria e).n1).sub (mid_lim m e)).cross ((xyz_lim m (m.tria e).n2).sub (mid_lim m e))).dot
    (LimV.const zGlobal)
  have h2 : Vec3.dot (Vec3.cross ((m.node (m.tria e).n1).xyz.sub (m.mid e)) ((m.node (m.tria e).n2).xyz.sub (m.mid e))) zGlobal ≠ 0 := by
    obtain ⟨hx, hy⟩ := mid_flat w hf he
    have h0 := hf.nondeg e he
    intro h'; apply h0
    rw [sarea3]
    simp only [Vec3.dot, Vec3.cross, Vec3.sub, zGlobal, hx, hy, mean_corners'] at h'
    simp only [mean_single]
    simp only [nx, ny] at h' ⊢
    linarith
  filter_upwards [sign_lim h1 h2] with i hi
  unfold Fmt.cellOrient cellOrient
  simp only [hi]

theorem cellNSOrient_lim {m : Mesh} (hf : FlatMesh m) {e : ℕ} (he : e ∈ m.eids) :
    ∀ᶠ i in good φ, (φ i).cellNSOrient m e = cellNSOrient m e := by
  have h1 := (((xyz_lim (φ := φ) m (m.tria e).n2).sub (xyz_lim m (m.tria e).n1)).cross
    ((xyz_lim m (m.tria e).n3).sub (xyz_lim m (m.tria e).n1))).dot (LimV.const zGlobal)
  have h2 : Vec3.dot (Vec3.cross ((m.node (m.tria e).n2).xyz.sub (m.node (m.tria e).n1).xyz) ((m.node (m.tria e).n3).xyz.sub (m.node (m.tria e).n1).xyz)) zGlobal ≠ 0 := by
    have h0 := hf.nondeg e he
    intro h'; apply h0
    rw [sarea3]
    simp only [Vec3.dot, Vec3.cross, Vec3.sub, zGlobal] at h'
    simp only [mean_single, nx, ny]
    linarith
  filter_upwards [sign_lim h1 h2] with i hi
  unfold Fmt.cellNSOrient cellNSOrient
  simp only [hi]

/-- the local variables of a triangle, smoothed method -/
theorem cellSEnv_lim {m : Mesh} {pn : Bool} (h : RanF m pn) (ht : Thick m pn) {al : ℝ} (hal : 0 ≤ al) (fa : Bool) {e : ℕ} (he : e ∈ m.eids) :
    ∃ (E' : CellSEnv (ι → Flo)) (E0 : CellSEnv ℝ), cellSEnv m pn al fa e = .ok E0 ∧ (∀ᶠ i in good φ, (φ i).cellSEnv m pn al fa e = .ok (E'.map fun a => a i)) ∧
      CellSEnv.Rel (Lim φ) E' E0 ∧ E0.Ac ≠ 0 ∧ E0.Ac1 ≠ 0 ∧ E0.Ac2 ≠ 0 ∧ E0.Ac3 ≠ 0 := by
  have w := h.w
  have hf : FlatMesh m := h.hg.flatMesh
  have hi : Indexed m := h.hq.index
  have hpos : 0 < triArea m e := abs_pos.2 (hf.nondeg e he)
  have hA : Lim φ (fun i => (φ i).triaArea m e) (m.triaArea e) := triaArea_lim m e (by rw [triaArea_eq w hf he]; exact hpos)
  have ho := cellOrient_lim (φ := φ) w hf he
  have hc := cellOrient_ccw w hf he
  obtain ⟨a', b', c', -, hv⟩ := cellSEnv_eq w hi hf h.hh ht al fa he
  rcases hx : cellOrient m e with ⟨a, b, c⟩
  rw [hx] at hc ho
  dsimp only at hc
  obtain ⟨ha, hb, hc'⟩ := hc.mem w he
  have hs0 := cellShear_eq h.hh he hc.perm
  obtain ⟨S, s1, s2⟩ := cellShear_lim (φ := φ) hs0
  have hm0 := cellMaxl_eq w hf he fa
  obtain ⟨L, l1, l2⟩ := cellMaxl_lim w hf he hA (by rw [triaArea_eq w hf he]; exact hpos) hm0
  have hst := stab_lim l2 s2.h (ht e he) hal
  have hv0 := hv
  unfold cellSEnv at hv
  simp only [hx, hs0, hm0, Bind.bind, Except.bind, hi.index ha, hi.index hb, hi.index hc'] at hv
  have hmid := mid_lim (φ := φ) m e
  have hE := Except.ok.inj hv
  refine ⟨{ i1 := (m.nids.idxOf a : ℕ), i2 := (m.nids.idxOf b : ℕ), i3 := (m.nids.idxOf c : ℕ), Ac := fun i => (φ i).triaArea m e,
            a1 := fun i => (φ i).sub (Fmt.xyz m a).x ((φ i).mid m e).x, b1 := fun i => (φ i).sub (Fmt.xyz m a).y ((φ i).mid m e).y,
            c1 := fun i => (φ i).sub (Fmt.xyz m b).x ((φ i).mid m e).x, d1 := fun i => (φ i).sub (Fmt.xyz m b).y ((φ i).mid m e).y,
            Ac1 := fun i => (φ i).area3 ((φ i).mid m e) (Fmt.xyz m a) (Fmt.xyz m b),
            a2 := fun i => (φ i).sub (Fmt.xyz m b).x ((φ i).mid m e).x, b2 := fun i => (φ i).sub (Fmt.xyz m b).y ((φ i).mid m e).y,
            c2 := fun i => (φ i).sub (Fmt.xyz m c).x ((φ i).mid m e).x, d2 := fun i => (φ i).sub (Fmt.xyz m c).y ((φ i).mid m e).y,
            Ac2 := fun i => (φ i).area3 ((φ i).mid m e) (Fmt.xyz m b) (Fmt.xyz m c),
            a3 := fun i => (φ i).sub (Fmt.xyz m c).x ((φ i).mid m e).x, b3 := fun i => (φ i).sub (Fmt.xyz m c).y ((φ i).mid m e).y,
            c3 := fun i => (φ i).sub (Fmt.xyz m a).x ((φ i).mid m e).x, d3 := fun i => (φ i).sub (Fmt.xyz m a).y ((φ i).mid m e).y,
            Ac3 := fun i => (φ i).area3 ((φ i).mid m e) (Fmt.xyz m c) (Fmt.xyz m a),
            E44 := fun i => (φ i).mul ((φ i).stab al (L i) (S i).h) ((φ i).mul (S i).k23 ((S i).E 0 0)), E45 := fun _ => .fin 0,
            E55 := fun i => (φ i).mul ((φ i).stab al (L i) (S i).h) ((φ i).mul (S i).k13 ((S i).E 1 1)) }, _, hv0, ?_, ?_, ?_⟩
  · filter_upwards [ho] with i hi'
    unfold Fmt.cellSEnv
    simp only [hi', s1 i, l1 i, Bind.bind, Except.bind, hi.index ha, hi.index hb, hi.index hc']
    rfl
  · rw [← hE]
    have vs := fun p => (xyz_lim (φ := φ) m p)
    exact { i1 := rfl, i2 := rfl, i3 := rfl, Ac := hA,
            a1 := (Lim.const _).sub hmid.x, b1 := (Lim.const _).sub hmid.y, c1 := (Lim.const _).sub hmid.x, d1 := (Lim.const _).sub hmid.y,
            Ac1 := area3_lim hmid (vs _) (vs _),
            a2 := (Lim.const _).sub hmid.x, b2 := (Lim.const _).sub hmid.y, c2 := (Lim.const _).sub hmid.x, d2 := (Lim.const _).sub hmid.y,
            Ac2 := area3_lim hmid (vs _) (vs _),
            a3 := (Lim.const _).sub hmid.x, b3 := (Lim.const _).sub hmid.y, c3 := (Lim.const _).sub hmid.x, d3 := (Lim.const _).sub hmid.y,
            Ac3 := area3_lim hmid (vs _) (vs _),
            E44 := hst.mul (s2.k23.mul (s2.E 0 0)), E45 := Lim.const _, E55 := hst.mul (s2.k13.mul (s2.E 1 1)) }
  · have h3 : triArea m e / 3 ≠ 0 := by positivity
    exact ⟨hpos.ne', h3, h3, h3⟩

/-- the local variables of a triangle, method without smoothing -/
theorem cellNSEnv_lim {m : Mesh} {pn : Bool} (h : RanF m pn) (ht : Thick m pn) {al : ℝ} (hal : 0 ≤ al) (fa : Bool) {e : ℕ} (he : e ∈ m.eids) :
    ∃ (E' : CellNSEnv (ι → Flo)) (E0 : CellNSEnv ℝ), cellNSEnv m pn al fa e = .ok E0 ∧ (∀ᶠ i in good φ, (φ i).cellNSEnv m pn al fa e = .ok (E'.map fun a => a i)) ∧
      CellNSEnv.Rel (Lim φ) E' E0 ∧ E0.Ac ≠ 0 := by
  have w := h.w
  have hf : FlatMesh m := h.hg.flatMesh
  have hi : Indexed m := h.hq.index
  have hpos : 0 < triArea m e := abs_pos.2 (hf.nondeg e he)
  have hA : Lim φ (fun i => (φ i).triaArea m e) (m.triaArea e) := triaArea_lim m e (by rw [triaArea_eq w hf he]; exact hpos)
  have ho := cellNSOrient_lim (φ := φ) hf he
  have hc := cellNSOrient_ccw hf he
  obtain ⟨a', b', c', -, -, hv⟩ := cellNSEnv_eq w hi hf h.hh ht al fa he
  rcases hx : cellNSOrient m e with ⟨a, b, c⟩
  rw [hx] at hc ho
  dsimp only at hc
  obtain ⟨ha, hb, hc'⟩ := hc.mem w he
  have hs0 := cellShear_eq h.hh he hc.perm
  obtain ⟨S, s1, s2⟩ := cellShear_lim (φ := φ) hs0
  have hm0 := cellMaxl_eq w hf he fa
  obtain ⟨L, l1, l2⟩ := cellMaxl_lim w hf he hA (by rw [triaArea_eq w hf he]; exact hpos) hm0
  have hst := stab_lim l2 s2.h (ht e he) hal
  have hv0 := hv
  unfold cellNSEnv at hv
  simp only [hx, hs0, hm0, Bind.bind, Except.bind, hi.index ha, hi.index hb, hi.index hc'] at hv
  have hE := Except.ok.inj hv
  refine ⟨{ i1 := (m.nids.idxOf a : ℕ), i2 := (m.nids.idxOf b : ℕ), i3 := (m.nids.idxOf c : ℕ), Ac := fun i => (φ i).triaArea m e,
            a1 := fun i => (φ i).sub (Fmt.xyz m b).x (Fmt.xyz m a).x, b1 := fun i => (φ i).sub (Fmt.xyz m b).y (Fmt.xyz m a).y,
            c1 := fun i => (φ i).sub (Fmt.xyz m c).x (Fmt.xyz m a).x, d1 := fun i => (φ i).sub (Fmt.xyz m c).y (Fmt.xyz m a).y,
            E44 := fun i => (φ i).mul ((φ i).stab al (L i) (S i).h) ((φ i).mul (S i).k23 ((S i).E 0 0)), E45 := fun _ => .fin 0,
            E55 := fun i => (φ i).mul ((φ i).stab al (L i) (S i).h) ((φ i).mul (S i).k13 ((S i).E 1 1)) }, _, hv0, ?_, ?_, ?_⟩
  · filter_upwards [ho] with i hi'
    unfold Fmt.cellNSEnv
    simp only [hi', s1 i, l1 i, Bind.bind, Except.bind, hi.index ha, hi.index hb, hi.index hc']
    rfl
  · rw [← hE]
    exact { i1 := rfl, i2 := rfl, i3 := rfl, Ac := hA,
            a1 := (Lim.const _).sub (Lim.const _), b1 := (Lim.const _).sub (Lim.const _), c1 := (Lim.const _).sub (Lim.const _), d1 := (Lim.const _).sub (Lim.const _),
            E44 := hst.mul (s2.k23.mul (s2.E 0 0)), E45 := Lim.const _, E55 := hst.mul (s2.k13.mul (s2.E 1 1)) }
  · exact hpos.ne'

/-! ### edges -/

theorem edgeOrient_lim {m : Mesh} {k : Key} {t : ℕ} {e : Edge} (h1 : e.n1 = k.1) (h2 : e.n2 = k.2)
    (hi : Indep (m.node k.1).xyz (m.node k.2).xyz (m.mid t)) : ∀ᶠ i in good φ, (φ i).edgeOrient m e t = edgeOrient m e t := by
  have a1 := (((xyz_lim (φ := φ) m k.2).sub (xyz_lim m k.1)).cross ((mid_lim m t).sub (xyz_lim m k.1))).dot
    (LimV.const zGlobal)
  have a2 : Vec3.dot (Vec3.cross ((m.node k.2).xyz.sub (m.node k.1).xyz) ((m.mid t).sub (m.node k.1).xyz)) zGlobal ≠ 0 := by
    intro h'; apply hi
    simp only [Vec3.dot, Vec3.cross, Vec3.sub, zGlobal] at h'
    linarith
  filter_upwards [sign_lim a1 a2] with i hi'
  unfold Fmt.edgeOrient edgeOrient
  rw [h1, h2]
  simp only [hi']

theorem ipts_le_lim {P : List (ι → FPt)} {p : List IPt} (h : List.Forall₂ (LimPt φ) P p) :
    List.Forall₂ (Lim φ) (P.map fun q i => (q i).le) (p.map (·.le)) := by
  rw [List.forall₂_map_left_iff, List.forall₂_map_right_iff]
  exact h.imp fun _ _ h => h.le

theorem edgeBMaxl_lim {G : ι → Geo} {e : Edge} (h : LimGeo φ G e) {a : ℝ} (hA : Lim φ (fun i => (G i).Ac) a) (ha : 0 < a) {fa : Bool} {l : ℝ}
    (hl : edgeBMaxl e a fa = .ok l) : ∃ L : ι → Flo, (∀ i, (φ i).edgeBMaxl (G i) fa = .ok (L i)) ∧ Lim φ L l := by
  obtain ⟨P, hP, hF⟩ := h.ipts
  unfold edgeBMaxl at hl
  unfold Fmt.edgeBMaxl
  cases fa with
  | true =>
    simp only [if_true] at hl ⊢
    obtain rfl := Except.ok.inj hl
    exact ⟨_, fun i => rfl, hA.sqrt ha⟩
  | false =>
    simp only [Bool.false_eq_true, if_false] at hl ⊢
    rcases hx : pyMax (e.ipts.map (·.le)) with _ | x
    · rw [hx] at hl; cases hl
    rw [hx] at hl
    obtain rfl := Except.ok.inj hl
    obtain ⟨B, b1, b2⟩ := pyMax_lim (ipts_le_lim hF) hx
    refine ⟨B, fun i => ?_, b2⟩
    have := b1 i
    rw [List.map_map] at this
    rw [hP, List.map_map]
    rw [show P.map ((fun x => x.le) ∘ fun x => x i) = P.map ((fun x => x i) ∘ fun q i => (q i).le) from rfl, this]

theorem edgeIMaxl_lim {m : Mesh} {k : Key} {G : ι → Geo} {e : Edge} (h : LimGeo φ G e) (h1 : e.n1 = k.1) (h2 : e.n2 = k.2)
    (hk : ((m.node k.1).xyz.sub (m.node k.2).xyz).x ≠ 0 ∨ ((m.node k.1).xyz.sub (m.node k.2).xyz).y ≠ 0) {a : ℝ} (hA : Lim φ (fun i => (G i).Ac) a) (ha : 0 < a)
    {fa : Bool} {l : ℝ} (hl : edgeIMaxl m e a fa = .ok l) : ∃ L : ι → Flo, (∀ i, (φ i).edgeIMaxl m e (G i) fa = .ok (L i)) ∧ Lim φ L l := by
  obtain ⟨P, hP, hF⟩ := h.ipts
  unfold edgeIMaxl at hl
  unfold Fmt.edgeIMaxl
  cases fa with
  | true =>
    simp only [if_true] at hl ⊢
    obtain rfl := Except.ok.inj hl
    exact ⟨_, fun i => rfl, hA.sqrt ha⟩
  | false =>
    simp only [Bool.false_eq_true, if_false] at hl ⊢
    rcases hx : pyMax (e.ipts.map (·.le)) with _ | x
    · rw [hx] at hl; cases hl
    rw [hx] at hl
    obtain rfl := Except.ok.inj hl
    obtain ⟨B, b1, b2⟩ := pyMax_lim (ipts_le_lim hF) hx
    have hn : Lim φ (fun i => (φ i).vnorm ((φ i).vsub (Fmt.xyz m k.1) (Fmt.xyz m k.2))) ((m.node k.1).xyz.sub (m.node k.2).xyz).norm :=
      LimV.norm ((xyz_lim m _).sub (xyz_lim m _)) hk
    rw [h1, h2]
    refine ⟨fun i => Flo.max2 (B i) ((φ i).vnorm ((φ i).vsub (Fmt.xyz m k.1) (Fmt.xyz m k.2))), fun i => ?_, b2.max2 hn⟩
    have := b1 i
    rw [List.map_map] at this
    rw [hP, List.map_map]
    rw [show P.map ((fun x => x.le) ∘ fun x => x i) = P.map ((fun x => x i) ∘ fun q i => (q i).le) from rfl, this]

theorem edgeBEnv_lim {m : Mesh} {pn : Bool} {G : ι → Geo} {e : Edge} (h : LimGeo φ G e) {al : ℝ} (hal : 0 ≤ al) {fa : Bool} {t a b : ℕ}
    (ht : ∀ o s, e.other1 = some o → edgeBShear m pn t a b o = .ok s → s.h ≠ 0) {E0 : EdgeBEnv ℝ} (hE : edgeBEnv m pn al fa e t a b = .ok E0) :
    ∃ E' : EdgeBEnv (ι → Flo), (∀ i, (φ i).edgeBEnv m pn al fa e (G i) t a b = .ok (E'.map fun a => a i)) ∧ EdgeBEnv.Rel (Lim φ) E' E0 ∧ E0.Ac ≠ 0 := by
  obtain ⟨l, hl, hacc, hpos⟩ := h.Ac
  have hmx := fun x hx => edgeBMaxl_lim h hacc hpos (fa := fa) (l := x) hx
  have hmid := mid_lim (φ := φ) m t
  unfold edgeBEnv at hE
  unfold Fmt.edgeBEnv
  rw [hl] at hE
  rcases ho : e.other1 with _ | o
  · rw [ho] at hE; cases hE
  rw [ho] at hE
  dsimp only [Bind.bind] at hE ⊢
  rcases hs : edgeBShear m pn t a b o with er | s
  · rw [hs] at hE; cases hE
  obtain ⟨S, s1, s2⟩ := edgeBShear_lim (φ := φ) hs
  have h0 := ht o s ho hs
  rcases hm : edgeBMaxl e l fa with er | x
  · rw [hs, hm] at hE; cases hE
  obtain ⟨L, l1, l2⟩ := hmx x hm
  obtain ⟨m1, m3⟩ := moduli_lim s2 h0 l2 hal
  rw [hs, hm] at hE
  simp only [s1, l1, Except.bind] at hE ⊢
  rcases hi1 : (m.node a).index with _ | i1
  · rw [hi1] at hE; cases hE
  rcases hi2 : (m.node b).index with _ | i2
  · rw [hi1, hi2] at hE; cases hE
  rcases hi3 : (m.node o).index with _ | i3
  · rw [hi1, hi2, hi3] at hE; cases hE
  rw [hi1, hi2, hi3] at hE
  obtain rfl := Except.ok.inj hE
  exact ⟨{ i1 := i1, i2 := i2, i3 := i3, Ac := fun i => (G i).Ac, E44 := fun i => ((φ i).moduli al (L i) (S i)).1, E45 := fun _ => .fin 0,
           E55 := fun i => ((φ i).moduli al (L i) (S i)).2,
           a1 := fun i => (φ i).sub (Fmt.xyz m a).x ((φ i).mid m t).x, b1 := fun i => (φ i).sub (Fmt.xyz m a).y ((φ i).mid m t).y,
           c1 := fun i => (φ i).sub (Fmt.xyz m b).x ((φ i).mid m t).x, d1 := fun i => (φ i).sub (Fmt.xyz m b).y ((φ i).mid m t).y }, fun i => rfl,
    { i1 := rfl, i2 := rfl, i3 := rfl, Ac := hacc, E44 := m1, E45 := Lim.const _, E55 := m3, a1 := (Lim.const _).sub hmid.x, b1 := (Lim.const _).sub hmid.y,
      c1 := (Lim.const _).sub hmid.x, d1 := (Lim.const _).sub hmid.y }, hpos.ne'⟩

theorem edgeIEnv_lim {m : Mesh} {pn : Bool} {k : Key} {G : ι → Geo} {e : Edge} (h : LimGeo φ G e) (k1 : e.n1 = k.1) (k2 : e.n2 = k.2)
    (hk : ((m.node k.1).xyz.sub (m.node k.2).xyz).x ≠ 0 ∨ ((m.node k.1).xyz.sub (m.node k.2).xyz).y ≠ 0) {al : ℝ} (hal : 0 ≤ al) {fa : Bool} {t1 t2 a b : ℕ}
    (ht : ∀ o1 o2 A s, e.other1 = some o1 → e.other2 = some o2 → e.Ac = some A → edgeIShear m pn (polyArea [m.mid t1, (m.node a).xyz, (m.node b).xyz])
      (polyArea [(m.node a).xyz, m.mid t2, (m.node b).xyz]) A t1 t2 a b o1 o2 = .ok s → s.h ≠ 0)
    (hA1 : polyArea [m.mid t1, (m.node a).xyz, (m.node b).xyz] ≠ 0) (hA2 : polyArea [(m.node a).xyz, m.mid t2, (m.node b).xyz] ≠ 0) {E0 : EdgeIEnv ℝ}
    (hE : edgeIEnv m pn al fa e t1 t2 a b = .ok E0) :
    ∃ E' : EdgeIEnv (ι → Flo), (∀ i, (φ i).edgeIEnv m pn al fa e (G i) t1 t2 a b = .ok (E'.map fun a => a i)) ∧ EdgeIEnv.Rel (Lim φ) E' E0 ∧
      E0.Ac ≠ 0 ∧ E0.Ac1 ≠ 0 ∧ E0.Ac2 ≠ 0 := by
  obtain ⟨l, hl, hacc, hpos⟩ := h.Ac
  have hmx := fun x hx => edgeIMaxl_lim h k1 k2 hk hacc hpos (fa := fa) (l := x) hx
  have hmid1 := mid_lim (φ := φ) m t1
  have hmid2 := mid_lim (φ := φ) m t2
  have p1 : Lim φ (fun i => (φ i).area3 ((φ i).mid m t1) (Fmt.xyz m a) (Fmt.xyz m b)) _ := area3_lim hmid1 (xyz_lim m _) (xyz_lim m _)
  have p2 : Lim φ (fun i => (φ i).area3 (Fmt.xyz m a) ((φ i).mid m t2) (Fmt.xyz m b)) _ := area3_lim (xyz_lim m _) hmid2 (xyz_lim m _)
  unfold edgeIEnv at hE
  unfold Fmt.edgeIEnv
  rw [hl] at hE
  rcases ho1 : e.other1 with _ | o1
  · rw [ho1] at hE; cases hE
  rcases ho2 : e.other2 with _ | o2
  · rw [ho1, ho2] at hE; cases hE
  rw [ho1, ho2] at hE
  dsimp only [Bind.bind] at hE ⊢
  rcases hs : edgeIShear m pn (polyArea [m.mid t1, (m.node a).xyz, (m.node b).xyz]) (polyArea [(m.node a).xyz, m.mid t2, (m.node b).xyz]) l t1 t2 a b o1 o2 with er | s
  · rw [hs] at hE; cases hE
  obtain ⟨S, s1, s2⟩ := edgeIShear_lim p1 p2 hacc hpos.ne' hs
  have h0 := ht o1 o2 l s ho1 ho2 hl hs
  rcases hm : edgeIMaxl m e l fa with er | x
  · rw [hs, hm] at hE; cases hE
  obtain ⟨L, l1, l2⟩ := hmx x hm
  obtain ⟨m1, m2, m3⟩ := edgeIModuli_lim s2 h0 l2 hal
  rw [hs, hm] at hE
  simp only [s1, l1, Except.bind] at hE ⊢
  rcases hi1 : (m.node a).index with _ | i1
  · rw [hi1] at hE; cases hE
  rcases hi2 : (m.node b).index with _ | i2
  · rw [hi1, hi2] at hE; cases hE
  rcases hi3 : (m.node o1).index with _ | i3
  · rw [hi1, hi2, hi3] at hE; cases hE
  rcases hi4 : (m.node o2).index with _ | i4
  · rw [hi1, hi2, hi3, hi4] at hE; cases hE
  rw [hi1, hi2, hi3, hi4] at hE
  obtain rfl := Except.ok.inj hE
  exact ⟨{ i1 := i1, i2 := i2, i3 := i3, i4 := i4, Ac := fun i => (G i).Ac, Ac1 := fun i => (φ i).area3 ((φ i).mid m t1) (Fmt.xyz m a) (Fmt.xyz m b),
           Ac2 := fun i => (φ i).area3 (Fmt.xyz m a) ((φ i).mid m t2) (Fmt.xyz m b),
           E44 := fun i => ((φ i).edgeIModuli (S i) al (L i)).1, E45 := fun i => ((φ i).edgeIModuli (S i) al (L i)).2.1,
           E55 := fun i => ((φ i).edgeIModuli (S i) al (L i)).2.2,
           a1 := fun i => (φ i).sub (Fmt.xyz m a).x ((φ i).mid m t1).x, b1 := fun i => (φ i).sub (Fmt.xyz m a).z ((φ i).mid m t1).y,
           c1 := fun i => (φ i).sub (Fmt.xyz m b).x ((φ i).mid m t1).x, d1 := fun i => (φ i).sub (Fmt.xyz m b).y ((φ i).mid m t1).y,
           a2 := fun i => (φ i).sub ((φ i).mid m t2).x (Fmt.xyz m a).x, b2 := fun i => (φ i).sub ((φ i).mid m t2).y (Fmt.xyz m a).y,
           c2 := fun i => (φ i).sub (Fmt.xyz m b).x (Fmt.xyz m a).x, d2 := fun i => (φ i).sub (Fmt.xyz m b).y (Fmt.xyz m a).y }, fun i => rfl,
    { i1 := rfl, i2 := rfl, i3 := rfl, i4 := rfl, Ac := hacc, Ac1 := p1, Ac2 := p2, E44 := m1, E45 := m2, E55 := m3,
      a1 := (Lim.const _).sub hmid1.x, b1 := (Lim.const _).sub hmid1.y,
      c1 := (Lim.const _).sub hmid1.x, d1 := (Lim.const _).sub hmid1.y, a2 := hmid2.x.sub (Lim.const _), b2 := hmid2.y.sub (Lim.const _),
      c2 := (Lim.const _).sub (Lim.const _), d2 := (Lim.const _).sub (Lim.const _) }, hpos.ne', hA1, hA2⟩

/-! ### the loops -/

section loop
variable {m : Mesh} {pn : Bool} (h : RanF m pn) {al : ℝ} (hal : 0 ≤ al) (fa : Bool) {N : ι → FMat} {N0 : Mat}
include h hal

theorem cellSTria_lim (ht : Thick m pn) {e : ℕ} (he : e ∈ m.eids) (hN : LimMat φ N N0) (h0 : (cellSTria m pn al fa N0 e).2 = none) :
    (∀ᶠ i in good φ, ((φ i).cellSTria m pn al fa (N i) e).2 = none) ∧
    LimMat φ (fun i => ((φ i).cellSTria m pn al fa (N i) e).1) (cellSTria m pn al fa N0 e).1 := by
  obtain ⟨E', E0, e0, e1, e2, c0, c1, c2, c3⟩ := cellSEnv_lim (φ := φ) h ht hal fa he
  refine step_lim (cellSEntries_lim e2 c0 c1 c2 c3) hN ?_ (by unfold cellSTria; rw [e0]) h0
  filter_upwards [e1] with i hi
  unfold Fmt.cellSTria
  rw [hi]
  rfl

theorem cellNSTria_lim (ht : Thick m pn) {e : ℕ} (he : e ∈ m.eids) (hN : LimMat φ N N0) (h0 : (cellNSTria m pn al fa N0 e).2 = none) :
    (∀ᶠ i in good φ, ((φ i).cellNSTria m pn al fa (N i) e).2 = none) ∧
    LimMat φ (fun i => ((φ i).cellNSTria m pn al fa (N i) e).1) (cellNSTria m pn al fa N0 e).1 := by
  obtain ⟨E', E0, e0, e1, e2, c0⟩ := cellNSEnv_lim (φ := φ) h ht hal fa he
  refine step_lim (cellNSEntries_lim e2 c0) hN ?_ (by unfold cellNSTria; rw [e0]) h0
  filter_upwards [e1] with i hi
  unfold Fmt.cellNSTria
  rw [hi]
  rfl

theorem edgeSEdge_lim (ht : EdgeThick m pn) {k : Key} (hk : k ∈ m.ekeys) (hN : LimMat φ N N0) (h0 : (edgeSEdge m pn al fa N0 k).2 = none) :
    (∀ᶠ i in good φ, ((φ i).edgeSEdge m (fun k => (φ i).geo m (m.edge k)) pn al fa (N i) k).2 = none) ∧
    LimMat φ (fun i => ((φ i).edgeSEdge m (fun k => (φ i).geo m (m.edge k)) pn al fa (N i) k).1) (edgeSEdge m pn al fa N0 k).1 := by
  obtain ⟨G, hE, hev⟩ := h.geo (φ := φ) hk
  have hg := h.hg
  rcases prepared_shape h.w h.hp h.hq hk with ⟨t, o, he, hs⟩ | ⟨t1, t2, o1, o2, he, hs1, hs2, ho, _⟩
  · have htr : (m.edge k).trias = [t] := by rw [he]; rfl
    have hA := triArea_side hs
    have hA0 : triArea m t ≠ 0 := abs_ne_zero.2 (hg.nondeg t hs.mem)
    have hS0 : sarea m [[k.1], [k.2], corners m t] ≠ 0 := by intro h; rw [h, abs_zero] at hA; exact hA0 (by linarith)
    have k1 : (m.edge k).n1 = k.1 := by rw [he]; rfl
    have k2 : (m.edge k).n2 = k.2 := by rw [he]; rfl
    have hor := edgeOrient_ends hg.basic hs k1 k2
    have hora := edgeOrient_lim (φ := φ) k1 k2 (side_indep hg hs)
    obtain ⟨e1, e2, e3, -⟩ := ends_spec hs hS0
    rw [hor] at hora
    rcases hab : ends m k t with ⟨a, b⟩
    rw [hab] at e1 e2 e3 hora hor
    dsimp only at e1 e2 e3
    have hsh := edgeBShear_eq h.hh e1 e3 htr hA0
    rcases henv : edgeBEnv m pn al fa (m.edge k) t a b with er | E0
    · unfold edgeSEdge at h0
      dsimp only at h0
      rw [htr] at h0
      dsimp only at h0
      rw [hor] at h0
      dsimp only at h0
      rw [henv] at h0
      cases h0
    obtain ⟨E', x1, x2, x3⟩ := edgeBEnv_lim hE hal (fun o' s ho' hs' => by
      rw [he] at ho'
      obtain rfl : o = o' := Option.some.inj ho'
      rw [hsh] at hs'
      obtain rfl := Except.ok.inj hs'
      exact ht k hk) henv
    refine step_lim (edgeBEntries_lim x2 x3) hN ?_ ?_ h0
    · filter_upwards [hev, hora] with i hi hj
      unfold Fmt.edgeSEdge
      dsimp only
      rw [htr]
      dsimp only
      rw [hj]
      dsimp only
      rw [hi, x1 i]
      rfl
    · unfold edgeSEdge
      dsimp only
      rw [htr]
      dsimp only
      rw [hor]
      dsimp only
      rw [henv]
  · have htr : (m.edge k).trias = [t1, t2] := by rw [he]; rfl
    have hop := hg.opposite k hk t1 t2 htr
    have hA1 := triArea_side hs1
    have p1 : 0 < triArea m t1 := abs_pos.2 (hg.nondeg t1 hs1.mem)
    have hA2 := triArea_side hs2
    have p2 : 0 < triArea m t2 := abs_pos.2 (hg.nondeg t2 hs2.mem)
    have hS0 : sarea m [[k.1], [k.2], corners m t1] ≠ 0 := by intro h; rw [h, abs_zero] at hA1; linarith
    have hAc0 : (m.edge k).Ac = some (polyArea [(m.node (orient m (m.mid t1) k.1 k.2).1).xyz, m.mid t1,
      (m.node (orient m (m.mid t1) k.1 k.2).2).xyz, m.mid t2, (m.node (orient m (m.mid t1) k.1 k.2).1).xyz]) := by rw [he]; rfl
    obtain ⟨hgeo, hsum⟩ := geo_interior hg.basic hg.flat he hs1 hs2 hop hAc0
    rw [hA1, hA2] at hsum
    have k1 : (m.edge k).n1 = k.1 := by rw [he]; rfl
    have k2 : (m.edge k).n2 = k.2 := by rw [he]; rfl
    have hor := edgeOrient_ends hg.basic hs1 k1 k2
    have hora := edgeOrient_lim (φ := φ) k1 k2 (side_indep hg hs1)
    obtain ⟨e1, e2, e3, e4⟩ := ends_spec hs1 hS0
    replace e4 := e4 _ hop
    rw [hor] at hora
    rcases hab : ends m k t1 with ⟨a, b⟩
    rw [hab] at e1 e2 e3 e4 hora hor
    dsimp only at e1 e2 e3 e4
    have hs2' : Side m t2 (a, b) o2 := by rcases e3 with rfl | rfl; exacts [hs2, hs2.swap]
    have hB1 : |sarea m [corners m t1, [a], [b]]| = triArea m t1 / 3 := by
      rw [← hA1]
      rcases e3 with rfl | rfl
      · congr 1; rw [sarea3, sarea3]; ring
      · rw [← abs_neg]; congr 1; rw [sarea3, sarea3]; ring
    have hB2 : |sarea m [[a], corners m t2, [b]]| = triArea m t2 / 3 := by
      rw [← hA2]
      rcases e3 with rfl | rfl
      · rw [← abs_neg]; congr 1; rw [sarea3, sarea3]; ring
      · congr 1; rw [sarea3, sarea3]; ring
    obtain ⟨q1, q2⟩ := mid_mean hg.basic hs1
    obtain ⟨r1, r2⟩ := mid_mean hg.basic hs2
    have hpa1 : polyArea [m.mid t1, (m.node a).xyz, (m.node b).xyz] = triArea m t1 / 3 := by
      rw [polyArea3, ← hB1, sarea3, abs_div, abs_two]
      simp only [mean_single, q1, q2, nx, ny]
    have hpa2 : polyArea [(m.node a).xyz, m.mid t2, (m.node b).xyz] = triArea m t2 / 3 := by
      rw [polyArea3, ← hB2, sarea3, abs_div, abs_two]
      simp only [mean_single, r1, r2, nx, ny]
    have hsh := edgeIShear_eq h.hh e1 hs2' e3 htr
    rcases henv : edgeIEnv m pn al fa (m.edge k) t1 t2 a b with er | E0
    · unfold edgeSEdge at h0
      dsimp only at h0
      rw [htr] at h0
      dsimp only at h0
      rw [hor] at h0
      dsimp only at h0
      rw [henv] at h0
      cases h0
    obtain ⟨E', x1, x2, x3, x4, x5⟩ := edgeIEnv_lim hE k1 k2 (apart hS0) hal (fun o1' o2' A s ho1 ho2 hA' hs' => by
      rw [hAc0] at hA'
      rw [← Option.some.inj hA', ← hsum, hpa1, hpa2] at hs'
      rw [he] at ho1 ho2
      obtain rfl : o1 = o1' := Option.some.inj ho1
      obtain rfl : o2 = o2' := Option.some.inj ho2
      rw [hsh] at hs'
      obtain rfl := Except.ok.inj hs'
      exact ht k hk) (by rw [hpa1]; positivity) (by rw [hpa2]; positivity) henv
    refine step_lim (edgeIEntries_lim x2 x3 x4 x5) hN ?_ ?_ h0
    · filter_upwards [hev, hora] with i hi hj
      unfold Fmt.edgeSEdge
      dsimp only
      rw [htr]
      dsimp only
      rw [hj]
      dsimp only
      rw [hi, x1 i]
      rfl
    · unfold edgeSEdge
      dsimp only
      rw [htr]
      dsimp only
      rw [hor]
      dsimp only
      rw [henv]

/-- `add_k0s` with rounding on the meshes left by `calc_k0`, all three methods -/
theorem addK0s_lim (method : String) (ht : if method = "edge-based" then EdgeThick m pn else Thick m pn) {F : ι → FMat} {K : Mat} (hF : LimMat φ F K)
    (h0 : (addK0s K m pn method al fa).2 = none) :
    (∀ᶠ i in good φ, ((φ i).addK0s (F i) m (fun k => (φ i).geo m (m.edge k)) pn method al fa).2 = none) ∧
    LimMat φ (fun i => ((φ i).addK0s (F i) m (fun k => (φ i).geo m (m.edge k)) pn method al fa).1) (addK0s K m pn method al fa).1 := by
  unfold addK0s at h0 ⊢
  unfold Fmt.addK0s
  split
  · rename_i q
    rw [if_pos q] at h0
    subst q
    rw [if_neg (by decide)] at ht
    exact (loop_lim (f := fun i => (φ i).cellSTria m pn al fa) m.eids hF (fun e he {N N0} hN h0 => cellSTria_lim h hal fa ht he hN h0) h0)
  rename_i q
  rw [if_neg q] at h0
  split
  · rename_i q
    rw [if_pos q] at h0
    subst q
    rw [if_neg (by decide)] at ht
    exact (loop_lim (f := fun i => (φ i).cellNSTria m pn al fa) m.eids hF (fun e he {N N0} hN h0 => cellNSTria_lim h hal fa ht he hN h0) h0)
  rename_i q
  rw [if_neg q] at h0
  split
  · rename_i q
    rw [if_pos q] at h0 ht
    exact (loop_lim (f := fun i => (φ i).edgeSEdge m (fun k => (φ i).geo m (m.edge k)) pn al fa) m.ekeys hF (fun k hk {N N0} hN h0 => edgeSEdge_lim h hal fa ht hk hN h0) h0)
  rename_i q
  rw [if_neg q] at h0
  cases h0

end loop

end Meshless
