import Verif.Lemmas.MagCellNS
import Verif.Lemmas.IeeeLikeS

/-! The local variables of `add_k0s` for a triangle, with explicit bounds (cell-based-no-smoothing). -/

set_option autoImplicit false

namespace Meshless
open Spec Mg

variable {f : Fmt} {s : Units} {σ : ℚ}

theorem Spec.SizedAt.up {m : Mesh} {σ : ℝ} {t : ℕ} {l : ℝ} (h : SizedAt m σ l t) : triArea m t ≤ l ^ 2 := by
  have n12 := h.near _ _ (Or.inl rfl) (Or.inr (Or.inl rfl))
  have n13 := h.near _ _ (Or.inl rfl) (Or.inr (Or.inr rfl))
  unfold triArea
  rw [sarea3]
  simp only [mean_single]
  have hl : 0 ≤ l := (abs_nonneg _).trans n12.1
  rw [abs_div, abs_of_pos (show (0:ℝ) < 2 by norm_num), div_le_iff₀ two_pos]
  refine (abs_sub _ _).trans ?_
  rw [abs_mul, abs_mul]
  have e1 : |nx m (m.tria t).n2 - nx m (m.tria t).n1| * |ny m (m.tria t).n3 - ny m (m.tria t).n1| ≤ l * l :=
    mul_le_mul (by rw [abs_sub_comm]; exact n12.1) (by rw [abs_sub_comm]; exact n13.2) (abs_nonneg _) hl
  have e2 : |nx m (m.tria t).n3 - nx m (m.tria t).n1| * |ny m (m.tria t).n2 - ny m (m.tria t).n1| ≤ l * l :=
    mul_le_mul (by rw [abs_sub_comm]; exact n13.1) (by rw [abs_sub_comm]; exact n12.2) (abs_nonneg _) hl
  nlinarith [e1, e2]

/-- a triangle of a flat mesh -/
structure Cell (s : Units) (σ : ℚ) (m : Mesh) (e : ℕ) : Prop where
  w : WF m
  flat : FlatMesh m
  mem : e ∈ m.eids
  size : SizedAt m σ s.l e

namespace Cell
variable {m : Mesh} {e : ℕ}

theorem corner_mem (h : Cell s σ m e) {i : ℕ} (hi : IsCorner m e i) : i ∈ m.nids := by
  obtain ⟨h1, h2, h3⟩ := h.w.corners h.mem
  rcases hi with rfl | rfl | rfl
  exacts [h1, h2, h3]

theorem side (h : Cell s σ m e) (hf : Spec.Double f) {i j : ℕ} (hi : IsCorner m e i) (hj : IsCorner m e j) :
    HasV s dif difz (f.vsub (m.node i).xyz.flo (m.node j).xyz.flo) ((m.node i).xyz.sub (m.node j).xyz) :=
  side_has hf (h.size.near i j hi hj) (h.flat.flat _ (h.corner_mem hi) _ (h.corner_mem hj))

theorem area (h : Cell s σ m e) (hf : Spec.Double f) : (gAr σ).Has s (f.triaArea m e) (m.triaArea e) := by
  have c1 : IsCorner m e (m.tria e).n1 := Or.inl rfl
  have c2 : IsCorner m e (m.tria e).n2 := Or.inr (Or.inl rfl)
  have c3 : IsCorner m e (m.tria e).n3 := Or.inr (Or.inr rfl)
  have e1 : m.pos (m.tria e).n1 = (m.node (m.tria e).n1).xyz := h.flat.basic _ (h.corner_mem c1)
  have e2 : m.pos (m.tria e).n2 = (m.node (m.tria e).n2).xyz := h.flat.basic _ (h.corner_mem c2)
  have e3 : m.pos (m.tria e).n3 = (m.node (m.tria e).n3).xyz := h.flat.basic _ (h.corner_mem c3)
  have z2 := h.flat.flat _ (h.corner_mem c1) _ (h.corner_mem c2)
  have z3 := h.flat.flat _ (h.corner_mem c1) _ (h.corner_mem c3)
  rw [triaArea_eq h.w h.flat h.mem]
  unfold Fmt.triaArea
  dsimp only
  rw [e1, e2, e3]
  refine half_norm_has hf (cross_has hf (h.side hf c1 c2) (h.side hf c1 c3)) ?_ ?_ ?_ h.size.up h.size.area
  · simp only [Vec3.cross, Vec3.sub, z2]; rw [← z2, ← z3]; ring
  · simp only [Vec3.cross, Vec3.sub]; rw [z3]; rw [z2] at z3; rw [← z3]; ring
  · unfold triArea
    rw [sarea3, abs_div, abs_of_pos (show (0:ℝ) < 2 by norm_num)]
    simp only [Vec3.cross, Vec3.sub, mean_single, nx, ny]
    rw [mul_div_cancel₀ _ (two_ne_zero' ℝ)]
    congr 1; ring

theorem long (h : Cell s σ m e) (hσ : 0 < σ) {i j k : ℕ} (hi : IsCorner m e i) (hk : IsCorner m e k) (ha : triArea m e = |sarea m [[i], [j], [k]]|) :
    (s.l * (7 / 5 * σ)) ^ 2 ≤ (nx m i - nx m j) * (nx m i - nx m j) + (ny m i - ny m j) * (ny m i - ny m j) := by
  have hl := s.l_pos
  have hσ' : 0 < (σ:ℝ) := by exact_mod_cast hσ
  have n := h.size.near _ _ hi hk
  have h1 := h.size.area
  rw [ha, sarea3, abs_div, abs_of_pos (show (0:ℝ) < 2 by norm_num), le_div_iff₀ two_pos] at h1
  simp only [mean_single] at h1
  have h2 := cross_long (p := nx m i - nx m j) (q := ny m i - ny m j) (r := nx m i - nx m k) (t := ny m i - ny m k) (A := σ * s.l ^ 2 * 2) (D := 2 * s.l ^ 2) (by positivity)
    (h1.trans_eq (by rw [← abs_neg]; rw [← abs_neg]; congr 1; ring)) ?_
  · have h3 : (2 * s.l ^ 2) * (s.l * (7 / 5 * σ)) ^ 2 ≤ (2 * s.l ^ 2) * ((nx m i - nx m j) * (nx m i - nx m j) + (ny m i - ny m j) * (ny m i - ny m j)) := by
      refine le_trans ?_ h2
      have : 0 ≤ s.l ^ 4 * (σ:ℝ) ^ 2 := by positivity
      nlinarith
    exact le_of_mul_le_mul_left h3 (by positivity)
  · have a1 := mul_self_le_mul_self (abs_nonneg _) n.1
    have a2 := mul_self_le_mul_self (abs_nonneg _) n.2
    rw [abs_mul_abs_self] at a1 a2
    nlinarith

theorem len (h : Cell s σ m e) (hf : Spec.Double f) (hσ : 0 < σ) {i j k : ℕ} (hi : IsCorner m e i) (hj : IsCorner m e j) (hk : IsCorner m e k)
    (ha : triArea m e = |sarea m [[i], [j], [k]]|) : (gSd σ).Has s (f.vnorm (f.vsub (m.node i).xyz.flo (m.node j).xyz.flo)) ((m.node i).xyz.sub (m.node j).xyz).norm := by
  have v := h.side hf hi hj
  have hl := s.l_pos
  have hσ' : 0 < (σ:ℝ) := by exact_mod_cast hσ
  have hz : ((m.node i).xyz.sub (m.node j).xyz).z = 0 := sub_eq_zero.2 (h.flat.flat _ (h.corner_mem hi) _ (h.corner_mem hj))
  have n := h.size.near _ _ hi hj
  refine Has.vnorm hf v.x v.y v.z ?_ ?_
  · show _ ≤ s.U (⟨1, 0, 0, 0⟩ : Grd) * _
    rw [U_len]
    exact norm_le hz hl.le (by norm_num) (r := 1) (by rw [mul_one]; exact n.1) (by rw [mul_one]; exact n.2) (by norm_num)
  · show s.U (⟨1, 0, 0, 0⟩ : Grd) * _ ≤ _
    rw [U_len]
    refine le_norm hz (by positivity) ?_
    push_cast
    exact h.long hσ hi hk ha

theorem edge (h : Cell s σ m e) (hf : Spec.Double f) (hσ : 0 < σ) {k : Key} (hk : k ∈ (m.tria e).edges) :
    (gSd σ).Has s (f.edgeLen m k) (edgeLen m k) ∧ 0 ≤ edgeLen m k := by
  refine ⟨?_, Real.sqrt_nonneg _⟩
  have hk' : k ∈ (m.tria e).edgeIds := (h.w.tedges e h.mem).mem_iff.1 hk
  have hm := (h.w.mem_ekeys _).2 ⟨e, h.mem, hk'⟩
  have c1 : IsCorner m e (m.tria e).n1 := Or.inl rfl
  have c2 : IsCorner m e (m.tria e).n2 := Or.inr (Or.inl rfl)
  have c3 : IsCorner m e (m.tria e).n3 := Or.inr (Or.inr rfl)
  unfold Fmt.edgeLen edgeLen Fmt.xyz
  rw [(h.w.en _ hm).1, (h.w.en _ hm).2]
  have key : ∀ a b c, IsCorner m e a → IsCorner m e b → IsCorner m e c → triArea m e = |sarea m [[a], [b], [c]]| → sortPair a b = k →
      (gSd σ).Has s (f.vnorm (f.vsub (m.node k.1).xyz.flo (m.node k.2).xyz.flo)) ((m.node k.1).xyz.sub (m.node k.2).xyz).norm := by
    rintro a b c ha hb hc h0 rfl
    unfold sortPair
    split
    · exact h.len hf hσ ha hb hc h0
    · refine h.len hf hσ hb ha hc ?_
      rw [h0, sarea3, sarea3, ← abs_neg]; congr 1; ring
  simp only [Tria.edgeIds, List.mem_cons, List.not_mem_nil, or_false] at hk'
  rcases hk' with h' | h' | h'
  · exact key _ _ _ c1 c2 c3 rfl h'.symm
  · refine key _ _ (m.tria e).n1 c2 c3 c1 ?_ h'.symm
    unfold triArea; rw [sarea3, sarea3]; congr 1; ring
  · refine key _ _ (m.tria e).n2 c3 c1 c2 ?_ h'.symm
    unfold triArea; rw [sarea3, sarea3]; congr 1; ring

theorem maxl (h : Cell s σ m e) (hf : Spec.Double f) (hσ : 0 < σ) (hσ1 : σ ≤ 1) {fa : Bool} {l : ℝ} (hl : cellMaxl m e (m.triaArea e) fa = .ok l) :
    ∃ L, f.cellMaxl m e (f.triaArea m e) fa = .ok L ∧ (gMx σ (gAr σ)).Has s L l := by
  unfold cellMaxl at hl
  unfold Fmt.cellMaxl
  cases fa with
  | true =>
    simp only [if_true] at hl ⊢
    obtain rfl := Except.ok.inj hl
    have p0 := s.l_pos
    have hσ' : 0 < (σ:ℝ) := by exact_mod_cast hσ
    have hσ1' : (σ:ℝ) ≤ 1 := by exact_mod_cast hσ1
    refine ⟨_, rfl, (sqrt_has hf (h.area hf) (by norm_num) ?_ ?_).joinl⟩
    · rw [triaArea_eq h.w h.flat h.mem]; simpa using h.size.up
    · rw [triaArea_eq h.w h.flat h.mem]
      refine le_trans ?_ h.size.area
      have : (σ:ℝ) * σ ≤ σ * 1 := mul_le_mul_of_nonneg_left hσ1' hσ'.le
      nlinarith [sq_nonneg s.l]
  | false =>
    simp only [Bool.false_eq_true, if_false] at hl ⊢
    have hF : List.Forall₂ (fun A a => (gSd σ).Has s A a ∧ 0 ≤ a) ((m.tria e).edges.map (f.edgeLen m)) ((m.tria e).edges.map (edgeLen m)) := by
      rw [List.forall₂_map_left_iff, List.forall₂_map_right_iff, List.forall₂_same]
      exact fun k hk => h.edge hf hσ hk
    rcases hx : pyMax ((m.tria e).edges.map (edgeLen m)) with _ | x
    · rw [hx] at hl; cases hl
    rw [hx] at hl
    obtain rfl := Except.ok.inj hl
    obtain ⟨B, b1, b2⟩ := pyMax_has hF hx
    exact ⟨B, by rw [b1], b2.joinr⟩

theorem orientNS (h : Cell s σ m e) (hf : Spec.Double f) (hσ : 0 < σ) (hk : okSg σ = true) : f.cellNSOrient m e = cellNSOrient m e := by
  have c1 : IsCorner m e (m.tria e).n1 := Or.inl rfl
  have c2 : IsCorner m e (m.tria e).n2 := Or.inr (Or.inl rfl)
  have c3 : IsCorner m e (m.tria e).n3 := Or.inr (Or.inr rfl)
  have := sign_has hf hσ hk (h.side hf c2 c1) (h.side hf c3 c1) (by
    have h1 := h.size.area
    unfold triArea at h1
    rw [sarea3, abs_div, abs_of_pos (show (0:ℝ) < 2 by norm_num), le_div_iff₀ two_pos] at h1
    simp only [mean_single, nx, ny] at h1
    refine (le_of_eq (by ring)).trans (h1.trans_eq ?_)
    congr 1
    simp only [Vec3.dot, Vec3.cross, Vec3.sub, zGlobal]; ring)
  unfold Fmt.cellNSOrient cellNSOrient
  simp only [Fmt.xyz, this]

end Cell

/-! ### laminate data -/

/-- laminate data within bounds -/
structure HasShear (s : Units) (S : FShear) (p : ShearProp) : Prop where
  k13 : (gAv ⟨0, 0, 0, 0⟩).Has s S.k13 p.k13
  k23 : (gAv ⟨0, 0, 0, 0⟩).Has s S.k23 p.k23
  h : gTh.Has s S.h p.h
  E0 : (gAv ⟨0, 1, 0, 0⟩).Has s (S.E 0 0) (p.E 0 0)
  E1 : (gAv ⟨0, 1, 0, 0⟩).Has s (S.E 1 1) (p.E 1 1)

theorem Medium.pos {x : ℝ} (h : Medium x) : 0 < x := lt_of_lt_of_le (by positivity) h.1

theorem mem_corners_iff {m : Mesh} {e i : ℕ} : i ∈ corners m e ↔ IsCorner m e i := by simp [corners, IsCorner]

theorem cellShear_cases {m : Mesh} {pn : Bool} {g : ℝ} (hs : ShearsUpTo m pn g) {e a b c : ℕ} (he : e ∈ m.eids) (ha : IsCorner m e a) (hb : IsCorner m e b) (hc : IsCorner m e c)
    {sp : ShearProp} (h : cellShear m pn e a b c = .ok sp) :
    (∃ p q r : Lam, Lam.ShearUpTo p g ∧ Lam.ShearUpTo q g ∧ Lam.ShearUpTo r g ∧ sp = shear3 (1/3) (1/3) (1/3) p q r ∧
      ∀ f : Fmt, f.cellShear m pn e a b c = .ok (f.shear3 (f.rnd (1/3)) (f.rnd (1/3)) (f.rnd (1/3)) p q r)) ∨
    ∃ p : Lam, Lam.ShearUpTo p g ∧ sp = p.shear ∧ ∀ f : Fmt, f.cellShear m pn e a b c = .ok p.fshear := by
  unfold cellShear at h
  unfold Fmt.cellShear
  unfold ShearsUpTo at hs
  cases pn with
  | true =>
    simp only [if_true] at h hs ⊢
    have x1 := hs e he a ha
    have x2 := hs e he b hb
    have x3 := hs e he c hc
    revert h x1 x2 x3
    rcases (m.node a).prop with _ | p <;> rcases (m.node b).prop with _ | q <;> rcases (m.node c).prop with _ | r <;> intro h x1 x2 x3 <;> cases h
    exact Or.inl ⟨p, q, r, x1 p rfl, x2 q rfl, x3 r rfl, rfl, fun _ => rfl⟩
  | false =>
    simp only [Bool.false_eq_true, if_false] at h hs ⊢
    have x1 := hs e he
    revert h x1
    rcases (m.tria e).prop with _ | p <;> intro h x1 <;> cases h
    exact Or.inr ⟨p, x1 p rfl, rfl, fun _ => rfl⟩

theorem cellShear_medium {m : Mesh} {pn : Bool} {g : ℝ} (hs : ShearsUpTo m pn g) {e a b c : ℕ} (he : e ∈ m.eids) (ha : IsCorner m e a) (hb : IsCorner m e b) (hc : IsCorner m e c)
    {sp : ShearProp} (h : cellShear m pn e a b c = .ok sp) : Medium sp.h := by
  rcases cellShear_cases hs he ha hb hc h with ⟨p, q, r, hp, hq, hr, rfl, _⟩ | ⟨p, hp, rfl, _⟩
  · have h1 := hp.h; have h2 := hq.h; have h3 := hr.h
    unfold Medium shear3 at *
    dsimp only
    revert h1 h2 h3
    generalize (2:ℝ) ^ (-100 : ℤ) = x
    generalize (2:ℝ) ^ (100 : ℤ) = y
    intro h1 h2 h3
    constructor <;> linarith [h1.1, h1.2, h2.1, h2.2, h3.1, h3.2]
  · exact hp.h

theorem U_p : s.U (⟨0, 1, 0, 0⟩ : Grd) = s.p := by simp [Units.U]

theorem cellShear_bounds (hf : Spec.Double f) {m : Mesh} {pn : Bool} (hs : ShearsUpTo m pn s.p) {e a b c : ℕ} (he : e ∈ m.eids) (ha : IsCorner m e a) (hb : IsCorner m e b)
    (hc : IsCorner m e c) {sp : ShearProp} (h : cellShear m pn e a b c = .ok sp) (hh : s.r = sp.h) : ∃ S, f.cellShear m pn e a b c = .ok S ∧ HasShear s S sp := by
  rcases cellShear_cases hs he ha hb hc h with ⟨p, q, r, hp, hq, hr, rfl, h'⟩ | ⟨p, hp, rfl, h'⟩
  · refine ⟨_, h' f, ?_, ?_, ?_, ?_, ?_⟩
    · exact avg3_has hf (by rw [gr_zero]; exact hp.k13) (by rw [gr_zero]; exact hq.k13) (by rw [gr_zero]; exact hr.k13)
    · exact avg3_has hf (by rw [gr_zero]; exact hp.k23) (by rw [gr_zero]; exact hq.k23) (by rw [gr_zero]; exact hr.k23)
    · exact thick3_has hf (Medium.pos hp.h) (Medium.pos hq.h) (Medium.pos hr.h) hh
    · exact avg3_has hf (by rw [U_p]; exact hp.E0) (by rw [U_p]; exact hq.E0) (by rw [U_p]; exact hr.E0)
    · exact avg3_has hf (by rw [U_p]; exact hp.E1) (by rw [U_p]; exact hq.E1) (by rw [U_p]; exact hr.E1)
  · refine ⟨_, h' f, ?_, ?_, ?_, ?_, ?_⟩
    · exact avg1_has (by rw [gr_zero]; exact hp.k13)
    · exact avg1_has (by rw [gr_zero]; exact hp.k23)
    · exact thick1_has hh
    · exact avg1_has (by rw [U_p]; exact hp.E0)
    · exact avg1_has (by rw [U_p]; exact hp.E1)

/-! ### the variables -/

/-- the bounds of a profile are those of the computed numbers, without smoothing -/
def ProfS.okNS (p : ProfS) : Bool :=
  decide (0 < p.σ) && decide (p.σ ≤ 1) && (gAr p.σ).dom (wA p) && dif.dom (wD p) && (gMo (gMx p.σ (gAr p.σ))).dom (wE p) && okSg p.σ

theorem thick_of {m : Mesh} {pn : Bool} (hh : HasProps m pn) {g : ℝ} (hs : ShearsUpTo m pn g) {e : ℕ} (he : e ∈ m.eids) : Medium (cavg m pn e fun l => l.h) := by
  have h0 := cellShear_eq hh he (List.Perm.refl (corners m e))
  exact cellShear_medium hs he (Or.inl rfl) (Or.inr (Or.inl rfl)) (Or.inr (Or.inr rfl)) h0

theorem cellNSEnv_has (hf : Spec.Double f) {p : ProfS} (hp : p.okNS = true) {m : Mesh} {e : ℕ} (h : Cell s p.σ m e) (hi : Indexed m) {pn : Bool} (hh : HasProps m pn)
    (hs : ShearsUpTo m pn s.p) (hr : s.r = cavg m pn e fun l => l.h) {al : ℝ} (hal : al = 0 ∨ s.q = al) (fa : Bool) :
    ∃ c E0 n1 n2 n3, cellNSEnv m pn al fa e = .ok E0 ∧ f.cellNSEnv m pn al fa e = .ok c ∧ HasCellNS s p c E0 ∧ [n1, n2, n3].Perm (corners m e) ∧
      c.i1 = (m.nids.idxOf n1 : ℕ) ∧ c.i2 = (m.nids.idxOf n2 : ℕ) ∧ c.i3 = (m.nids.idxOf n3 : ℕ) := by
  simp only [ProfS.okNS, Bool.and_eq_true, decide_eq_true_eq] at hp
  obtain ⟨⟨⟨⟨⟨hσ, hσ1⟩, kA⟩, kD⟩, kM⟩, kS⟩ := hp
  have ho := h.orientNS hf hσ kS
  have hc := cellNSOrient_ccw h.flat h.mem
  rcases hx : cellNSOrient m e with ⟨a, b, c⟩
  rw [hx] at hc ho
  dsimp only at hc
  obtain ⟨ha, hb, hc'⟩ := hc.mem h.w h.mem
  have ca : IsCorner m e a := mem_corners_iff.1 (hc.perm.mem_iff.1 (by simp))
  have cb : IsCorner m e b := mem_corners_iff.1 (hc.perm.mem_iff.1 (by simp))
  have cc : IsCorner m e c := mem_corners_iff.1 (hc.perm.mem_iff.1 (by simp))
  have hs0 := cellShear_eq hh h.mem hc.perm
  obtain ⟨S, s1, s2⟩ := cellShear_bounds hf hs h.mem ca cb cc hs0 hr
  have hm0 := cellMaxl_eq h.w h.flat h.mem fa
  obtain ⟨L, l1, l2⟩ := h.maxl hf hσ hσ1 hm0
  have hst := stab_has hf l2 s2.h hr hal
  have d1 := h.side hf cb ca
  have d2 := h.side hf cc ca
  refine ⟨{ i1 := (m.nids.idxOf a : ℕ), i2 := (m.nids.idxOf b : ℕ), i3 := (m.nids.idxOf c : ℕ), Ac := f.triaArea m e,
            a1 := f.sub (Fmt.xyz m b).x (Fmt.xyz m a).x, b1 := f.sub (Fmt.xyz m b).y (Fmt.xyz m a).y,
            c1 := f.sub (Fmt.xyz m c).x (Fmt.xyz m a).x, d1 := f.sub (Fmt.xyz m c).y (Fmt.xyz m a).y,
            E44 := f.mul (f.stab al L S.h) (f.mul S.k23 (S.E 0 0)), E45 := .fin 0,
            E55 := f.mul (f.stab al L S.h) (f.mul S.k13 (S.E 1 1)) },
          { i1 := (m.nids.idxOf a : ℕ), i2 := (m.nids.idxOf b : ℕ), i3 := (m.nids.idxOf c : ℕ), Ac := m.triaArea e,
            a1 := (m.node b).xyz.x - (m.node a).xyz.x, b1 := (m.node b).xyz.y - (m.node a).xyz.y,
            c1 := (m.node c).xyz.x - (m.node a).xyz.x, d1 := (m.node c).xyz.y - (m.node a).xyz.y,
            E44 := stab al (charLen m fa e) (cShear m pn e).h * ((cShear m pn e).k23 * (cShear m pn e).E 0 0), E45 := 0,
            E55 := stab al (charLen m fa e) (cShear m pn e).h * ((cShear m pn e).k13 * (cShear m pn e).E 1 1) }, a, b, c, ?_, ?_, ?_, hc.perm, rfl, rfl, rfl⟩
  · unfold cellNSEnv
    simp only [hx, hs0, hm0, Bind.bind, Except.bind, hi.index ha, hi.index hb, hi.index hc']
  · unfold Fmt.cellNSEnv
    simp only [ho, s1, l1, Bind.bind, Except.bind, hi.index ha, hi.index hb, hi.index hc']
    rfl
  · exact { i1 := rfl, i2 := rfl, i3 := rfl, Ac := (h.area hf).dom kA,
            a1 := d1.x.dom kD, b1 := d1.y.dom kD, c1 := d2.x.dom kD, d1 := d2.y.dom kD,
            E44 := (hst.mul hf (s2.k23.mul hf s2.E0)).dom kM, E45 := Has.zero le_rfl le_rfl le_rfl,
            E55 := (hst.mul hf (s2.k13.mul hf s2.E1)).dom kM }

end Meshless
