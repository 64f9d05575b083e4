import Verif.Lemmas.MagEdge
import Verif.Lemmas.IeeeEnv

/-! Explicit bounds for areas, the orientation test, integration points and averaged properties of an edge. -/

set_option autoImplicit false

namespace Meshless
open Spec Mg

variable {f : Fmt} {s : Units} {σ G : ℚ}

theorem Mg.Has.weak {x y : Mg} {A : Flo} {a : ℝ} (h : x.Has s A a) (hk : x.ok = true) (hg : x.g = y.g) (h1 : x.m ≤ y.m) (h2 : x.e ≤ y.e) (h3 : y.lo ≤ x.lo) : y.Has s A a := by
  intro _
  obtain ⟨v, e, v1, v2, v3⟩ := h hk
  have hU := s.U_pos x.g
  have hE := u64_pos
  rw [← hg.symm] at *
  refine ⟨v, e, v1.trans ?_, v2.trans ?_, le_trans ?_ v3⟩ <;> gcongr

/-! ### centroids -/

theorem mid_has (hf : Spec.Double f) {m : Mesh} {t : ℕ} (h : ∀ i, IsCorner m t i → |(m.pos i).x| ≤ s.l * G ∧ |(m.pos i).y| ≤ s.l * G ∧ |(m.pos i).z| ≤ s.l * G) :
    HasV s (gM G) (gM G) (f.mid m t) (m.mid t) := by
  obtain ⟨a1, a2, a3⟩ := h _ (Or.inl rfl)
  obtain ⟨b1, b2, b3⟩ := h _ (Or.inr (Or.inl rfl))
  obtain ⟨c1, c2, c3⟩ := h _ (Or.inr (Or.inr rfl))
  have key : ∀ {x y z : ℝ}, |x| ≤ s.l * G → |y| ≤ s.l * G → |z| ≤ s.l * G →
      (gM G).Has s (f.div (f.add (f.add (.fin x) (.fin y)) (.fin z)) (.fin 3)) ((x + y + z) / 3) := by
    intro x y z hx hy hz
    have i : ∀ {x : ℝ}, |x| ≤ s.l * G → (gC G).Has s (.fin x) x := fun h => Has.inp (by rw [U_len]; exact h)
    have h3 : (Mg.cst 3).Has s (.fin 3) 3 := by simpa using Has.cst (s := s) (c := 3) (by norm_num)
    refine ((((i hx).add hf (i hy)).add hf (i hz)).div hf h3).ref ?_ (by simp)
    show _ ≤ s.U (⟨1, 0, 0, 0⟩ : Grd) * _
    rw [U_len, abs_div, abs_of_pos (by norm_num : (0:ℝ) < 3), div_le_iff₀ (by norm_num)]
    have e1 := abs_add_le (x + y) z
    have e2 := abs_add_le x y
    linarith
  exact ⟨key a1 b1 c1, key a2 b2 c2, key a3 b3 c3⟩

/-! ### areas -/

/-- a coordinate of a corner or a centroid -/
def gP (G : ℚ) : Mg := join (gC G) (gM G)
/-- a difference of two -/
def gDy (G : ℚ) : Mg := (gP G - gP G).ref (4 / 3) 0
/-- a term of `area_of_polygon` -/
def gT (G : ℚ) : Mg := gP G * gDy G
def gS3 (G : ℚ) : Mg := inp ⟨2, 0, 0, 0⟩ 0 + gT G + gT G + gT G
def gS4 (G : ℚ) : Mg := gS3 G + gT G
def gS5 (G : ℚ) : Mg := gS4 G + gT G
/-- the areas of the parts of a domain -/
def gA3 (G : ℚ) : Mg := (gS3 G / cst 2).ref (2 / 3) 0
/-- the area of a domain -/
def gAc (σ G : ℚ) : Mg := join ((gS4 G / cst 2).ref (2 / 3) (σ / 3)) ((gS5 G / cst 2).ref (2 / 3) (σ / 3))

theorem HasV.p1 {V : FVec} {p : Vec3} (h : HasV s (gC G) (gC G) V p) : HasV s (gP G) (gP G) V p := ⟨h.x.joinl, h.y.joinl, h.z.joinl⟩
theorem HasV.p2 {V : FVec} {p : Vec3} (h : HasV s (gM G) (gM G) V p) : HasV s (gP G) (gP G) V p := ⟨h.x.joinr, h.y.joinr, h.z.joinr⟩

theorem areaTerm_has (hf : Spec.Double f) {S : Mg} {A : Flo} {x : ℝ} (hS : S.Has s A x) {P N Q : FVec} {p n q : Vec3} (hp : HasV s (gP G) (gP G) P p)
    (hn : HasV s (gP G) (gP G) N n) (hq : HasV s (gP G) (gP G) Q q) (h : |n.y - q.y| ≤ s.l * (4 / 3)) :
    (S + gT G).Has s (f.areaTerm A P N Q) (x + p.x * (n.y - q.y)) := by
  refine hS.add hf (hp.x.mul hf ((hn.y.sub hf hq.y).ref ?_ (by simp)))
  show _ ≤ s.U (⟨1, 0, 0, 0⟩ : Grd) * _
  rw [U_len]; push_cast; exact h

theorem half_has (hf : Spec.Double f) {S : Mg} {A : Flo} {x : ℝ} (hS : S.Has s A x) : (S / cst 2).Has s (f.div A.abs (.fin 2)) (|x| / 2) := by
  have h2 : (Mg.cst 2).Has s (.fin 2) 2 := by simpa using Has.cst (s := s) (c := 2) (by norm_num)
  exact hS.abs.div hf h2

theorem Tri.dy {a b c : Vec3} (h : Tri s σ G a b c) : |a.y - b.y| ≤ s.l * (4 / 3) ∧ |a.y - c.y| ≤ s.l * (4 / 3) ∧ |b.y - c.y| ≤ s.l * (4 / 3) ∧
    |b.y - a.y| ≤ s.l * (4 / 3) ∧ |c.y - a.y| ≤ s.l * (4 / 3) ∧ |c.y - b.y| ≤ s.l * (4 / 3) := by
  have := s.l_pos
  have h1 := h.ab.2; have h2 := h.ac.2; have h3 := h.bc.2
  rw [abs_sub_comm b.y a.y, abs_sub_comm c.y a.y, abs_sub_comm c.y b.y]
  refine ⟨?_, ?_, ?_, ?_, ?_, ?_⟩ <;> linarith

theorem U_div_area (g : Grd) (hg : g = ⟨2, 0, 0, 0⟩) : s.U (g - (⟨0, 0, 0, 0⟩ : Grd)) = s.l ^ 2 := by
  subst hg; exact U_area

theorem area3_has (hf : Spec.Double f) {a b c : Vec3} {C : FVec} (h : Tri s σ G a b c) (hC : HasV s (gM G) (gM G) C c) :
    (gA3 G).Has s (f.area3 C b.flo a.flo) (polyArea [c, b, a]) := by
  have e : polyArea [c, b, a] = |0 + a.x * (c.y - b.y) + c.x * (b.y - a.y) + b.x * (a.y - c.y)| / 2 := by
    simp [polyArea, areaOfPolygon, areaLoop, pyGet, pyIdx, List.range_succ]
  have A := (HasV.corner (G := G) h.na).p1
  have B := (HasV.corner (G := G) h.nb).p1
  have D := hC.p2
  obtain ⟨d1, d2, d3, d4, d5, d6⟩ := h.dy
  have h0 : (Mg.inp ⟨2, 0, 0, 0⟩ 0).Has s (.fin 0) 0 := has0
  rw [e]
  refine (half_has hf (areaTerm_has hf (areaTerm_has hf (areaTerm_has hf h0 A D B d6) D B A d4) B A D d2)).ref ?_ (by simp)
  show _ ≤ s.U ((⟨2, 0, 0, 0⟩ : Grd) - ⟨0, 0, 0, 0⟩) * _
  rw [U_div_area _ rfl, abs_div, abs_abs, abs_of_pos (by norm_num : (0:ℝ) < 2),
    div_le_iff₀ (by norm_num), show 0 + a.x * (c.y - b.y) + c.x * (b.y - a.y) + b.x * (a.y - c.y) = (a.x - b.x) * (c.y - b.y) - (c.x - b.x) * (a.y - b.y) by ring]
  have hl := s.l_pos
  refine (abs_sub _ _).trans ?_
  rw [abs_mul, abs_mul]
  have k1 : |a.x - b.x| * |c.y - b.y| ≤ s.l * (s.l * (2 / 3)) := by
    rw [abs_sub_comm c.y]; exact mul_le_mul h.ab.1 h.bc.2 (abs_nonneg _) hl.le
  have k2 : |c.x - b.x| * |a.y - b.y| ≤ (s.l * (2 / 3)) * s.l := by
    rw [abs_sub_comm c.x]; exact mul_le_mul h.bc.1 h.ab.2 (abs_nonneg _) (by positivity)
  push_cast
  nlinarith

theorem area4_has (hf : Spec.Double f) {a b c : Vec3} {C : FVec} (h : Tri s σ G a b c) (hC : HasV s (gM G) (gM G) C c)
    (h1 : s.l ^ 2 * (σ / 3) ≤ polyArea [a, c, b, a]) (h2 : polyArea [a, c, b, a] ≤ s.l ^ 2 * (2 / 3)) :
    (gAc σ G).Has s (f.area4 a.flo C b.flo a.flo) (polyArea [a, c, b, a]) := by
  have e : polyArea [a, c, b, a] = |0 + a.x * (a.y - b.y) + a.x * (c.y - a.y) + c.x * (b.y - a.y) + b.x * (a.y - c.y)| / 2 := by
    simp [polyArea, areaOfPolygon, areaLoop, pyGet, pyIdx, List.range_succ]
  have A := (HasV.corner (G := G) h.na).p1
  have B := (HasV.corner (G := G) h.nb).p1
  have D := hC.p2
  obtain ⟨d1, d2, d3, d4, d5, d6⟩ := h.dy
  have h0 : (Mg.inp ⟨2, 0, 0, 0⟩ 0).Has s (.fin 0) 0 := has0
  have hp : 0 ≤ polyArea [a, c, b, a] := by rw [e]; positivity
  have := half_has hf (areaTerm_has hf (areaTerm_has hf (areaTerm_has hf (areaTerm_has hf h0 A A B d1) A D A d5) D B A d4) B A D d2)
  rw [← e] at this
  refine (this.ref ?_ ?_).joinl
  · show _ ≤ s.U ((⟨2, 0, 0, 0⟩ : Grd) - ⟨0, 0, 0, 0⟩) * _
    rw [U_div_area _ rfl, abs_of_nonneg hp]; push_cast; exact h2
  · show s.U ((⟨2, 0, 0, 0⟩ : Grd) - ⟨0, 0, 0, 0⟩) * _ ≤ _
    rw [U_div_area _ rfl, abs_of_nonneg hp]; push_cast; exact h1

theorem area5_has (hf : Spec.Double f) {a b c d : Vec3} {C D : FVec} (h : Tri s σ G a b c) (hC : HasV s (gM G) (gM G) C c) (h' : Tri s σ G a b d) (hD : HasV s (gM G) (gM G) D d)
    (h1 : s.l ^ 2 * (σ / 3) ≤ polyArea [a, c, b, d, a]) (h2 : polyArea [a, c, b, d, a] ≤ s.l ^ 2 * (2 / 3)) :
    (gAc σ G).Has s (f.area5 a.flo C b.flo D a.flo) (polyArea [a, c, b, d, a]) := by
  have e : polyArea [a, c, b, d, a] = |0 + a.x * (a.y - d.y) + a.x * (c.y - a.y) + c.x * (b.y - a.y) + b.x * (d.y - c.y) + d.x * (a.y - b.y)| / 2 := by
    simp [polyArea, areaOfPolygon, areaLoop, pyGet, pyIdx, List.range_succ]
  have A := (HasV.corner (G := G) h.na).p1
  have B := (HasV.corner (G := G) h.nb).p1
  have C' := hC.p2
  have D' := hD.p2
  obtain ⟨d1, d2, d3, d4, d5, d6⟩ := h.dy
  obtain ⟨e1, e2, e3, e4, e5, e6⟩ := h'.dy
  have h0 : (Mg.inp ⟨2, 0, 0, 0⟩ 0).Has s (.fin 0) 0 := has0
  have hp : 0 ≤ polyArea [a, c, b, d, a] := by rw [e]; positivity
  have dc : |d.y - c.y| ≤ s.l * (4 / 3) := by
    have := abs_sub_le d.y a.y c.y
    have k1 := h.ac.2; have k2 := h'.ac.2
    rw [abs_sub_comm] at k2
    linarith
  have := half_has hf (areaTerm_has hf (areaTerm_has hf (areaTerm_has hf (areaTerm_has hf (areaTerm_has hf h0 A A D' e2) A C' A d5) C' B A d4) B D' C' dc) D' A B d1)
  rw [← e] at this
  refine (this.ref ?_ ?_).joinr
  · show _ ≤ s.U ((⟨2, 0, 0, 0⟩ : Grd) - ⟨0, 0, 0, 0⟩) * _
    rw [U_div_area _ rfl, abs_of_nonneg hp]; push_cast; exact h2
  · show s.U ((⟨2, 0, 0, 0⟩ : Grd) - ⟨0, 0, 0, 0⟩) * _ ≤ _
    rw [U_div_area _ rfl, abs_of_nonneg hp]; push_cast; exact h1

/-! ### the orientation test -/

def gOx (G : ℚ) : Mg := gD G * gEz G - gDz G * gE G
def gOz (G : ℚ) : Mg := gD G * gE G - gD G * gE G
def gOr (G : ℚ) : Mg := (gOx G * inp ⟨0, 0, 0, 0⟩ 0 + gOx G * inp ⟨0, 0, 0, 0⟩ 0) + gOz G * cst 1

/-- the rounding errors do not reach the sign -/
def okOr (σ G : ℚ) : Bool := (gOr G).ok && decide ((gOr G).e ≤ 2 ^ 52 * (2 / 3 * σ))

theorem orient_has (hf : Spec.Double f) (hσ : 0 < σ) {m : Mesh} {t a b : ℕ} (h : Tri s σ G (m.node a).xyz (m.node b).xyz (m.mid t)) (hC : HasV s (gM G) (gM G) (f.mid m t) (m.mid t))
    (hk : okOr σ G = true) : f.orient m (f.mid m t) a b = orient m (m.mid t) a b := by
  simp only [okOr, Bool.and_eq_true, decide_eq_true_eq] at hk
  have u := h.from_mid hf hC
  have v := h.swap.side hf
  have gg : (gD G * gEz G).g = (gDz G * gE G).g := rfl
  have cx := (u.y.mul hf v.z).sub hf (u.z.mul hf v.y)
  have cy := Has.sub' (x := gDz G * gE G) (y := gD G * gEz G) hf rfl (u.z.mul hf v.x) (u.x.mul hf v.z)
  have cz := (u.x.mul hf v.y).sub hf (u.y.mul hf v.x)
  have := ((cx.mul hf (has0 (g := ⟨0, 0, 0, 0⟩))).add hf (cy.mul hf (has0 (g := ⟨0, 0, 0, 0⟩)))).add hf (cz.mul hf has1)
  obtain ⟨w, e, _, h2, _⟩ := (show (gOr G).Has s _ _ from this) hk.1
  have key : ((f.vdot (f.vcross (f.vsub (f.mid m t) (Fmt.xyz m b)) (f.vsub (Fmt.xyz m a) (Fmt.xyz m b))) zGlobal.flo).lt (.fin 0) ↔
      Vec3.dot (Vec3.cross ((m.mid t).sub (m.node b).xyz) ((m.node a).xyz.sub (m.node b).xyz)) zGlobal < 0) := by
    have e' : f.vdot (f.vcross (f.vsub (f.mid m t) (Fmt.xyz m b)) (f.vsub (Fmt.xyz m a) (Fmt.xyz m b))) zGlobal.flo = .fin w := e
    rw [e']
    show w < 0 ↔ _
    set y := Vec3.dot (Vec3.cross ((m.mid t).sub (m.node b).xyz) ((m.node a).xyz.sub (m.node b).xyz)) zGlobal with hy
    have h3 : s.l ^ 2 * (2 / 3 * σ) ≤ |y| := by
      refine h.area.trans_eq ?_
      rw [hy]; congr 1
      simp only [Vec3.dot, Vec3.cross, Vec3.sub, zGlobal]
      ring
    have h4 : |w - y| < |y| := by
      have e1 : |w - y| ≤ u64 * (s.U (gOr G).g * (gOr G).e) := h2
      rw [show (gOr G).g = (⟨2, 0, 0, 0⟩ : Grd) from rfl, U_area] at e1
      have hl := s.l_pos
      have hE := u64_pos
      have hσ' : 0 < (σ:ℝ) := by exact_mod_cast hσ
      have e2 : ((gOr G).e : ℝ) ≤ 2 ^ 52 * (2 / 3 * σ) := by
        have := (Rat.cast_le (K := ℝ)).2 hk.2
        push_cast at this; exact this
      have e3 : u64 * (s.l ^ 2 * (gOr G).e) ≤ s.l ^ 2 * (2 / 3 * σ) / 2 := by
        calc u64 * (s.l ^ 2 * ((gOr G).e:ℝ)) ≤ u64 * (s.l ^ 2 * (2 ^ 52 * (2 / 3 * σ))) := by gcongr
          _ = _ := by rw [u64_eq]; ring
      have : 0 < s.l ^ 2 * (2 / 3 * (σ:ℝ)) := by positivity
      linarith
    obtain ⟨k1, k2⟩ := abs_lt.1 h4
    constructor
    · intro hw
      by_contra hn
      rw [abs_of_nonneg (not_lt.1 hn)] at k1
      linarith
    · intro hn
      rw [abs_of_neg hn] at k2
      linarith
  unfold Fmt.orient orient
  simp only [key]

/-! ### integration points -/

/-- weights of the shape functions -/
def gF : Mg := ⟨⟨0, 0, 0, 0⟩, 2 / 3, 1, 0, true⟩

theorem lit_has (hf : Spec.Double f) {c : ℚ} (h0 : 0 ≤ c) (h : c ≤ 2 / 3) : gF.Has s (f.rnd c) c := by
  have e : |c| ≤ 2 / 3 := by rwa [abs_of_nonneg h0]
  refine (Has.lit hf c).weak ?_ rfl e ?_ ?_
  · simp only [Mg.lit, rd, Bool.and_eq_true, decide_eq_true_eq]
    refine ⟨⟨⟨trivial, by decide⟩, e.trans (by norm_num)⟩, ?_⟩
    rw [zero_mul, zero_add]
    exact (add_le_add e le_rfl).trans (by norm_num)
  · simp only [Mg.lit, rd, gF]
    rw [zero_mul, zero_add]
    exact (add_le_add e le_rfl).trans (by norm_num)
  · simp [Mg.lit, rd, gF]

theorem gF0 : gF.Has s (.fin 0) 0 := Has.zero (by norm_num [gF]) (by norm_num [gF]) (by norm_num [gF])

theorem w23 (hf : Spec.Double f) : gF.Has s (f.rnd (2 / 3)) (2 / 3) := by simpa using lit_has hf (s := s) (c := 2 / 3) (by norm_num) (by norm_num)
theorem w16 (hf : Spec.Double f) : gF.Has s (f.rnd (1 / 6)) (1 / 6) := by simpa using lit_has hf (s := s) (c := 1 / 6) (by norm_num) (by norm_num)
theorem w12 (hf : Spec.Double f) : gF.Has s (f.rnd (1 / 2)) (1 / 2) := by simpa using lit_has hf (s := s) (c := 1 / 2) (by norm_num) (by norm_num)

/-- a computed integration point: the same triangle and nodes, bounds on the numbers -/
structure HasPt (s : Units) (σ G : ℚ) (P : FPt) (p : IPt) : Prop where
  n1 : P.n1 = p.n1
  n2 : P.n2 = p.n2
  n3 : P.n3 = p.n3
  tria : P.tria = p.tria
  f1 : gF.Has s P.f1 p.f1
  f2 : gF.Has s P.f2 p.f2
  f3 : gF.Has s P.f3 p.f3
  nx : (gNN σ G).Has s P.nx p.nx
  ny : (gNN σ G).Has s P.ny p.ny
  le : (gL σ G).Has s P.le p.le

theorem mkIPt_has (m : Mesh) (t a b c : ℕ) {F1 F2 F3 : Flo} {f1 f2 f3 : ℝ} (h1 : gF.Has s F1 f1) (h2 : gF.Has s F2 f2) (h3 : gF.Has s F3 f3)
    {N : FVec} {n : Vec3} {L : Flo} {l : ℝ} (h : (gL σ G).Has s L l ∧ (gNN σ G).Has s N.x n.x ∧ (gNN σ G).Has s N.y n.y) :
    HasPt s σ G (f.mkIPt m t a b c F1 F2 F3 N L) (mkIPt m t a b c f1 f2 f3 n l) :=
  ⟨rfl, rfl, rfl, rfl, h1, h2, h3, h.2.1, h.2.2, h.1⟩

section
variable {a b c : Vec3} {C : FVec}

theorem Tri.segA (hf : Spec.Double f) (hσ : 0 < σ) (h : Tri s σ G a b c) (hC : HasV s (gM G) (gM G) C c) : (gL σ G).Has s (f.vnorm (f.vsub a.flo C)) (a.sub c).norm ∧
    (gNN σ G).Has s (f.segNormal (f.vsub a.flo C)).x (segNormal (a.sub c)).x ∧ (gNN σ G).Has s (f.segNormal (f.vsub a.flo C)).y (segNormal (a.sub c)).y := by
  refine seg_mid hf hσ (h.to_mid hf hC) (by simp [Vec3.sub, h.z.1]) h.ac.1 h.ac.2 ((h.swap.mid_long hσ).trans_eq ?_)
  simp only [Vec3.sub]; ring

theorem Tri.segB (hf : Spec.Double f) (hσ : 0 < σ) (h : Tri s σ G a b c) (hC : HasV s (gM G) (gM G) C c) : (gL σ G).Has s (f.vnorm (f.vsub C b.flo)) (c.sub b).norm ∧
    (gNN σ G).Has s (f.segNormal (f.vsub C b.flo)).x (segNormal (c.sub b)).x ∧ (gNN σ G).Has s (f.segNormal (f.vsub C b.flo)).y (segNormal (c.sub b)).y := by
  refine seg_mid hf hσ (h.from_mid hf hC) (by simp [Vec3.sub, h.z.2]) ?_ ?_ (h.mid_long hσ)
  · simp only [Vec3.sub]; rw [abs_sub_comm]; exact h.bc.1
  · simp only [Vec3.sub]; rw [abs_sub_comm]; exact h.bc.2

theorem Tri.segC (hf : Spec.Double f) (hσ : 0 < σ) (h : Tri s σ G a b c) : (gL σ G).Has s (f.vnorm (f.vsub b.flo a.flo)) (b.sub a).norm ∧
    (gNN σ G).Has s (f.segNormal (f.vsub b.flo a.flo)).x (segNormal (b.sub a)).x ∧ (gNN σ G).Has s (f.segNormal (f.vsub b.flo a.flo)).y (segNormal (b.sub a)).y := by
  refine seg_side hf hσ (h.side hf) (by simp [Vec3.sub, h.z.1, h.z.2]) ?_ ?_ (h.side_long hσ)
  · simp only [Vec3.sub]; rw [abs_sub_comm]; exact h.ab.1
  · simp only [Vec3.sub]; rw [abs_sub_comm]; exact h.ab.2

end

/-- a triangle of the mesh at two of its corners -/
structure TriAt (f : Fmt) (s : Units) (σ G : ℚ) (m : Mesh) (t a b : ℕ) : Prop where
  tri : Tri s σ G (m.node a).xyz (m.node b).xyz (m.mid t)
  mid : HasV s (gM G) (gM G) (f.mid m t) (m.mid t)

theorem TriAt.swap {m : Mesh} {t a b : ℕ} (h : TriAt f s σ G m t a b) : TriAt f s σ G m t b a := ⟨h.tri.swap, h.mid⟩

theorem iptsA_has (hf : Spec.Double f) (hσ : 0 < σ) {m : Mesh} {t a b : ℕ} (o : ℕ) (h : TriAt f s σ G m t a b) :
    List.Forall₂ (HasPt s σ G) (f.iptsA m t a b o) (iptsA m t a b o) :=
  .cons (mkIPt_has m t a b o (w23 hf) (w16 hf) (w16 hf) (h.tri.segA hf hσ h.mid)) (.cons (mkIPt_has m t a b o (w16 hf) (w23 hf) (w16 hf) (h.tri.segB hf hσ h.mid)) .nil)

theorem iptsB_has (hf : Spec.Double f) (hσ : 0 < σ) {m : Mesh} {t a b : ℕ} (o : ℕ) (h : TriAt f s σ G m t a b) :
    List.Forall₂ (HasPt s σ G) (f.iptsB m t a b o) (iptsB m t a b o) :=
  .cons (mkIPt_has m t a b o (w12 hf) (w12 hf) gF0 (h.tri.segC hf hσ)) .nil

theorem iptsI_has (hf : Spec.Double f) (hσ : 0 < σ) {m : Mesh} {t a b : ℕ} (o : ℕ) (h : TriAt f s σ G m t a b) :
    List.Forall₂ (HasPt s σ G) (f.iptsI m t a b o) (iptsI m t a b o) :=
  .cons (mkIPt_has m t a b o (w16 hf) (w23 hf) (w16 hf) (h.swap.tri.segA hf hσ h.mid)) (.cons (mkIPt_has m t a b o (w23 hf) (w16 hf) (w16 hf) (h.swap.tri.segB hf hσ h.mid)) .nil)

/-! ### edges -/

/-- the computed numbers of an edge -/
structure HasGeo (s : Units) (σ G : ℚ) (g : Geo) (e : Edge) : Prop where
  Ac : ∃ l, e.Ac = some l ∧ (gAc σ G).Has s g.Ac l
  ipts : List.Forall₂ (HasPt s σ G) g.ipts e.ipts

theorem bGeo_has (hf : Spec.Double f) (hσ : 0 < σ) {m : Mesh} {k : Key} {t o : ℕ} {ab : ℕ × ℕ} (h : TriAt f s σ G m t ab.1 ab.2) {e : Edge}
    (he : e = ⟨k.1, k.2, [t], [(m.node ab.1).xyz, m.mid t, (m.node ab.2).xyz, (m.node ab.1).xyz], iptsA m t ab.1 ab.2 o ++ iptsB m t ab.1 ab.2 o,
      some (polyArea [(m.node ab.1).xyz, m.mid t, (m.node ab.2).xyz, (m.node ab.1).xyz]), some o, none⟩)
    {A : ℝ} (hA : e.Ac = some A) (h1 : s.l ^ 2 * (σ / 3) ≤ A) (h2 : A ≤ s.l ^ 2 * (2 / 3)) : HasGeo s σ G (f.bGeo m t o ab) e := by
  subst he
  obtain rfl := Option.some.inj hA
  exact ⟨⟨_, rfl, area4_has hf h.tri h.mid h1 h2⟩, forall₂_append (iptsA_has hf hσ o h) (iptsB_has hf hσ o h)⟩

theorem iGeo_has (hf : Spec.Double f) (hσ : 0 < σ) {m : Mesh} {k : Key} {t1 t2 o1 o2 : ℕ} {ab : ℕ × ℕ} (h : TriAt f s σ G m t1 ab.1 ab.2) (h' : TriAt f s σ G m t2 ab.1 ab.2) {e : Edge}
    (he : e = ⟨k.1, k.2, [t1, t2], [(m.node ab.1).xyz, m.mid t1, (m.node ab.2).xyz, m.mid t2, (m.node ab.1).xyz],
      iptsA m t1 ab.1 ab.2 o1 ++ iptsI m t2 ab.1 ab.2 o2,
      some (polyArea [(m.node ab.1).xyz, m.mid t1, (m.node ab.2).xyz, m.mid t2, (m.node ab.1).xyz]), some o1, some o2⟩)
    {A : ℝ} (hA : e.Ac = some A) (h1 : s.l ^ 2 * (σ / 3) ≤ A) (h2 : A ≤ s.l ^ 2 * (2 / 3)) : HasGeo s σ G (f.iGeo m t1 t2 o1 o2 ab) e := by
  subst he
  obtain rfl := Option.some.inj hA
  exact ⟨⟨_, rfl, area5_has hf h.tri h.mid h'.tri h'.mid h1 h2⟩, forall₂_append (iptsA_has hf hσ o1 h) (iptsI_has hf hσ o2 h')⟩

/-! ### averaged properties -/

/-- an averaged laminate matrix of grade `g` -/
def gPr (σ G : ℚ) (g : Grd) : Mg :=
  (join (inp g 1) (join (join ((gF * inp g 1 + gF * inp g 1) + gF * inp g 1) (((gF * inp g 1 + gF * inp g 1) + gF * inp g 1) + gF * inp g 1))
    (quo 1 (gA3 G * inp g 1 + gA3 G * inp g 1) (gAc σ G)))).ref 1 0

theorem p_has {g : Grd} {x : ℝ} (h : |x| ≤ s.U g) : (Mg.inp g 1).Has s (.fin x) x := Has.inp (by simpa using h)

theorem edgeProp_mag (hf : Spec.Double f) {m : Mesh} {pn : Bool} {gg : Geo} {e : Edge} (h : HasGeo s σ G gg e) (ht : ∀ t ∈ e.trias, TriAt f s σ G m t e.n1 e.n2)
    (hne : e.trias ≠ []) (sel : Lam → Fin 3 → Fin 3 → ℝ) {g : Grd}
    (hn : ∀ i, (i = e.n1 ∨ i = e.n2 ∨ e.other1 = some i ∨ e.other2 = some i) → ∀ p, (m.node i).prop = some p → pn = true → ∀ a b, |sel p a b| ≤ s.U g)
    (hs : ∀ t ∈ e.trias, ∀ p, (m.tria t).prop = some p → pn = false → ∀ a b, |sel p a b| ≤ s.U g)
    {A : Fin 3 → Fin 3 → ℝ} (hA : edgeProp m pn e sel = .ok A) (hb : ∀ a b, |A a b| ≤ s.U g) :
    ∃ B : Fin 3 → Fin 3 → Flo, f.edgeProp m pn e gg.Ac sel = .ok B ∧ ∀ a b, (gPr σ G g).Has s (B a b) (A a b) := by
  obtain ⟨l, hl, hacc⟩ := h.Ac
  have fin : ∀ {x : Mg} {B : Flo} {a b}, (Mg.join (Mg.inp g 1) x).Has s B (A a b) → (Mg.ref (Mg.join (Mg.inp g 1) x) 1 0).Has s B (A a b) :=
    fun {x B a b} hx => hx.ref (by show _ ≤ s.U g * _; simpa using hb a b) (by simp)
  unfold Fmt.edgeProp
  unfold edgeProp at hA
  rw [hl] at hA
  have w49 : gF.Has s (f.rnd (4 / 9)) (4 / 9) := by simpa using lit_has hf (s := s) (c := 4 / 9) (by norm_num) (by norm_num)
  have w19 : gF.Has s (f.rnd (1 / 9)) (1 / 9) := by simpa using lit_has hf (s := s) (c := 1 / 9) (by norm_num) (by norm_num)
  have w512 : gF.Has s (f.rnd (5 / 12)) (5 / 12) := by simpa using lit_has hf (s := s) (c := 5 / 12) (by norm_num) (by norm_num)
  have w112 : gF.Has s (f.rnd (1 / 12)) (1 / 12) := by simpa using lit_has hf (s := s) (c := 1 / 12) (by norm_num) (by norm_num)
  revert hA
  cases pn
  · simp only [Bool.false_eq_true, if_false]
    have h0 : e.trias.getD 0 0 ∈ e.trias := by
      rcases hh : e.trias with _ | ⟨x, y⟩
      · exact absurd hh hne
      · simp
    rcases q1 : (m.tria (e.trias.getD 0 0)).prop with _ | p
    · intro hA; simp at hA
    dsimp only
    rcases q2 : e.trias[1]? with _ | t2
    · intro hA; obtain rfl := Except.ok.inj hA
      exact ⟨fun i j => .fin (sel p i j), rfl, fun a b => fin (p_has (hs _ h0 p q1 rfl a b)).joinl⟩
    have h2 : t2 ∈ e.trias := List.mem_of_getElem? q2
    dsimp only
    rcases q3 : (m.tria t2).prop with _ | q
    · intro hA; simp at hA
    intro hA; obtain rfl := Except.ok.inj hA
    refine ⟨_, rfl, fun a b => fin (Has.joinr (Has.joinr ?_))⟩
    have a1 := area3_has hf (ht _ h0).tri (ht _ h0).mid
    have a2 := area3_has hf (ht _ h2).swap.tri (ht _ h2).mid
    refine ((a1.mul hf (p_has (hs _ h0 p q1 rfl a b))).add hf (a2.mul hf (p_has (hs _ h2 q q3 rfl a b)))).quo hf hacc fun _ _ _ => ?_
    rw [s.U_sub]
    have e1 : s.U (gA3 G * Mg.inp g 1 + gA3 G * Mg.inp g 1).g = s.U (⟨2, 0, 0, 0⟩ : Grd) * s.U g := by
      show s.U ((⟨2, 0, 0, 0⟩ : Grd) + g) = _
      exact s.U_add _ _
    have e2 : s.U (gAc σ G).g = s.U (⟨2, 0, 0, 0⟩ : Grd) := rfl
    rw [e1, e2, mul_div_cancel_left₀ _ (s.U_pos _).ne']
    push_cast
    rw [mul_one]
    exact hb a b
  · simp only [if_true]
    rcases q0 : e.other1 with _ | o1
    · intro hA; simp at hA
    dsimp only
    rcases q1 : (m.node e.n1).prop with _ | p
    · intro hA; simp at hA
    rcases q2 : (m.node e.n2).prop with _ | q
    · intro hA; simp at hA
    rcases q3 : (m.node o1).prop with _ | r
    · intro hA; simp at hA
    dsimp only
    have b1 := fun a b => p_has (hn _ (Or.inl rfl) p q1 rfl a b)
    have b2 := fun a b => p_has (hn _ (Or.inr (Or.inl rfl)) q q2 rfl a b)
    have b3 := fun a b => p_has (hn _ (Or.inr (Or.inr (Or.inl q0))) r q3 rfl a b)
    rcases e.trias[1]? with _ | t2
    · intro hA; obtain rfl := Except.ok.inj hA
      exact ⟨_, rfl, fun a b => fin (Has.joinr (Has.joinl (Has.joinl (((w49.mul hf (b1 a b)).add hf (w49.mul hf (b2 a b))).add hf (w19.mul hf (b3 a b))))))⟩
    dsimp only
    rcases q4 : e.other2 with _ | o2
    · intro hA; simp at hA
    dsimp only
    rcases q5 : (m.node o2).prop with _ | u
    · intro hA; simp at hA
    have b4 := fun a b => p_has (hn _ (Or.inr (Or.inr (Or.inr q4))) u q5 rfl a b)
    intro hA; obtain rfl := Except.ok.inj hA
    exact ⟨_, rfl, fun a b => fin (Has.joinr (Has.joinl (Has.joinr ((((w512.mul hf (b1 a b)).add hf (w512.mul hf (b2 a b))).add hf (w112.mul hf (b3 a b))).add hf
      (w112.mul hf (b4 a b))))))⟩

/-! ### weights -/

theorem weight_has {P : FPt} {p : IPt} (h : HasPt s σ G P p) (idx : ℕ → ℤ) (ix : List ℤ) (j : ℕ) :
    gF.Has s (Fmt.wAt (Fmt.weightRow idx ix P) j) (wAt (weightRow idx ix p) j) := by
  unfold Fmt.wAt Fmt.weightRow wAt weightRow
  simp only [h.n1, h.n2, h.n3, List.getD_eq_getElem?_getD, List.getElem?_set, List.length_set, List.length_replicate]
  by_cases h3 : indexPos ix (idx p.n3) = j
  · simp only [h3, if_true]
    split
    · exact h.f3
    · exact gF0
  · simp only [h3, if_false]
    by_cases h2 : indexPos ix (idx p.n2) = j
    · simp only [h2, if_true]
      split
      · exact h.f2
      · exact gF0
    · simp only [h2, if_false]
      by_cases h1 : indexPos ix (idx p.n1) = j
      · simp only [h1, if_true]
        split
        · exact h.f1
        · exact gF0
      · simp only [h1, if_false, List.getElem?_replicate]
        split <;> exact gF0

theorem hasPt_like {P : List FPt} {p : List IPt} (h : List.Forall₂ (HasPt s σ G) P p) : List.Forall₂ LikePt p (P.map FPt.ids) := by
  induction h with
  | nil => exact .nil
  | cons h _ ih => exact .cons ⟨h.tria, h.n3, Or.inl ⟨h.n1, h.n2⟩⟩ ih

end Meshless
