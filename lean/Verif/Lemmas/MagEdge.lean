import Verif.Lemmas.MagGeom
import Verif.Lemmas.FloatEnv

/-! Explicit bounds for the numbers `calc_k0` computes for an edge. -/

set_option autoImplicit false

namespace Meshless
open Spec Mg

variable {f : Fmt} {s : Units}

/-- two corners `a`, `b` and the centroid `c` of a triangle of one height: coordinates up to `G`, sides up to 1, area at least `σ`, in units of length -/
structure Tri (s : Units) (σ G : ℚ) (a b c : Vec3) : Prop where
  na : |a.x| ≤ s.l * G ∧ |a.y| ≤ s.l * G ∧ |a.z| ≤ s.l * G
  nb : |b.x| ≤ s.l * G ∧ |b.y| ≤ s.l * G ∧ |b.z| ≤ s.l * G
  nc : |c.x| ≤ s.l * G ∧ |c.y| ≤ s.l * G ∧ |c.z| ≤ s.l * G
  ab : |a.x - b.x| ≤ s.l ∧ |a.y - b.y| ≤ s.l
  ac : |a.x - c.x| ≤ s.l * (2 / 3) ∧ |a.y - c.y| ≤ s.l * (2 / 3)
  bc : |b.x - c.x| ≤ s.l * (2 / 3) ∧ |b.y - c.y| ≤ s.l * (2 / 3)
  z : a.z = c.z ∧ b.z = c.z
  area : s.l ^ 2 * (2 / 3 * σ) ≤ |(c.x - b.x) * (a.y - b.y) - (c.y - b.y) * (a.x - b.x)|

theorem Tri.swap {σ G : ℚ} {a b c : Vec3} (h : Tri s σ G a b c) : Tri s σ G b a c := by
  refine ⟨h.nb, h.na, h.nc, ?_, h.bc, h.ac, ⟨h.z.2, h.z.1⟩, ?_⟩
  · rw [abs_sub_comm b.x, abs_sub_comm b.y]; exact h.ab
  · refine h.area.trans_eq ?_
    rw [← abs_neg]; congr 1; ring

theorem abs_sq_le {x y : ℝ} (h : |x| ≤ y) : x * x ≤ y * y := by
  rw [← abs_mul_abs_self x]; exact mul_le_mul h h (abs_nonneg _) ((abs_nonneg _).trans h)

/-- two vectors, one of them short, with a large cross product: the other is long -/
theorem cross_long {p q r t A D : ℝ} (hA : 0 ≤ A) (h : A ≤ |p * t - q * r|) (h2 : r * r + t * t ≤ D) : A * A ≤ D * (p * p + q * q) := by
  have h1 : A * A ≤ (p * t - q * r) * (p * t - q * r) := by
    rw [← abs_mul_abs_self (p * t - q * r)]; exact mul_le_mul h h hA (abs_nonneg _)
  have h3 : (p * t - q * r) * (p * t - q * r) ≤ (r * r + t * t) * (p * p + q * q) := by nlinarith [mul_self_nonneg (p * r + q * t)]
  have h4 : (r * r + t * t) * (p * p + q * q) ≤ D * (p * p + q * q) :=
    mul_le_mul_of_nonneg_right h2 (by nlinarith [mul_self_nonneg p, mul_self_nonneg q])
  linarith

theorem Tri.mid_long {σ G : ℚ} (hσ : 0 < σ) {a b c : Vec3} (h : Tri s σ G a b c) : (s.l * (47 / 100 * σ)) ^ 2 ≤ (c.x - b.x) * (c.x - b.x) + (c.y - b.y) * (c.y - b.y) := by
  have hl := s.l_pos
  have hσ' : 0 < (σ:ℝ) := by exact_mod_cast hσ
  have := cross_long (by positivity) h.area (D := 2 * s.l ^ 2) (by have e1 := abs_sq_le h.ab.1; have e2 := abs_sq_le h.ab.2; nlinarith)
  have h2 : (s.l ^ 2 * (2 / 3 * (σ:ℝ))) * (s.l ^ 2 * (2 / 3 * σ)) = 2 * s.l ^ 2 * (s.l ^ 2 * (2 / 9 * σ ^ 2)) := by ring
  rw [h2] at this
  have h3 := le_of_mul_le_mul_left this (by positivity)
  refine le_trans ?_ h3
  rw [show (s.l * (47 / 100 * (σ:ℝ))) ^ 2 = s.l ^ 2 * (2209 / 10000 * σ ^ 2) by ring]
  exact mul_le_mul_of_nonneg_left (mul_le_mul_of_nonneg_right (by norm_num) (by positivity)) (by positivity)

theorem Tri.side_long {σ G : ℚ} (hσ : 0 < σ) {a b c : Vec3} (h : Tri s σ G a b c) : (s.l * (7 / 10 * σ)) ^ 2 ≤ (b.x - a.x) * (b.x - a.x) + (b.y - a.y) * (b.y - a.y) := by
  have hl := s.l_pos
  have hσ' : 0 < (σ:ℝ) := by exact_mod_cast hσ
  have := cross_long (p := a.x - b.x) (q := a.y - b.y) (r := c.x - b.x) (t := c.y - b.y) (A := s.l ^ 2 * (2 / 3 * σ)) (by positivity)
    (h.area.trans_eq (by rw [← abs_neg]; congr 1; ring)) (D := 8 / 9 * s.l ^ 2) (by
      have e1 := abs_sq_le h.bc.1; have e2 := abs_sq_le h.bc.2; nlinarith)
  have h2 : (s.l ^ 2 * (2 / 3 * (σ:ℝ))) * (s.l ^ 2 * (2 / 3 * σ)) = 8 / 9 * s.l ^ 2 * (s.l ^ 2 * (1 / 2 * σ ^ 2)) := by ring
  rw [h2] at this
  have h3 := le_of_mul_le_mul_left this (by positivity)
  calc (s.l * (7 / 10 * (σ:ℝ))) ^ 2 = s.l ^ 2 * (49 / 100 * σ ^ 2) := by ring
    _ ≤ s.l ^ 2 * (1 / 2 * σ ^ 2) := mul_le_mul_of_nonneg_left (mul_le_mul_of_nonneg_right (by norm_num) (by positivity)) (by positivity)
    _ ≤ _ := h3.trans_eq (by ring)

/-! ### the bounds -/

/-- a coordinate -/
def gC (G : ℚ) : Mg := inp ⟨1, 0, 0, 0⟩ G
/-- a coordinate of a centroid -/
def gM (G : ℚ) : Mg := ((gC G + gC G + gC G) / cst 3).ref G 0
/-- corner minus centroid -/
def gD (G : ℚ) : Mg := (gC G - gM G).ref (2 / 3) 0
def gDz (G : ℚ) : Mg := (gC G - gM G).ref 0 0
/-- corner minus corner -/
def gE (G : ℚ) : Mg := (gC G - gC G).ref 1 0
def gEz (G : ℚ) : Mg := (gC G - gC G).ref 0 0
/-- a component of the cross product with the normal of the plate -/
def gCr (d z : Mg) : Mg := (d * cst 1 - z * inp ⟨0, 0, 0, 0⟩ 0).ref d.m 0
def gCz (d : Mg) : Mg := (d * inp ⟨0, 0, 0, 0⟩ 0 - d * inp ⟨0, 0, 0, 0⟩ 0).ref 0 0
/-- a component of a normal -/
def gN (up l : ℚ) (d z : Mg) : Mg := quo 1 (gCr d z) (nrm up l (gCr d z) (gCz d))

/-- bounds of a computed vector -/
structure HasV (s : Units) (d z : Mg) (V : FVec) (p : Vec3) : Prop where
  x : d.Has s V.x p.x
  y : d.Has s V.y p.y
  z : z.Has s V.z p.z

theorem has0 {g : Grd} : (inp g 0).Has s (.fin 0) 0 := Has.inp (by simp)
theorem has1 : (cst 1).Has s (.fin 1) 1 := by simpa using Has.cst (s := s) (c := 1) (by norm_num)

theorem gr_add_zero (g : Grd) : g + ⟨0, 0, 0, 0⟩ = g := by
  show Grd.mk (g.a + 0) (g.b + 0) (g.c + 0) (g.d + 0) = g
  simp

theorem gr_zero : s.U (⟨0, 0, 0, 0⟩ : Grd) = 1 := U_zero

theorem cross_norm {p : Vec3} (hz : p.z = 0) : (p.cross zGlobal).norm = p.norm := by
  rw [AccV.norm_sq, AccV.norm_sq]
  congr 1
  simp only [Vec3.cross, zGlobal, hz]
  ring

/-- length and normal of a segment -/
theorem seg_has (hf : Spec.Double f) {d z : Mg} (hg : d.g = z.g) {V : FVec} {p : Vec3} (h : HasV s d z V p) (hz : p.z = 0) {up l : ℚ} (hl0 : 0 < l)
    (hm : |p.x| ≤ s.U d.g * d.m ∧ |p.y| ≤ s.U d.g * d.m) (h1 : p.norm ≤ s.U d.g * up) (h2 : s.U d.g * l ≤ p.norm) :
    (nrm up l d z).Has s (f.vnorm V) p.norm ∧ (gN up l d z).Has s (f.segNormal V).x (segNormal p).x ∧ (gN up l d z).Has s (f.segNormal V).y (segNormal p).y := by
  have hU := s.U_pos d.g
  have hl0' : 0 < (l:ℝ) := by exact_mod_cast hl0
  have hN : 0 < p.norm := (by positivity : 0 < s.U d.g * (l:ℝ)).trans_le h2
  have g1 : (d * cst 1).g = (z * inp ⟨0, 0, 0, 0⟩ 0).g := by
    show d.g + ⟨0, 0, 0, 0⟩ = z.g + ⟨0, 0, 0, 0⟩
    rw [hg]
  have gx : (gCr d z).g = d.g := gr_add_zero _
  have gz : (gCz d).g = d.g := gr_add_zero _
  have cx : (gCr d z).Has s (f.vcross V zGlobal.flo).x (p.cross zGlobal).x := by
    have := (h.y.mul hf has1).sub hf (h.z.mul hf (has0 (g := ⟨0, 0, 0, 0⟩)))
    refine this.ref ?_ ?_
    · show |p.y * 1 - p.z * 0| ≤ s.U (gCr d z).g * _
      rw [gx, mul_zero, sub_zero, mul_one]; exact hm.2
    · simp
  have cy : (gCr d z).Has s (f.vcross V zGlobal.flo).y (p.cross zGlobal).y := by
    have := (h.z.mul hf (has0 (g := ⟨0, 0, 0, 0⟩))).sub' hf g1.symm (h.x.mul hf has1)
    refine this.ref ?_ ?_
    · show |p.z * 0 - p.x * 1| ≤ s.U (gCr d z).g * _
      rw [gx, mul_zero, zero_sub, mul_one, abs_neg]; exact hm.1
    · simp
  have cz : (gCz d).Has s (f.vcross V zGlobal.flo).z (p.cross zGlobal).z := by
    have := (h.x.mul hf (has0 (g := ⟨0, 0, 0, 0⟩))).sub hf (h.y.mul hf (has0 (g := ⟨0, 0, 0, 0⟩)))
    refine this.ref ?_ ?_
    · show |p.x * 0 - p.y * 0| ≤ _
      simp
    · simp
  have cn : (nrm up l (gCr d z) (gCz d)).Has s (f.vnorm (f.vcross V zGlobal.flo)) (p.cross zGlobal).norm := by
    refine cx.vnorm hf cy cz ?_ ?_
    · rw [cross_norm hz, gx]; exact h1
    · rw [cross_norm hz, gx]; exact h2
  have bnd : ∀ {c : ℝ}, c * c ≤ p.x * p.x + p.y * p.y + p.z * p.z → |c / (p.cross zGlobal).norm| ≤ s.U ((gCr d z).g - (nrm up l (gCr d z) (gCz d)).g) * ((1:ℚ):ℝ) := by
    intro c hc
    rw [s.U_sub, show (nrm up l (gCr d z) (gCz d)).g = (gCr d z).g from rfl, div_self (s.U_pos _).ne', cross_norm hz, abs_div, abs_of_pos hN, div_le_iff₀ hN]
    push_cast
    rw [one_mul, one_mul, AccV.norm_sq, ← Real.sqrt_mul_self_eq_abs]
    exact Real.sqrt_le_sqrt hc
  refine ⟨h.x.vnorm hf h.y h.z h1 h2, ?_, ?_⟩
  · refine cx.quo hf cn fun _ _ _ => bnd ?_
    simp only [Vec3.cross, zGlobal]
    nlinarith [mul_self_nonneg p.x, mul_self_nonneg p.z]
  · refine cy.quo hf cn fun _ _ _ => bnd ?_
    simp only [Vec3.cross, zGlobal]
    nlinarith [mul_self_nonneg p.y, mul_self_nonneg p.z]

/-! ### the vectors of a triangle -/

theorem U_len : s.U (⟨1, 0, 0, 0⟩ : Grd) = s.l := by simp [Units.U]
theorem U_area : s.U (⟨2, 0, 0, 0⟩ : Grd) = s.l ^ 2 := by simp [Units.U]

theorem HasV.corner {G : ℚ} {a : Vec3} (h : |a.x| ≤ s.l * G ∧ |a.y| ≤ s.l * G ∧ |a.z| ≤ s.l * G) : HasV s (gC G) (gC G) a.flo a := by
  refine ⟨Has.inp ?_, Has.inp ?_, Has.inp ?_⟩ <;> rw [U_len]
  exacts [h.1, h.2.1, h.2.2]

theorem g_gC (G : ℚ) : (gC G).g = ⟨1, 0, 0, 0⟩ := rfl
theorem g_gM (G : ℚ) : (gM G).g = ⟨1, 0, 0, 0⟩ := rfl

section
variable {σ G : ℚ} {a b c : Vec3} {C : FVec}

theorem Tri.to_mid (hf : Spec.Double f) (h : Tri s σ G a b c) (hC : HasV s (gM G) (gM G) C c) : HasV s (gD G) (gDz G) (f.vsub a.flo C) (a.sub c) := by
  have hA := HasV.corner (G := G) h.na
  refine ⟨(hA.x.sub hf hC.x).ref ?_ (by simp), (hA.y.sub hf hC.y).ref ?_ (by simp), (hA.z.sub hf hC.z).ref ?_ (by simp)⟩
  · show |_| ≤ s.U (⟨1, 0, 0, 0⟩ : Grd) * _
    rw [U_len]; push_cast; exact h.ac.1
  · show |_| ≤ s.U (⟨1, 0, 0, 0⟩ : Grd) * _
    rw [U_len]; push_cast; exact h.ac.2
  · rw [h.z.1]; simp

theorem Tri.from_mid (hf : Spec.Double f) (h : Tri s σ G a b c) (hC : HasV s (gM G) (gM G) C c) : HasV s (gD G) (gDz G) (f.vsub C b.flo) (c.sub b) := by
  have hB := HasV.corner (G := G) h.nb
  refine ⟨(Has.sub' (x := gM G) (y := gC G) hf rfl hC.x hB.x).ref ?_ (by simp), (Has.sub' (x := gM G) (y := gC G) hf rfl hC.y hB.y).ref ?_ (by simp), (Has.sub' (x := gM G) (y := gC G) hf rfl hC.z hB.z).ref ?_ (by simp)⟩
  · show |_| ≤ s.U (⟨1, 0, 0, 0⟩ : Grd) * _
    rw [U_len, abs_sub_comm]; push_cast; exact h.bc.1
  · show |_| ≤ s.U (⟨1, 0, 0, 0⟩ : Grd) * _
    rw [U_len, abs_sub_comm]; push_cast; exact h.bc.2
  · rw [h.z.2]; simp

theorem Tri.side (hf : Spec.Double f) (h : Tri s σ G a b c) : HasV s (gE G) (gEz G) (f.vsub b.flo a.flo) (b.sub a) := by
  have hA := HasV.corner (G := G) h.na
  have hB := HasV.corner (G := G) h.nb
  refine ⟨(hB.x.sub hf hA.x).ref ?_ (by simp), (hB.y.sub hf hA.y).ref ?_ (by simp), (hB.z.sub hf hA.z).ref ?_ (by simp)⟩
  · show |_| ≤ s.U (⟨1, 0, 0, 0⟩ : Grd) * _
    rw [U_len, abs_sub_comm]; push_cast; rw [mul_one]; exact h.ab.1
  · show |_| ≤ s.U (⟨1, 0, 0, 0⟩ : Grd) * _
    rw [U_len, abs_sub_comm]; push_cast; rw [mul_one]; exact h.ab.2
  · rw [h.z.2, h.z.1]; simp

/-- lengths of the segments -/
def gL (σ G : ℚ) : Mg := join ((nrm 1 (47 / 100 * σ) (gD G) (gDz G)).ref (3 / 2) 0) ((nrm (3 / 2) (7 / 10 * σ) (gE G) (gEz G)).ref (3 / 2) 0)
/-- components of the normals -/
def gNN (σ G : ℚ) : Mg := join (gN 1 (47 / 100 * σ) (gD G) (gDz G)) (gN (3 / 2) (7 / 10 * σ) (gE G) (gEz G))

theorem norm_of_flat {p : Vec3} (hz : p.z = 0) : p.norm = Real.sqrt (p.x * p.x + p.y * p.y) := by
  rw [AccV.norm_sq, hz]; simp

theorem norm_le {p : Vec3} (hz : p.z = 0) {l : ℝ} {r u : ℝ} (hl : 0 ≤ l) (hu : 0 ≤ u) (h1 : |p.x| ≤ l * r) (h2 : |p.y| ≤ l * r) (h : 2 * (r * r) ≤ u * u) : p.norm ≤ l * u := by
  rw [norm_of_flat hz]
  apply Real.sqrt_le_iff.2
  refine ⟨by positivity, ?_⟩
  have e1 := abs_sq_le h1
  have e2 := abs_sq_le h2
  have e3 : l * l * (2 * (r * r)) ≤ l * l * (u * u) := mul_le_mul_of_nonneg_left h (mul_self_nonneg l)
  nlinarith

theorem le_norm {p : Vec3} (hz : p.z = 0) {A : ℝ} (hA : 0 ≤ A) (h : A ^ 2 ≤ p.x * p.x + p.y * p.y) : A ≤ p.norm := by
  rw [norm_of_flat hz]; exact Real.le_sqrt_of_sq_le h

theorem seg_mid (hf : Spec.Double f) (hσ : 0 < σ) {p : Vec3} {V : FVec} (h : HasV s (gD G) (gDz G) V p) (hz : p.z = 0) (h1 : |p.x| ≤ s.l * (2 / 3)) (h2 : |p.y| ≤ s.l * (2 / 3))
    (h3 : (s.l * (47 / 100 * σ)) ^ 2 ≤ p.x * p.x + p.y * p.y) :
    (gL σ G).Has s (f.vnorm V) p.norm ∧ (gNN σ G).Has s (f.segNormal V).x (segNormal p).x ∧ (gNN σ G).Has s (f.segNormal V).y (segNormal p).y := by
  have hl := s.l_pos
  have hσ' : 0 < (σ:ℝ) := by exact_mod_cast hσ
  have n1 : p.norm ≤ s.l * 1 := norm_le hz hl.le zero_le_one h1 h2 (by norm_num)
  have n2 : s.l * (47 / 100 * σ) ≤ p.norm := le_norm hz (by positivity) h3
  obtain ⟨k1, k2, k3⟩ := seg_has hf (d := gD G) (z := gDz G) rfl h hz (up := 1) (l := 47 / 100 * σ) (by positivity)
    (by show _ ≤ s.U (⟨1, 0, 0, 0⟩ : Grd) * ((2 / 3 : ℚ) : ℝ) ∧ _ ≤ s.U (⟨1, 0, 0, 0⟩ : Grd) * ((2 / 3 : ℚ) : ℝ)
        rw [U_len]; push_cast; exact ⟨h1, h2⟩)
    (by show _ ≤ s.U (⟨1, 0, 0, 0⟩ : Grd) * _; rw [U_len]; push_cast; exact n1)
    (by show s.U (⟨1, 0, 0, 0⟩ : Grd) * _ ≤ _; rw [U_len]; push_cast; exact n2)
  refine ⟨(k1.ref ?_ ?_).joinl, k2.joinl, k3.joinl⟩
  · show _ ≤ s.U (⟨1, 0, 0, 0⟩ : Grd) * _
    rw [U_len, abs_of_nonneg (by unfold Vec3.norm; exact Real.sqrt_nonneg _)]; push_cast; linarith
  · simp

theorem seg_side (hf : Spec.Double f) (hσ : 0 < σ) {p : Vec3} {V : FVec} (h : HasV s (gE G) (gEz G) V p) (hz : p.z = 0) (h1 : |p.x| ≤ s.l) (h2 : |p.y| ≤ s.l)
    (h3 : (s.l * (7 / 10 * σ)) ^ 2 ≤ p.x * p.x + p.y * p.y) :
    (gL σ G).Has s (f.vnorm V) p.norm ∧ (gNN σ G).Has s (f.segNormal V).x (segNormal p).x ∧ (gNN σ G).Has s (f.segNormal V).y (segNormal p).y := by
  have hl := s.l_pos
  have hσ' : 0 < (σ:ℝ) := by exact_mod_cast hσ
  have n1 : p.norm ≤ s.l * (3 / 2) := norm_le (r := 1) hz hl.le (by norm_num) (by rwa [mul_one]) (by rwa [mul_one]) (by norm_num)
  have n2 : s.l * (7 / 10 * σ) ≤ p.norm := le_norm hz (by positivity) h3
  obtain ⟨k1, k2, k3⟩ := seg_has hf (d := gE G) (z := gEz G) rfl h hz (up := 3 / 2) (l := 7 / 10 * σ) (by positivity)
    (by show _ ≤ s.U (⟨1, 0, 0, 0⟩ : Grd) * ((1 : ℚ) : ℝ) ∧ _ ≤ s.U (⟨1, 0, 0, 0⟩ : Grd) * ((1 : ℚ) : ℝ)
        rw [U_len]; push_cast; rw [mul_one]; exact ⟨h1, h2⟩)
    (by show _ ≤ s.U (⟨1, 0, 0, 0⟩ : Grd) * _; rw [U_len]; push_cast; exact n1)
    (by show s.U (⟨1, 0, 0, 0⟩ : Grd) * _ ≤ _; rw [U_len]; push_cast; exact n2)
  refine ⟨(k1.ref ?_ ?_).joinr, k2.joinr, k3.joinr⟩
  · show _ ≤ s.U (⟨1, 0, 0, 0⟩ : Grd) * _
    rw [U_len, abs_of_nonneg (by unfold Vec3.norm; exact Real.sqrt_nonneg _)]; push_cast; linarith
  · simp

end

end Meshless
