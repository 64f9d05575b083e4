import Verif.Spec.ShearBound
import Verif.Lemmas.MagSum
import Verif.Lemmas.IeeeK0s

/-! Explicit bounds for the numbers `add_k0s` computes for a triangle: differences of coordinates, area, the orientation test, the longest side, averaged
laminate data, the stabilisation factor and the shear moduli. -/

set_option autoImplicit false

namespace Meshless
open Spec Mg

variable {f : Fmt} {s : Units} {σ : ℚ}

/-! ### differences of coordinates -/

/-- a difference of two coordinates of corners -/
def dif : Mg := rd ⟨1, 0, 0, 0⟩ 1 0 true
/-- a difference of two heights -/
def difz : Mg := rd ⟨1, 0, 0, 0⟩ 0 0 true

theorem dif_ok : dif.ok = true := by decide +kernel
theorem difz_ok : difz.ok = true := by decide +kernel

theorem coord_sub (hf : Spec.Double f) {a b : ℝ} (h : |a - b| ≤ s.l) : dif.Has s (f.sub (.fin a) (.fin b)) (a - b) := by
  intro _
  show dif.Is s (f.rnd (a + -b)) (a - b)
  rw [← sub_eq_add_neg]
  refine rnd_is hf dif_ok ?_ (by simp)
  rw [U_len]; simpa using h

theorem height_sub (hf : Spec.Double f) {a b : ℝ} (h : a = b) : difz.Has s (f.sub (.fin a) (.fin b)) (a - b) := by
  intro _
  show difz.Is s (f.rnd (a + -b)) (a - b)
  rw [← sub_eq_add_neg]
  refine rnd_is hf difz_ok ?_ (by simp)
  rw [h]; simp

theorem side_has (hf : Spec.Double f) {a b : Vec3} (h : |a.x - b.x| ≤ s.l ∧ |a.y - b.y| ≤ s.l) (hz : a.z = b.z) : HasV s dif difz (f.vsub a.flo b.flo) (a.sub b) :=
  ⟨coord_sub hf h.1, coord_sub hf h.2, height_sub hf hz⟩

/-! ### the cross product of two sides -/

def crX : Mg := dif * difz - difz * dif
def crZ : Mg := dif * dif - dif * dif

theorem cross_has (hf : Spec.Double f) {V W : FVec} {p q : Vec3} (hV : HasV s dif difz V p) (hW : HasV s dif difz W q) : HasV s crX crZ (f.vcross V W) (p.cross q) :=
  ⟨(hV.y.mul hf hW.z).sub hf (hV.z.mul hf hW.y), Has.sub' (x := difz * dif) (y := dif * difz) hf rfl (hV.z.mul hf hW.x) (hV.x.mul hf hW.z),
    (hV.x.mul hf hW.y).sub hf (hV.y.mul hf hW.x)⟩

/-- the area of a triangle -/
def gAr (σ : ℚ) : Mg := (nrm 2 (2 * σ) crX crZ / cst 2).ref 1 σ

theorem half_norm_has (hf : Spec.Double f) {V : FVec} {p : Vec3} (hV : HasV s crX crZ V p) (hx : p.x = 0) (hy : p.y = 0) {A : ℝ} (hA : |p.z| = 2 * A) (h1 : A ≤ s.l ^ 2)
    (h2 : σ * s.l ^ 2 ≤ A) : (gAr σ).Has s (f.div (f.vnorm V) (.fin 2)) A := by
  have hn : p.norm = 2 * A := by
    rw [AccV.norm_sq, hx, hy, ← hA]
    simp only [mul_zero, add_zero, zero_add]
    exact Real.sqrt_mul_self_eq_abs _
  have e0 : s.U crX.g = s.l ^ 2 := U_area
  have hA0 : 0 ≤ A := by have := abs_nonneg p.z; linarith
  have n := Has.vnorm hf (up := 2) (l := 2 * σ) hV.x hV.y hV.z (by rw [e0, hn]; push_cast; linarith) (by rw [e0, hn]; push_cast; linarith)
  have h3 : (Mg.cst 2).Has s (.fin 2) 2 := by simpa using Has.cst (s := s) (c := 2) (by norm_num)
  have := n.div hf h3
  rw [hn, mul_div_cancel_left₀ _ (two_ne_zero' ℝ)] at this
  refine this.ref ?_ ?_
  · show _ ≤ s.U ((⟨2, 0, 0, 0⟩ : Grd) - ⟨0, 0, 0, 0⟩) * _
    rw [U_div_area _ rfl, abs_of_nonneg hA0]; simpa using h1
  · show s.U ((⟨2, 0, 0, 0⟩ : Grd) - ⟨0, 0, 0, 0⟩) * _ ≤ _
    rw [U_div_area _ rfl, abs_of_nonneg hA0]; linarith

/-- twice the area with its sign, as the orientation test computes it -/
def gSg : Mg := (crX * inp ⟨0, 0, 0, 0⟩ 0 + crX * inp ⟨0, 0, 0, 0⟩ 0) + crZ * cst 1

/-- the rounding errors do not reach the sign -/
def okSg (σ : ℚ) : Bool := gSg.ok && decide (gSg.e ≤ 2 ^ 52 * (2 * σ))

theorem sign_same {w y B : ℝ} (hB : 0 < B) (h1 : B ≤ |y|) (h2 : |w - y| ≤ B / 2) : w < 0 ↔ y < 0 := by
  obtain ⟨k1, k2⟩ := abs_le.1 h2
  constructor
  · intro hw
    by_contra hn
    rw [abs_of_nonneg (not_lt.1 hn)] at h1
    linarith
  · intro hn
    rw [abs_of_neg hn] at h1
    linarith

theorem sign_has (hf : Spec.Double f) (hσ : 0 < σ) (hk : okSg σ = true) {V W : FVec} {p q : Vec3} (hV : HasV s dif difz V p) (hW : HasV s dif difz W q)
    (h : 2 * (σ * s.l ^ 2) ≤ |Vec3.dot (p.cross q) zGlobal|) : (f.vdot (f.vcross V W) zGlobal.flo).lt (.fin 0) ↔ Vec3.dot (p.cross q) zGlobal < 0 := by
  simp only [okSg, Bool.and_eq_true, decide_eq_true_eq] at hk
  have c := cross_has hf hV hW
  have := ((c.x.mul hf (has0 (g := ⟨0, 0, 0, 0⟩))).add hf (c.y.mul hf (has0 (g := ⟨0, 0, 0, 0⟩)))).add hf (c.z.mul hf has1)
  obtain ⟨w, e, _, h2, _⟩ := (show gSg.Has s _ _ from this) hk.1
  have e' : f.vdot (f.vcross V W) zGlobal.flo = .fin w := e
  rw [e']
  show w < 0 ↔ _
  have hl := s.l_pos
  have hE := u64_pos
  have hσ' : 0 < (σ:ℝ) := by exact_mod_cast hσ
  refine sign_same (B := 2 * (σ * s.l ^ 2)) (by positivity) h (le_trans h2 ?_)
  rw [show gSg.g = (⟨2, 0, 0, 0⟩ : Grd) from rfl, U_area]
  have e2 : (gSg.e : ℝ) ≤ 2 ^ 52 * (2 * σ) := by
    have := (Rat.cast_le (K := ℝ)).2 hk.2
    push_cast at this; exact this
  calc u64 * (s.l ^ 2 * (gSg.e:ℝ)) ≤ u64 * (s.l ^ 2 * (2 ^ 52 * (2 * σ))) := by gcongr
    _ = _ := by rw [u64_eq]; ring

/-! ### square roots and maxima -/

/-- the square root of an area between `(lo l)²` and `(up l)²` -/
def sqr (up lo : ℚ) (x : Mg) : Mg :=
  { rd ⟨1, 0, 0, 0⟩ up (x.e / lo) (x.ok && decide (x.g = ⟨2, 0, 0, 0⟩) && decide (0 < lo) && decide (x.e ≤ 2 ^ 53 * lo ^ 2)) with lo := lo }

theorem sqrt_has (hf : Spec.Double f) {x : Mg} {A : Flo} {a : ℝ} {up lo : ℚ} (h : x.Has s A a) (h0 : 0 ≤ up) (h1 : a ≤ (s.l * up) ^ 2) (h2 : (s.l * lo) ^ 2 ≤ a) :
    (sqr up lo x).Has s (f.sqrt A) (Real.sqrt a) := by
  intro hk
  have hk' := hk
  simp only [sqr, rd, Bool.and_eq_true, decide_eq_true_eq] at hk'
  obtain ⟨⟨⟨⟨⟨⟨kx, kg⟩, klo⟩, ke⟩, _⟩, _⟩, _⟩ := hk'
  obtain ⟨v, rfl, -, h4, -⟩ := h kx
  rw [kg, U_area] at h4
  have hl := s.l_pos
  have hE := u64_pos
  have hlo : 0 < (lo:ℝ) := by exact_mod_cast klo
  have hup : 0 ≤ (up:ℝ) := by exact_mod_cast h0
  have he : (x.e:ℝ) ≤ 2 ^ 53 * lo ^ 2 := by
    have := (Rat.cast_le (K := ℝ)).2 ke
    push_cast at this; exact this
  have e1 : u64 * (s.l ^ 2 * (x.e:ℝ)) ≤ (s.l * lo) ^ 2 := by
    calc u64 * (s.l ^ 2 * (x.e:ℝ)) ≤ u64 * (s.l ^ 2 * (2 ^ 53 * lo ^ 2)) := by gcongr
      _ = _ := by rw [u64_eq]; ring
  have hv : 0 ≤ v := by have := (abs_le.1 h4).1; linarith
  have ha : 0 ≤ a := le_trans (by positivity) h2
  have r1 : s.l * lo ≤ Real.sqrt a := Real.le_sqrt_of_sq_le h2
  have r2 : Real.sqrt a ≤ s.l * up := Real.sqrt_le_iff.2 ⟨by positivity, h1⟩
  have r3 : |Real.sqrt v - Real.sqrt a| * (s.l * lo) ≤ |v - a| := by
    have : v - a = (Real.sqrt v - Real.sqrt a) * (Real.sqrt v + Real.sqrt a) := by
      have q1 := Real.mul_self_sqrt hv
      have q2 := Real.mul_self_sqrt ha
      linear_combination -q1 + q2
    rw [this, abs_mul]
    refine mul_le_mul_of_nonneg_left ?_ (abs_nonneg _)
    rw [abs_of_nonneg (add_nonneg (Real.sqrt_nonneg _) (Real.sqrt_nonneg _))]
    linarith [Real.sqrt_nonneg v]
  have r4 : |Real.sqrt v - Real.sqrt a| ≤ u64 * (s.l * ((x.e / lo : ℚ) : ℝ)) := by
    rw [← mul_le_mul_iff_left₀ (show 0 < s.l * lo by positivity)]
    refine r3.trans (h4.trans_eq ?_)
    push_cast
    field_simp
  obtain ⟨w, w1, w2, w3, _⟩ := rnd_is (s := s) hf (g := ⟨1, 0, 0, 0⟩) (m := up) (e0 := x.e / lo) hk (z := Real.sqrt v) (y := Real.sqrt a)
    (by rw [U_len, abs_of_nonneg (Real.sqrt_nonneg _)]; exact r2) (by rw [U_len]; exact r4)
  refine ⟨w, ?_, w2, w3, ?_⟩
  · rw [← w1]
    show (if v < 0 then Flo.nan else f.rnd (Real.sqrt v)) = _
    rw [if_neg (not_lt.2 hv)]
  · show s.U (⟨1, 0, 0, 0⟩ : Grd) * (lo:ℝ) ≤ _
    rw [U_len, abs_of_nonneg (Real.sqrt_nonneg _)]; exact r1

theorem max2_has {x : Mg} {A B : Flo} {a b : ℝ} (h : x.Has s A a) (g : x.Has s B b) (ha : 0 ≤ a) (hb : 0 ≤ b) : x.Has s (Flo.max2 A B) (max a b) := by
  intro hk
  obtain ⟨v, rfl, h1, h2, h3⟩ := h hk
  obtain ⟨w, rfl, g1, g2, g3⟩ := g hk
  rw [abs_of_nonneg ha] at h1 h3
  rw [abs_of_nonneg hb] at g1 g3
  refine ⟨max v w, ?_, ?_, ?_, ?_⟩
  · unfold Flo.max2
    show (if v < w then Flo.fin w else Flo.fin v) = _
    split
    · rename_i h; rw [max_eq_right h.le]
    · rename_i h; rw [max_eq_left (not_lt.1 h)]
  · rw [abs_of_nonneg (le_max_of_le_left ha)]; exact max_le h1 g1
  · exact (abs_max_sub_max_le_max v w a b).trans (max_le h2 g2)
  · rw [abs_of_nonneg (le_max_of_le_left ha)]; exact le_max_of_le_left h3

theorem foldl_max_has {x : Mg} : ∀ {L : List Flo} {l : List ℝ}, List.Forall₂ (fun A a => x.Has s A a ∧ 0 ≤ a) L l → ∀ {A : Flo} {a : ℝ}, x.Has s A a → 0 ≤ a →
    x.Has s (L.foldl Flo.max2 A) (l.foldl max a) := by
  intro L l h
  induction h with
  | nil => intro A a hA _; exact hA
  | cons h _ ih => intro A a hA ha; exact ih (max2_has hA h.1 ha h.2) (le_max_of_le_left ha)

theorem pyMax_has {x : Mg} {L : List Flo} {l : List ℝ} (h : List.Forall₂ (fun A a => x.Has s A a ∧ 0 ≤ a) L l) {a : ℝ} (ha : pyMax l = some a) :
    ∃ A, Flo.pyMax L = some A ∧ x.Has s A a := by
  cases h with
  | nil => cases ha
  | cons h hF =>
    obtain rfl := Option.some.inj ha
    exact ⟨_, rfl, foldl_max_has hF h.1 h.2⟩

/-- the length of a side -/
def gSd (σ : ℚ) : Mg := nrm (3 / 2) (7 / 5 * σ) dif difz
/-- the longest side or the square root of the area -/
def gMx (σ : ℚ) (A : Mg) : Mg := join (sqr 1 σ A) (gSd σ)

/-! ### averages of laminate data -/

/-- the average of three numbers up to 1, or one of them -/
def gAv (g : Grd) : Mg := join ((lit (1 / 3) * inp g 1 + lit (1 / 3) * inp g 1 + lit (1 / 3) * inp g 1).ref 1 0) (inp g 1)
/-- the average of three positive numbers in units of this average, or one number in units of itself -/
def gTh : Mg :=
  join ((lit (1 / 3) * inp ⟨0, 0, 0, 1⟩ 3 + lit (1 / 3) * inp ⟨0, 0, 0, 1⟩ 3 + lit (1 / 3) * inp ⟨0, 0, 0, 1⟩ 3).ref 1 1) ((inp ⟨0, 0, 0, 1⟩ 1).ref 1 1)

theorem avg3_has (hf : Spec.Double f) {g : Grd} {a b c : ℝ} (ha : |a| ≤ s.U g) (hb : |b| ≤ s.U g) (hc : |c| ≤ s.U g) :
    (gAv g).Has s (f.lin3 (f.rnd (1 / 3)) (f.rnd (1 / 3)) (f.rnd (1 / 3)) a b c) (1 / 3 * a + 1 / 3 * b + 1 / 3 * c) := by
  have l3 : (lit (1 / 3)).Has s (f.rnd (1 / 3)) (1 / 3) := by simpa using Has.lit (s := s) hf (1 / 3)
  refine (Has.ref ((((l3.mul hf (p_has ha)).add hf (l3.mul hf (p_has hb))).add hf (l3.mul hf (p_has hc)))) ?_ (by simp)).joinl
  show _ ≤ s.U ((⟨0, 0, 0, 0⟩ : Grd) + g) * _
  have : (⟨0, 0, 0, 0⟩ : Grd) + g = g := by
    show Grd.mk (0 + g.a) (0 + g.b) (0 + g.c) (0 + g.d) = g
    simp
  rw [this, Rat.cast_one, mul_one]
  rw [abs_le] at *
  constructor <;> linarith [ha.1, ha.2, hb.1, hb.2, hc.1, hc.2]

theorem avg1_has {g : Grd} {a : ℝ} (ha : |a| ≤ s.U g) : (gAv g).Has s (.fin a) a := (p_has ha).joinr

theorem U_r : s.U (⟨0, 0, 0, 1⟩ : Grd) = s.r := by simp [Units.U]

theorem thick3_has (hf : Spec.Double f) {a b c : ℝ} (ha : 0 < a) (hb : 0 < b) (hc : 0 < c) (h : s.r = 1 / 3 * a + 1 / 3 * b + 1 / 3 * c) :
    gTh.Has s (f.lin3 (f.rnd (1 / 3)) (f.rnd (1 / 3)) (f.rnd (1 / 3)) a b c) (1 / 3 * a + 1 / 3 * b + 1 / 3 * c) := by
  have l3 : (lit (1 / 3)).Has s (f.rnd (1 / 3)) (1 / 3) := by simpa using Has.lit (s := s) hf (1 / 3)
  have i : ∀ {x : ℝ}, 0 < x → x ≤ 3 * s.r → (inp ⟨0, 0, 0, 1⟩ 3).Has s (.fin x) x := fun h0 h1 => Has.inp (by rw [U_r, abs_of_pos h0]; push_cast; linarith)
  have p0 := s.r_pos
  refine (Has.ref ((((l3.mul hf (i ha (by linarith))).add hf (l3.mul hf (i hb (by linarith)))).add hf (l3.mul hf (i hc (by linarith))))) ?_ ?_).joinl
  · show _ ≤ s.U (⟨0, 0, 0, 1⟩ : Grd) * _
    rw [U_r, ← h, abs_of_pos p0]; simp
  · show s.U (⟨0, 0, 0, 1⟩ : Grd) * _ ≤ _
    rw [U_r, ← h, abs_of_pos p0]; simp

theorem thick1_has {a : ℝ} (h : s.r = a) : gTh.Has s (.fin a) a := by
  have p0 := s.r_pos
  refine ((Has.inp (g := ⟨0, 0, 0, 1⟩) (m := 1) ?_).ref ?_ ?_).joinr
  · rw [U_r, ← h, abs_of_pos p0]; simp
  · show _ ≤ s.U (⟨0, 0, 0, 1⟩ : Grd) * _
    rw [U_r, ← h, abs_of_pos p0]; simp
  · show s.U (⟨0, 0, 0, 1⟩ : Grd) * _ ≤ _
    rw [U_r, ← h, abs_of_pos p0]; simp

/-! ### the stabilisation factor -/

/-- `alpha*maxl**2/h**2` -/
def gQu (x : Mg) : Mg := inp ⟨0, 0, 1, 0⟩ 1 * (x * x) / (gTh * gTh).ref 1 1
/-- `1 / (1 + factor)` -/
def gSt (x : Mg) : Mg :=
  rd ⟨0, 0, 0, 0⟩ 1 (((gQu x).e / x.lo ^ 2 + 2) * (1025 / 1024))
    ((gQu x).ok && decide (x.g = ⟨1, 0, 0, 0⟩) && decide (0 < x.lo) && decide ((gQu x).e / x.lo ^ 2 ≤ 2 ^ 40) && decide (0 ≤ (gQu x).e))

theorem eta_le (hf : Spec.Double f) : f.eta ≤ u64 / 2 ^ 20 := by
  refine hf.eta.trans ?_
  rw [u64, div_eq_mul_inv, ← zpow_natCast, ← zpow_neg, ← zpow_add₀ two_ne_zero]
  exact zpow_le_zpow_right₀ one_le_two (by norm_num)

theorem recip_has (hf : Spec.Double f) {ρ : ℚ} {ok : Bool} (hρ0 : 0 ≤ ρ) (hρ : ρ ≤ 2 ^ 40) {q v : ℝ} (hq0 : 0 ≤ q) (hq : q ≤ 2 ^ (1000 : ℤ)) (hv : |v - q| ≤ u64 * (ρ * q))
    (hk : (rd ⟨0, 0, 0, 0⟩ 1 ((ρ + 2) * (1025 / 1024)) ok).ok = true) :
    (rd ⟨0, 0, 0, 0⟩ 1 ((ρ + 2) * (1025 / 1024)) ok).Is s (f.div (.fin 1) (f.add (.fin 1) (.fin v))) (1 / (1 + q)) := by
  have hE := u64_pos
  have hr0 : 0 ≤ (ρ:ℝ) := by exact_mod_cast hρ0
  have hr : (ρ:ℝ) ≤ 2 ^ 40 := by exact_mod_cast hρ
  have ur : u64 * ρ ≤ 1 / 2 ^ 13 := by
    calc u64 * ρ ≤ u64 * 2 ^ 40 := by gcongr
      _ = _ := by rw [u64_eq]; norm_num
  have hv' := abs_le.1 hv
  have hS : 1 ≤ 1 + q := by linarith
  have hq2 : u64 * (ρ * q) ≤ 1 / 2 ^ 13 * q := by
    rw [← mul_assoc]; exact mul_le_mul_of_nonneg_right ur hq0
  have a1 : |1 + v| ≤ (1 + q) * (1 + 1 / 2 ^ 13) := by
    rw [abs_of_nonneg (by nlinarith [hv'.1])]
    nlinarith [hv'.2]
  have r1 : |f.fl (1 + v) - (1 + v)| ≤ u64 * ((1 + q) * (1 + 1 / 2 ^ 12)) := by
    refine (f.err _).trans ?_
    have h1 : f.u * |1 + v| ≤ u64 * ((1 + q) * (1 + 1 / 2 ^ 13)) := mul_le_mul hf.u a1 (abs_nonneg _) hE.le
    have h2 := eta_le hf
    have h3 : u64 / 2 ^ 20 ≤ u64 * ((1 + q) * (1 / 2 ^ 13)) := by
      rw [div_eq_mul_inv]
      refine mul_le_mul_of_nonneg_left ?_ hE.le
      nlinarith
    calc f.u * |1 + v| + f.eta ≤ _ := add_le_add h1 (h2.trans h3)
      _ = u64 * ((1 + q) * (1 + 1 / 2 ^ 12)) := by ring
  have r2 : |f.fl (1 + v) - (1 + q)| ≤ u64 * ((ρ + 1 + 1 / 2 ^ 12) * (1 + q)) := by
    rw [show f.fl (1 + v) - (1 + q) = (f.fl (1 + v) - (1 + v)) + (v - q) by ring]
    refine (abs_add_le _ _).trans ((add_le_add r1 hv).trans ?_)
    rw [← mul_add]
    refine mul_le_mul_of_nonneg_left ?_ hE.le
    nlinarith
  set w := f.fl (1 + v) with hw
  have uw : u64 * ((ρ + 1 + 1 / 2 ^ 12) * (1 + q)) ≤ 1 / 2 ^ 12 * (1 + q) := by
    rw [← mul_assoc]
    refine mul_le_mul_of_nonneg_right ?_ (by linarith)
    have : u64 * (1 + 1 / 2 ^ 12) ≤ 1 / 2 ^ 13 := by rw [u64_eq]; norm_num
    calc u64 * (ρ + 1 + 1 / 2 ^ 12) = u64 * ρ + u64 * (1 + 1 / 2 ^ 12) := by ring
      _ ≤ 1 / 2 ^ 13 + 1 / 2 ^ 13 := add_le_add ur this
      _ = _ := by norm_num
  obtain ⟨w1, w2⟩ := abs_le.1 (r2.trans uw)
  have wlo : (1 + q) * (4095 / 4096) ≤ w := by linarith
  have wup : w ≤ (1 + q) * 2 := by linarith
  have wpos : 0 < w := by linarith
  have hbig : |w| ≤ f.big := by
    rw [abs_of_pos wpos]
    refine le_trans ?_ hf.big
    calc w ≤ (1 + q) * 2 := wup
      _ ≤ (2 ^ (1000 : ℤ) + 2 ^ (1000 : ℤ)) * 2 := by
        have : (1:ℝ) ≤ 2 ^ (1000 : ℤ) := one_le_zpow₀ one_le_two (by norm_num)
        exact mul_le_mul_of_nonneg_right (add_le_add this hq) (by norm_num)
      _ = (2:ℝ) ^ (1002 : ℤ) := by
        rw [show (1002 : ℤ) = 1000 + 2 by norm_num, zpow_add₀ two_ne_zero]
        generalize (2:ℝ) ^ (1000 : ℤ) = a
        norm_num; ring
      _ ≤ _ := zpow_le_zpow_right₀ one_le_two (by norm_num)
  have e1 : f.add (.fin 1) (.fin v) = .fin w := by
    show f.rnd (1 + v) = _
    unfold Fmt.rnd; rw [if_pos hbig]
  have e2 : f.div (.fin 1) (.fin w) = f.rnd (1 / w) := by
    show (if w = 0 then _ else f.rnd (1 / w)) = _
    rw [if_neg wpos.ne']
  rw [e1, e2]
  refine rnd_is hf hk ?_ ?_
  · rw [gr_zero, abs_of_pos (by positivity)]
    push_cast
    rw [one_mul, div_le_one (by linarith)]; exact hS
  · rw [gr_zero, one_mul]
    have hd : 1 / w - 1 / (1 + q) = ((1 + q) - w) / (w * (1 + q)) := by
      field_simp
    rw [hd, abs_div, abs_of_pos (show 0 < w * (1 + q) by positivity), div_le_iff₀ (by positivity), abs_sub_comm]
    refine r2.trans ?_
    push_cast
    have k1 : (1 + q) * (1 + q) * (4095 / 4096) ≤ w * (1 + q) := by nlinarith
    calc u64 * ((ρ + 1 + 1 / 2 ^ 12) * (1 + q)) ≤ u64 * (((ρ + 2) * (1025 / 1024)) * ((1 + q) * (1 + q) * (4095 / 4096))) := by
          refine mul_le_mul_of_nonneg_left ?_ hE.le
          have c1 : (ρ + 1 + 1 / 2 ^ 12 : ℝ) ≤ (ρ + 2) * (1025 / 1024) * (4095 / 4096) := by nlinarith
          have c2 : (1 + q) ≤ (1 + q) * (1 + q) := by nlinarith
          calc (ρ + 1 + 1 / 2 ^ 12 : ℝ) * (1 + q) ≤ ((ρ + 2) * (1025 / 1024) * (4095 / 4096)) * ((1 + q) * (1 + q)) := by gcongr
            _ = _ := by ring
      _ ≤ u64 * (((ρ + 2) * (1025 / 1024)) * (w * (1 + q))) := by gcongr
      _ = _ := by ring

theorem mul_zero_fin {v : ℝ} : f.mul (.fin 0) (.fin v) = .fin 0 := by
  show f.rnd (0 * v) = _
  unfold Fmt.rnd
  rw [zero_mul, f.zero, abs_zero, if_pos f.big_pos.le]

theorem mul_ok {x y : Mg} (h : (x * y).ok = true) : x.ok = true ∧ y.ok = true := by
  have h' : (((x.ok && y.ok) && _) && _ && _) = true := h
  simp only [Bool.and_eq_true] at h'
  exact h'.1.1.1

theorem quo_ok {x y : Mg} (h : (x / y).ok = true) : x.ok = true ∧ y.ok = true := by
  have h' : (x / y).ok = true := h
  simp only [HDiv.hDiv, Div.div, quo, rd, Bool.and_eq_true] at h'
  tauto

/-- the stabilisation factor, with `alpha` zero or in units of itself -/
theorem stab_has (hf : Spec.Double f) {x : Mg} {L H : Flo} {l h al : ℝ} (hL : x.Has s L l) (hH : gTh.Has s H h) (hh : s.r = h) (hal : al = 0 ∨ s.q = al) :
    (gSt x).Has s (f.stab al L H) (stab al l h) := by
  intro hk
  have hk' := hk
  simp only [gSt, rd, Bool.and_eq_true, decide_eq_true_eq] at hk'
  obtain ⟨⟨⟨⟨⟨⟨⟨kq, kg⟩, klo⟩, kρ⟩, ke⟩, _⟩, _⟩, _⟩ := hk'
  have hx : x.ok = true := by
    exact (mul_ok (mul_ok (quo_ok kq).1).2).1
  have p0 := s.r_pos
  have hl := s.l_pos
  have hlo : 0 < (x.lo : ℝ) := by exact_mod_cast klo
  have hρ0 : 0 ≤ (gQu x).e / x.lo ^ 2 := by positivity
  have e : stab al l h = 1 / (1 + al * (l * l) / (h * h)) := by unfold stab; rw [pow_two, pow_two]
  rw [e]
  have hhh : (gTh * gTh).Has s (f.mul H H) (h * h) := hH.mul hf hH
  have grr : s.U (gTh * gTh).g = h * h := by
    rw [show (gTh * gTh).g = (⟨0, 0, 0, 1⟩ : Grd) + ⟨0, 0, 0, 1⟩ from rfl, s.U_add, U_r, hh]
  have hpos : 0 < h * h := by rw [← hh]; positivity
  have hh1 : ((gTh * gTh).ref 1 1).Has s (f.mul H H) (h * h) := hhh.ref (by rw [grr, abs_of_pos hpos]; simp) (by rw [grr, abs_of_pos hpos]; simp)
  rcases hal with rfl | hq
  · obtain ⟨v, rfl, -⟩ := hL hx
    have k2 : ((gTh * gTh).ref 1 1).ok = true := by decide +kernel
    obtain ⟨w, w1, -, w3, w4⟩ := hh1 k2
    have hw : w ≠ 0 := by
      rintro rfl
      have e0 : ((gTh * gTh).ref 1 1).e ≤ 2 ^ 50 := by decide +kernel
      have e1 : (((gTh * gTh).ref 1 1).e : ℝ) ≤ 2 ^ 50 := by exact_mod_cast e0
      have g1 : s.U ((gTh * gTh).ref 1 1).g = h * h := grr
      rw [g1] at w3
      rw [zero_sub, abs_neg, abs_of_pos hpos] at w3
      have : u64 * (h * h * (((gTh * gTh).ref 1 1).e : ℝ)) ≤ h * h * (1 / 8) := by
        calc u64 * (h * h * (((gTh * gTh).ref 1 1).e : ℝ)) ≤ u64 * (h * h * 2 ^ 50) := by have := u64_pos; gcongr
          _ = _ := by rw [u64_eq]; ring
      linarith
    obtain ⟨v', e1, _⟩ := (hL.mul hf hL) (mul_ok (quo_ok kq).1).2
    have e2 : f.div (f.mul (.fin 0) (f.mul (.fin v) (.fin v))) (f.mul H H) = .fin 0 := by
      rw [e1, mul_zero_fin, w1]
      show (if w = 0 then _ else f.rnd (0 / w)) = _
      rw [if_neg hw, zero_div]
      unfold Fmt.rnd
      rw [f.zero, abs_zero, if_pos f.big_pos.le]
    unfold Fmt.stab
    rw [e2, zero_mul, zero_div]
    exact recip_has hf hρ0 kρ le_rfl (by positivity) (by simp) hk
  · have hx1 : (inp ⟨0, 0, 1, 0⟩ 1).Has s (.fin al) al := by
      refine Has.inp ?_
      have : s.U (⟨0, 0, 1, 0⟩ : Grd) = s.q := by simp [Units.U]
      rw [this, hq, abs_of_pos (by rw [← hq]; exact s.q_pos)]; simp
    obtain ⟨v, v1, v2, v3, -⟩ := ((hx1.mul hf (hL.mul hf hL)).div hf hh1) (show (gQu x).ok = true from kq)
    have al0 : 0 < al := by rw [← hq]; exact s.q_pos
    have hq0 : 0 ≤ al * (l * l) / (h * h) := div_nonneg (mul_nonneg al0.le (mul_self_nonneg l)) hpos.le
    have gU : s.U (gQu x).g = al * (s.l * s.l) / (h * h) := by
      have : (gQu x).g = (⟨0, 0, 1, 0⟩ + (x.g + x.g) : Grd) - ((⟨0, 0, 0, 1⟩ : Grd) + ⟨0, 0, 0, 1⟩) := rfl
      rw [this, s.U_sub, s.U_add, s.U_add, s.U_add, U_r, kg, U_len, hh]
      have : s.U (⟨0, 0, 1, 0⟩ : Grd) = s.q := by simp [Units.U]
      rw [this, hq]
    have llo : s.l * x.lo ≤ |l| := by
      obtain ⟨_, _, _, _, h5⟩ := hL hx
      rw [kg, U_len] at h5; exact h5
    have l2 : s.l * s.l * (x.lo * x.lo : ℝ) ≤ l * l := by
      have := mul_le_mul llo llo (by positivity) (abs_nonneg _)
      rw [abs_mul_abs_self] at this
      linarith
    have hv : |v - al * (l * l) / (h * h)| ≤ u64 * ((((gQu x).e / x.lo ^ 2 : ℚ) : ℝ) * (al * (l * l) / (h * h))) := by
      have v3' : |v - al * (l * l) / (h * h)| ≤ u64 * (s.U (gQu x).g * (gQu x).e) := v3
      rw [gU] at v3'
      refine v3'.trans (mul_le_mul_of_nonneg_left ?_ u64_pos.le)
      push_cast
      have he0 : 0 ≤ ((gQu x).e : ℝ) := by exact_mod_cast ke
      rw [div_mul_div_comm, div_mul_eq_mul_div, div_le_div_iff₀ (by positivity) (by positivity)]
      have := mul_le_mul_of_nonneg_left l2 (mul_nonneg (mul_nonneg al0.le he0) hpos.le)
      nlinarith
    have hsz : (gQu x).g.size ≤ 10 ∧ ((gQu x).m : ℝ) ≤ 2 ^ 20 := by
      have kq' := kq
      unfold gQu at kq'
      simp only [HDiv.hDiv, Div.div, quo, rd, Bool.and_eq_true, decide_eq_true_eq] at kq'
      refine ⟨kq'.1.1.2, ?_⟩
      have := kq'.1.2
      exact_mod_cast this
    have g5 : (gQu x).g = ⟨2, 0, 1, -2⟩ := by
      have : (gQu x).g = (⟨0, 0, 1, 0⟩ + (x.g + x.g) : Grd) - ((⟨0, 0, 0, 1⟩ : Grd) + ⟨0, 0, 0, 1⟩) := rfl
      rw [this, kg]; rfl
    have hqb : al * (l * l) / (h * h) ≤ 2 ^ (1000 : ℤ) := by
      have v2' : |al * (l * l) / (h * h)| ≤ s.U (gQu x).g * (gQu x).m := v2
      rw [abs_of_nonneg hq0] at v2'
      refine v2'.trans ?_
      have hU : s.U (gQu x).g ≤ 2 ^ (600 : ℤ) := by
        rw [gU, div_le_iff₀ hpos, ← hh, ← hq]
        have q1 := s.hq.2
        have q2 := s.hl.2
        have q3 := s.hr.1
        calc s.q * (s.l * s.l) ≤ 2 ^ (100 : ℤ) * (2 ^ (100 : ℤ) * 2 ^ (100 : ℤ)) := by gcongr
          _ = (2:ℝ) ^ (600 : ℤ) * (2 ^ (-150 : ℤ) * 2 ^ (-150 : ℤ)) := by
            rw [← zpow_add₀ two_ne_zero, ← zpow_add₀ two_ne_zero, ← zpow_add₀ two_ne_zero, ← zpow_add₀ two_ne_zero]; norm_num
          _ ≤ 2 ^ (600 : ℤ) * (s.r * s.r) := by
            have : (2:ℝ) ^ (-150 : ℤ) ≤ s.r := le_trans (zpow_le_zpow_right₀ one_le_two (by norm_num)) q3
            gcongr
      have hm0 : 0 ≤ ((gQu x).m : ℝ) := by
        have := s.U_pos (gQu x).g
        exact nonneg_of_mul_nonneg_right (hq0.trans v2') this
      calc s.U (gQu x).g * ((gQu x).m : ℝ) ≤ 2 ^ (600 : ℤ) * 2 ^ 20 := by
            exact mul_le_mul hU hsz.2 hm0 (by positivity)
        _ = (2:ℝ) ^ (620 : ℤ) := by rw [← zpow_natCast, ← zpow_add₀ two_ne_zero]; norm_num
        _ ≤ _ := zpow_le_zpow_right₀ one_le_two (by norm_num)
    unfold Fmt.stab
    rw [v1]
    exact recip_has hf hρ0 kρ hq0 hqb hv hk

/-- a shear modulus -/
def gMo (x : Mg) : Mg := gSt x * (gAv ⟨0, 0, 0, 0⟩ * gAv ⟨0, 1, 0, 0⟩)

end Meshless
