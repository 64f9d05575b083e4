import Verif.Lemmas.Consist
import Verif.Spec.Geometric

/-! Geometric stiffness of nodal values of smooth fields against the integral over the plate. -/

set_option autoImplicit false

namespace Meshless
open Spec Finset MeasureTheory

/-- products of slopes belonging to the membrane forces -/
def slopes (a b c d : ℝ) : Fin 3 → ℝ := ![a * c, b * d, a * d + b * c]

/-- the matrix `[A B]` -/
def ab (l : Lam) (p : Fin 3) : Fin 6 → ℝ := ![l.A p 0, l.A p 1, l.A p 2, l.B p 0, l.B p 1, l.B p 2]

theorem ab_lamData (p : Fin 3) (q : Fin 6) : (fun l : Lam => ab l p q) ∈ lamData := by
  have hm : ∀ j : Fin 3, (fun l : Lam => l.A p j) ∈ lamData ∧ (fun l : Lam => l.B p j) ∈ lamData := fun j => by
    unfold lamData
    exact ⟨List.mem_append_left _ (List.mem_append_right _ (List.mem_flatMap.2 ⟨p, List.mem_finRange p, List.mem_flatMap.2 ⟨j, List.mem_finRange j, by simp⟩⟩)),
      List.mem_append_left _ (List.mem_append_right _ (List.mem_flatMap.2 ⟨p, List.mem_finRange p, List.mem_flatMap.2 ⟨j, List.mem_finRange j, by simp⟩⟩))⟩
  fin_cases q
  · exact (hm 0).1
  · exact (hm 1).1
  · exact (hm 2).1
  · exact (hm 0).2
  · exact (hm 1).2
  · exact (hm 2).2

theorem membrane_ab (m : Mesh) (pn : Bool) (k : Key) (d : ℕ → ℝ) (i : Fin 3) : membrane m pn k d i = ∑ q, avg m pn k (fun l => ab l i q) * eps m k d q := by
  unfold membrane
  rw [Fin.sum_univ_six, Fin.sum_univ_three]
  show avg m pn k (fun l => l.A i 0) * eps m k d 0 + avg m pn k (fun l => l.B i 0) * eps m k d 3 + (avg m pn k (fun l => l.A i 1) * eps m k d 1 + avg m pn k (fun l => l.B i 1) * eps m k d 4)
    + (avg m pn k (fun l => l.A i 2) * eps m k d 2 + avg m pn k (fun l => l.B i 2) * eps m k d 5) =
    avg m pn k (fun l => l.A i 0) * eps m k d 0 + avg m pn k (fun l => l.A i 1) * eps m k d 1 + avg m pn k (fun l => l.A i 2) * eps m k d 2
    + avg m pn k (fun l => l.B i 0) * eps m k d 3 + avg m pn k (fun l => l.B i 1) * eps m k d 4 + avg m pn k (fun l => l.B i 2) * eps m k d 5
  ring

theorem contMembrane_ab (l : Lam) (Dx Dy : ℕ → ℝ × ℝ → ℝ) (x : ℝ × ℝ) (i : Fin 3) : contMembrane l Dx Dy x i = ∑ q, ab l i q * strain Dx Dy x q := by
  unfold contMembrane
  rw [Fin.sum_univ_six, Fin.sum_univ_three]
  show l.A i 0 * strain Dx Dy x 0 + l.B i 0 * strain Dx Dy x 3 + (l.A i 1 * strain Dx Dy x 1 + l.B i 1 * strain Dx Dy x 4) + (l.A i 2 * strain Dx Dy x 2 + l.B i 2 * strain Dx Dy x 5) =
    l.A i 0 * strain Dx Dy x 0 + l.A i 1 * strain Dx Dy x 1 + l.A i 2 * strain Dx Dy x 2 + l.B i 0 * strain Dx Dy x 3 + l.B i 1 * strain Dx Dy x 4 + l.B i 2 * strain Dx Dy x 5
  ring

theorem slopes_sum (a b c d : ℝ) (N : Fin 3 → ℝ) : ∑ p, slopes a b c d p * N p = a * N 0 * c + a * N 2 * d + b * N 2 * c + b * N 1 * d := by
  simp only [slopes, Fin.sum_univ_three]
  simp
  ring

theorem geometric_thirds {m : Mesh} (w : WF m) (hp : Proper m) (hg : Planar m) (pn : Bool) (d v u : ℕ → ℝ) :
    geometric m pn d v u = (m.eids.map fun e => ((m.tria e).edgeIds.map fun k => triArea m e / 3 *
      ∑ p, ∑ q, slopes (gradX m (dom m k) (disp m v 2)) (gradY m (dom m k) (disp m v 2)) (gradX m (dom m k) (disp m u 2)) (gradY m (dom m k) (disp m u 2)) p *
        slot m pn k e (fun l => ab l p q) * eps m k d q).sum).sum := by
  unfold geometric
  refine thirds w fun k hk => ?_
  dsimp only
  generalize gradX m (dom m k) (disp m v 2) = a
  generalize gradY m (dom m k) (disp m v 2) = b
  generalize gradX m (dom m k) (disp m u 2) = c
  generalize gradY m (dom m k) (disp m u 2) = c'
  have h := quad_thirds w hp hg pn hk (ι := Fin 3 × Fin 6) (fun i l => ab l i.1 i.2) (fun i => slopes a b c c' i.1 * eps m k d i.2)
  have e : ∀ A : Fin 3 → Fin 6 → ℝ, ∑ i : Fin 3 × Fin 6, slopes a b c c' i.1 * eps m k d i.2 * A i.1 i.2 = ∑ p, ∑ q, slopes a b c c' p * A p q * eps m k d q := by
    intro A
    rw [Fintype.sum_prod_type]
    exact sum_congr rfl fun p _ => sum_congr rfl fun q _ => by ring
  rw [e (fun p q => avg m pn k fun l => ab l p q)] at h
  have e2 : ∑ p, ∑ q, slopes a b c c' p * avg m pn k (fun l => ab l p q) * eps m k d q =
      a * membrane m pn k d 0 * c + a * membrane m pn k d 2 * c' + b * membrane m pn k d 2 * c + b * membrane m pn k d 1 * c' := by
    rw [membrane_ab, membrane_ab, membrane_ab]
    rw [← slopes_sum a b c c' (fun p => ∑ q, avg m pn k (fun l => ab l p q) * eps m k d q)]
    refine sum_congr rfl fun p _ => ?_
    rw [mul_sum]
    exact sum_congr rfl fun q _ => by ring
  rw [e2] at h
  rw [h]
  congr 1
  refine List.map_congr_left fun t _ => ?_
  rw [← e (fun p q => slot m pn k t fun l => ab l p q)]

theorem prod3_near' {x x' y y' A a δ ε s t L ω : ℝ} (hx : |x - x'| ≤ δ) (hy : |y - y'| ≤ ε) (hx' : |x'| ≤ s) (hy' : |y'| ≤ t) (hA : |A| ≤ L) (ha : |A - a| ≤ ω) :
    |x * A * y - x' * a * y'| ≤ L * (δ * (t + ε) + s * ε) + s * t * ω := by
  have hδ := (abs_nonneg _).trans hx
  have hε := (abs_nonneg _).trans hy
  have hs := (abs_nonneg _).trans hx'
  have ht := (abs_nonneg _).trans hy'
  have hL := (abs_nonneg _).trans hA
  have hyy : |y| ≤ t + ε := by
    calc |y| = |(y - y') + y'| := by ring_nf
      _ ≤ _ := (abs_add_le _ _).trans (by linarith)
  rw [show x * A * y - x' * a * y' = A * ((x - x') * y) + A * (x' * (y - y')) + x' * y' * (A - a) by ring]
  have h1 : |A * ((x - x') * y)| ≤ L * (δ * (t + ε)) := by
    rw [abs_mul, abs_mul]
    exact mul_le_mul hA (mul_le_mul hx hyy (abs_nonneg _) hδ) (by positivity) hL
  have h2 : |A * (x' * (y - y'))| ≤ L * (s * ε) := by
    rw [abs_mul, abs_mul]
    exact mul_le_mul hA (mul_le_mul hx' hy (abs_nonneg _) hs) (by positivity) hL
  have h3 : |x' * y' * (A - a)| ≤ s * t * ω := by
    rw [abs_mul, abs_mul]
    exact mul_le_mul (mul_le_mul hx' hy' (abs_nonneg _) hs) ha (abs_nonneg _) (by positivity)
  have := abs_add_three (A * ((x - x') * y)) (A * (x' * (y - y'))) (x' * y' * (A - a))
  linarith

theorem quad_near' {x x' : Fin 3 → ℝ} {y y' : Fin 6 → ℝ} {A a : Fin 3 → Fin 6 → ℝ} {δ ε s t L ω : ℝ} (hx : ∀ p, |x p - x' p| ≤ δ) (hy : ∀ p, |y p - y' p| ≤ ε) (hx' : ∀ p, |x' p| ≤ s)
    (hy' : ∀ p, |y' p| ≤ t) (hA : ∀ p q, |A p q| ≤ L) (ha : ∀ p q, |A p q - a p q| ≤ ω) :
    |∑ p, ∑ q, x p * A p q * y q - ∑ p, ∑ q, x' p * a p q * y' q| ≤ 18 * (L * (δ * (t + ε) + s * ε) + s * t * ω) := by
  rw [← sum_sub_distrib]
  simp only [← sum_sub_distrib]
  refine (abs_sum_le_sum_abs _ _).trans ?_
  calc _ ≤ ∑ _p : Fin 3, ∑ _q : Fin 6, (L * (δ * (t + ε) + s * ε) + s * t * ω) := by
        refine sum_le_sum fun p _ => (abs_sum_le_sum_abs _ _).trans (sum_le_sum fun q _ => ?_)
        exact prod3_near' (hx p) (hy q) (hx' p) (hy' q) (hA p q) (ha p q)
    _ = _ := by simp only [sum_const, card_univ, Fintype.card_fin, nsmul_eq_mul]; push_cast; ring

theorem slopes_near {a b c d a' b' c' d' η S : ℝ} (ha : |a - a'| ≤ η) (hb : |b - b'| ≤ η) (hc : |c - c'| ≤ η) (hd : |d - d'| ≤ η) (ha' : |a'| ≤ S) (hb' : |b'| ≤ S) (hc' : |c'| ≤ S)
    (hd' : |d'| ≤ S) (p : Fin 3) : |slopes a b c d p - slopes a' b' c' d' p| ≤ 2 * (η * (2 * S + η)) ∧ |slopes a' b' c' d' p| ≤ 2 * S ^ 2 := by
  have hη := (abs_nonneg _).trans ha
  have hS := (abs_nonneg _).trans ha'
  have pr : ∀ x y x' y' : ℝ, |x - x'| ≤ η → |y - y'| ≤ η → |x'| ≤ S → |y'| ≤ S → |x * y - x' * y'| ≤ η * (2 * S + η) ∧ |x' * y'| ≤ S ^ 2 := by
    intro x y x' y' h1 h2 h3 h4
    constructor
    · rw [show x * y - x' * y' = (x - x') * (y - y') + x' * (y - y') + (x - x') * y' by ring]
      have a1 : |(x - x') * (y - y')| ≤ η * η := by rw [abs_mul]; exact mul_le_mul h1 h2 (abs_nonneg _) hη
      have a2 : |x' * (y - y')| ≤ S * η := by rw [abs_mul]; exact mul_le_mul h3 h2 (abs_nonneg _) hS
      have a3 : |(x - x') * y'| ≤ η * S := by rw [abs_mul]; exact mul_le_mul h1 h4 (abs_nonneg _) hη
      have := abs_add_three ((x - x') * (y - y')) (x' * (y - y')) ((x - x') * y')
      linarith
    · rw [abs_mul, pow_two]; exact mul_le_mul h3 h4 (abs_nonneg _) hS
  have p1 := pr _ _ _ _ ha hc ha' hc'
  have p2 := pr _ _ _ _ hb hd hb' hd'
  have p3 := pr _ _ _ _ ha hd ha' hd'
  have p4 := pr _ _ _ _ hb hc hb' hc'
  have z1 : 0 ≤ η * (2 * S + η) := by positivity
  have z2 : 0 ≤ S ^ 2 := by positivity
  unfold slopes
  fin_cases p
  · exact ⟨p1.1.trans (by linarith), p1.2.trans (by linarith)⟩
  · exact ⟨p2.1.trans (by linarith), p2.2.trans (by linarith)⟩
  · refine ⟨?_, (abs_add_le _ _).trans (by linarith [p3.2, p4.2])⟩
    show |a * d + b * c - (a' * d' + b' * c')| ≤ _
    rw [show a * d + b * c - (a' * d' + b' * c') = (a * d - a' * d') + (b * c - b' * c') by ring]
    exact (abs_add_le _ _).trans (by linarith [p3.1, p4.1])

theorem contMembrane_slopes (l : Lam) (Dx Dy Fx Fy Gx Gy : ℕ → ℝ × ℝ → ℝ) (x : ℝ × ℝ) :
    Fx 2 x * contMembrane l Dx Dy x 0 * Gx 2 x + Fx 2 x * contMembrane l Dx Dy x 2 * Gy 2 x + Fy 2 x * contMembrane l Dx Dy x 2 * Gx 2 x + Fy 2 x * contMembrane l Dx Dy x 1 * Gy 2 x =
    ∑ p, ∑ q, slopes (Fx 2 x) (Fy 2 x) (Gx 2 x) (Gy 2 x) p * ab l p q * strain Dx Dy x q := by
  have := slopes_sum (Fx 2 x) (Fy 2 x) (Gx 2 x) (Gy 2 x) (fun p => ∑ q, ab l p q * strain Dx Dy x q)
  simp only [contMembrane_ab]
  rw [← this]
  refine sum_congr rfl fun p _ => ?_
  rw [mul_sum]
  exact sum_congr rfl fun q _ => by ring

theorem geometric_near {m : Mesh} (w : WF m) (hp : Proper m) (hg : Planar m) {pn : Bool} {s h : ℝ} (hs : Shape m s) (hh : Size m h) {l : ℕ → ℝ × ℝ → Lam} {L0 L1 : ℝ} (hL1 : 0 ≤ L1)
    (hl : SmoothLam m l L0 L1) (ha : Assigned m pn l) {D Dx Dy F Fx Fy G Gx Gy : ℕ → ℝ × ℝ → ℝ} {S M : ℝ} (hM : 0 ≤ M) (hD : SmoothField m D Dx Dy S M) (hF : SmoothField m F Fx Fy S M)
    (hG : SmoothField m G Gx Gy S M) {d v u : ℕ → ℝ} (hd : Nodal m D d) (hv : Nodal m F v) (hu : Nodal m G u) :
    |geometric m pn d v u - contGeometric m l Dx Dy Fx Fy Gx Gy| ≤ totalArea m *
      (18 * (L0 * (2 * ((2 * s + 1) * M * h * (2 * S + (2 * s + 1) * M * h)) * (2 * S + 2 * ((2 * s + 1) * M * h)) + 2 * S ^ 2 * (2 * ((2 * s + 1) * M * h))) + 2 * S ^ 2 * (2 * S) * (2 * L1 * h))) := by
  rw [geometric_thirds w hp hg]
  unfold contGeometric
  simp only [contMembrane_slopes]
  refine thirds_near (fun e he => ?_) (fun e he k hk x hx => ?_)
  · have cx : ∀ {F Fx Fy : ℕ → ℝ × ℝ → ℝ}, SmoothField m F Fx Fy S M → ContinuousOn (Fx 2) (hull m e) ∧ ContinuousOn (Fy 2) (hull m e) := fun hF =>
      ⟨cont_of_lip fun x hx y hy => (hF.lip e he 2 (by norm_num) x hx y hy).1, cont_of_lip fun x hx y hy => (hF.lip e he 2 (by norm_num) x hx y hy).2⟩
    obtain ⟨f1, f2⟩ := cx hF
    obtain ⟨g1, g2⟩ := cx hG
    refine continuousOn_finsetSum _ fun p _ => continuousOn_finsetSum _ fun q _ => ?_
    refine (ContinuousOn.mul ?_ (lam_cont hl he (ab_lamData p q))).mul (strain_cont hD he q)
    unfold slopes
    fin_cases p
    · exact f1.mul g1
    · exact f2.mul g2
    · exact (f1.mul g2).add (f2.mul g1)
  · obtain ⟨hk', ht⟩ := side_trias w he hk
    have ev := dom_error w hp hg hs hh hM (hF.one (r := 2) (by norm_num)) (g := disp m v 2) (fun i hi => hv i hi 2 (by norm_num)) hk' ht hx
    have eu := dom_error w hp hg hs hh hM (hG.one (r := 2) (by norm_num)) (g := disp m u 2) (fun i hi => hu i hi 2 (by norm_num)) hk' ht hx
    have bv := (hF.bound e he 2 (by norm_num) x hx).2
    have bu := (hG.bound e he 2 (by norm_num) x hx).2
    have sl := fun p => slopes_near ev.1 ev.2 eu.1 eu.2 bv.1 bv.2 bu.1 bu.2 p
    exact quad_near' (fun p => (sl p).1) (fun p => eps_error w hp hg hs hh hM hD hd hk' ht hx p) (fun p => (sl p).2) (fun p => strain_bound hD he hx p)
      (fun p q => (slot_near w hp hh hL1 hl ha hk' ht hx (ab_lamData p q)).1) (fun p q => (slot_near w hp hh hL1 hl ha hk' ht hx (ab_lamData p q)).2)

end Meshless
