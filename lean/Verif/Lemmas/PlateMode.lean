import Verif.Spec.PlateMode
import Verif.Lemmas.Slope
import Verif.Lemmas.Modal
import Verif.Lemmas.Converge
import Verif.Lemmas.ConsistKG
import Verif.Props.Prestress

/-! Geometric stiffness of a smooth mode against virtual slopes; a nearly solved eigenproblem has an eigenvalue nearby. -/

set_option autoImplicit false

namespace Meshless
open Spec Finset MeasureTheory

theorem prod_sq_le {α : Type} (L : List α) (A x y : α → ℝ) (hA : ∀ t ∈ L, 0 ≤ A t) :
    (L.map fun t => A t * (x t * y t)).sum ^ 2 ≤ (L.map fun t => A t * x t ^ 2).sum * (L.map fun t => A t * y t ^ 2).sum := by
  have q : ∀ s : ℝ, 0 ≤ (L.map fun t => A t * y t ^ 2).sum * (s * s) + 2 * (L.map fun t => A t * (x t * y t)).sum * s + (L.map fun t => A t * x t ^ 2).sum := fun s => by
    have e : (L.map fun t => A t * y t ^ 2).sum * (s * s) + 2 * (L.map fun t => A t * (x t * y t)).sum * s + (L.map fun t => A t * x t ^ 2).sum = (L.map fun t => A t * (x t + s * y t) ^ 2).sum := by
      clear hA
      induction L with
      | nil => simp
      | cons a L ih => simp only [List.map_cons, List.sum_cons]; rw [← ih]; ring
    rw [e]
    refine List.sum_nonneg fun z hz => ?_
    obtain ⟨t, ht, rfl⟩ := List.mem_map.1 hz
    exact mul_nonneg (hA t ht) (sq_nonneg _)
  have := discrim_le_zero q
  unfold discrim at this
  linarith

section
variable {m : Mesh} (w : WF m) (hp : Proper m) (hg : Planar m) {pn : Bool} {s h : ℝ} (hs : Shape m s) (hh : Size m h) {l : ℝ × ℝ → Lam} {L0 L1 : ℝ} (hL1 : 0 ≤ L1)
  (hl : SmoothLam m (fun _ => l) L0 L1) (ha : Assigned m pn fun _ => l)
include w hp hg hh hL1 hl ha

theorem avg_near {k : Key} (hk : k ∈ m.ekeys) {t : ℕ} (ht : t ∈ (m.edge k).trias) {x : ℝ × ℝ} (hx : x ∈ hull m t) {sel : Lam → ℝ} (hsel : sel ∈ lamData) :
    |avg m pn k sel| ≤ L0 ∧ |avg m pn k sel - sel (l x)| ≤ 3 * L1 * h := by
  have hq := quad_thirds w hp hg pn hk (ι := Fin 1) (fun _ => sel) (fun _ => 1)
  rw [dom_area w hp hg hk] at hq
  simp only [Fin.sum_univ_one, one_mul] at hq
  have hG : ((m.edge k).trias.map (triArea m)).sum * avg m pn k sel = ((m.edge k).trias.map fun t => triArea m t * slot m pn k t sel).sum := by
    have e : ((m.edge k).trias.map fun t => triArea m t / 3 * slot m pn k t sel).sum = ((m.edge k).trias.map fun t => triArea m t * slot m pn k t sel).sum / 3 := by
      rw [div_eq_mul_inv, ← List.sum_map_mul_right]
      congr 1
      exact List.map_congr_left fun t _ => by ring
    rw [e] at hq
    linarith
  have hA : ∀ t ∈ (m.edge k).trias, 0 < triArea m t := fun t ht => triArea_pos hg (edge_tria w hp hk ht).1
  constructor
  · have := weighted_near _ _ hA (trias_ne w hp hk) hG (c := 0) (η := L0) fun t' ht' => by
      rw [sub_zero]; exact (slot_near w hp hh hL1 hl ha hk ht' (pt_mem_hull (edge_tria w hp hk ht').2.1) hsel).1
    rwa [sub_zero] at this
  · refine weighted_near _ _ hA (trias_ne w hp hk) hG fun t' ht' => ?_
    obtain ⟨he, c1, _⟩ := edge_tria w hp hk ht
    have h1 := (slot_near w hp hh hL1 hl ha hk ht' (pt_mem_hull (edge_tria w hp hk ht').2.1) hsel).2
    have h2 := hl.lip t he _ (pt_mem_hull c1) x hx sel hsel
    have h3 := mul_le_mul_of_nonneg_left ((hull_dist (pt_mem_hull c1) hx).trans (hh t he)) hL1
    have := abs_sub_le (slot m pn k t' sel) (sel (l (pt m k.1))) (sel (l x))
    linarith

include hs in
/-- membrane forces of nodal values against those of the field -/
theorem membrane_near {D Dx Dy : ℕ → ℝ × ℝ → ℝ} {S M : ℝ} (hM : 0 ≤ M) (hD : SmoothField m D Dx Dy S M) {d : ℕ → ℝ} (hd : Nodal m D d) {k : Key} (hk : k ∈ m.ekeys) {t : ℕ} (ht : t ∈ (m.edge k).trias)
    {x : ℝ × ℝ} (hx : x ∈ hull m t) (i : Fin 3) : |membrane m pn k d i - contMembrane (l x) Dx Dy x i| ≤ 6 * (L0 * (2 * ((2 * s + 1) * M * h)) + 2 * S * (3 * L1 * h)) ∧
      |contMembrane (l x) Dx Dy x i| ≤ 6 * (2 * S * L0) := by
  rw [membrane_ab, contMembrane_ab]
  have hte := (edge_tria w hp hk ht).1
  constructor
  · refine sum6_near fun q => ?_
    rw [mul_comm (avg _ _ _ _), mul_comm (ab _ _ _)]
    obtain ⟨a1, a2⟩ := avg_near w hp hg hh hL1 hl ha hk ht hx (ab_lamData i q)
    exact prod2_near (eps_error w hp hg hs hh hM hD hd hk ht hx q) (strain_bound hD hte hx q) a1 a2
  · refine (abs_sum_le_sum_abs _ _).trans ?_
    calc _ ≤ ∑ _q : Fin 6, 2 * S * L0 := sum_le_sum fun q _ => by
          rw [abs_mul, mul_comm (2 * S)]
          exact mul_le_mul (hl.bound t hte x hx _ (ab_lamData i q)) (strain_bound hD hte hx q) (abs_nonneg _) ((abs_nonneg _).trans (hl.bound t hte x hx _ (ab_lamData i q)))
      _ = _ := by simp

/-- geometric stiffness of a smooth mode against any deflection -/
theorem geometric_test {D Dx Dy F Fx Fy : ℕ → ℝ × ℝ → ℝ} {S M : ℝ} (hs : Shape m s) (hM : 0 ≤ M) (hD : SmoothField m D Dx Dy S M) (hF : SmoothField m F Fx Fy S M) {d z : ℕ → ℝ} (hd : Nodal m D d) (hz : Nodal m F z)
    {β1 η β : ℝ} (hβ1 : β1 = 6 * (L0 * (2 * ((2 * s + 1) * M * h)) + 2 * S * (3 * L1 * h))) (hη : η = (2 * s + 1) * M * h) (hβ : β = 2 * ((S + η) * β1 + 6 * (2 * S * L0) * η)) (v : ℕ → ℝ) :
    |geometric m pn d z v - preWork m l Dx Dy Fx Fy v| ≤ (m.eids.map fun e => triArea m e * (β * (|gradX m (tpoly m e) (disp m v 2)| + |gradY m (tpoly m e) (disp m v 2)|))).sum := by
  obtain ⟨P, hP⟩ : ∃ P : Key → ℝ, P = fun k => membrane m pn k d 0 * gradX m (dom m k) (disp m z 2) + membrane m pn k d 2 * gradY m (dom m k) (disp m z 2) := ⟨_, rfl⟩
  obtain ⟨Q, hQ⟩ : ∃ Q : Key → ℝ, Q = fun k => membrane m pn k d 2 * gradX m (dom m k) (disp m z 2) + membrane m pn k d 1 * gradY m (dom m k) (disp m z 2) := ⟨_, rfl⟩
  have e0 : geometric m pn d z v = (m.ekeys.map fun k => |sarea m (dom m k)| * (P k * gradX m (dom m k) (disp m v 2) + Q k * gradY m (dom m k) (disp m v 2))).sum := by
    unfold geometric
    congr 1
    refine List.map_congr_left fun k _ => ?_
    rw [hP, hQ]
    ring
  have e1 : geometric m pn d z v = (m.eids.map fun e => ((m.tria e).edgeIds.map fun k => triArea m e / 3 * (P k * gradX m (tpoly m e) (disp m v 2) + Q k * gradY m (tpoly m e) (disp m v 2))).sum).sum := by
    rw [e0]
    refine thirds w (Y := fun e k => P k * gradX m (tpoly m e) (disp m v 2) + Q k * gradY m (tpoly m e) (disp m v 2)) fun k hk => ?_
    obtain ⟨hX, hY⟩ := grad_avg w hp hg hk (disp m v 2)
    have : ∀ ts : List ℕ, (ts.map fun t => triArea m t / 3 * (P k * gradX m (tpoly m t) (disp m v 2) + Q k * gradY m (tpoly m t) (disp m v 2))).sum =
        (P k * (ts.map fun t => triArea m t * gradX m (tpoly m t) (disp m v 2)).sum + Q k * (ts.map fun t => triArea m t * gradY m (tpoly m t) (disp m v 2)).sum) / 3 := fun ts => by
      induction ts with
      | nil => simp
      | cons t ts ih => simp only [List.map_cons, List.sum_cons, ih]; ring
    rw [this, ← hX, ← hY, dom_area w hp hg hk]
    ring
  rw [e1]
  unfold preWork
  have near : ∀ e ∈ m.eids, ∀ k ∈ (m.tria e).edgeIds, ∀ x ∈ hull m e, |P k - preX l Dx Dy Fx Fy x| ≤ β ∧ |Q k - preY l Dx Dy Fx Fy x| ≤ β := fun e he k hk x hx => by
    obtain ⟨hk, ht⟩ := side_trias w he hk
    obtain ⟨z1, z2⟩ := dom_error w hp hg hs hh hM (hF.one (show 2 < 5 by norm_num)) (g := disp m z 2) (fun i hi => hz i hi 2 (by norm_num)) hk ht hx
    obtain ⟨_, b1, b2⟩ := hF.bound e he 2 (by norm_num) x hx
    have n := fun i => membrane_near w hp hg hs hh hL1 hl ha hM hD hd hk ht hx i
    rw [← hη] at z1 z2
    have c1 : |gradX m (dom m k) (disp m z 2)| ≤ S + η := by
      have := abs_sub_abs_le_abs_sub (gradX m (dom m k) (disp m z 2)) (Fx 2 x)
      linarith
    have c2 : |gradY m (dom m k) (disp m z 2)| ≤ S + η := by
      have := abs_sub_abs_le_abs_sub (gradY m (dom m k) (disp m z 2)) (Fy 2 x)
      linarith
    rw [← hβ1] at n
    have g := fun i => prod2_near (n i).1 (n i).2 c1 z1
    have g' := fun i => prod2_near (n i).1 (n i).2 c2 z2
    rw [hP, hQ]
    unfold preX preY
    constructor
    · have := abs_add_le (membrane m pn k d 0 * gradX m (dom m k) (disp m z 2) - contMembrane (l x) Dx Dy x 0 * Fx 2 x) (membrane m pn k d 2 * gradY m (dom m k) (disp m z 2) - contMembrane (l x) Dx Dy x 2 * Fy 2 x)
      rw [show ∀ a b c d : ℝ, a + b - (c + d) = a - c + (b - d) by intros; ring]
      linarith [g 0, g' 2]
    · have := abs_add_le (membrane m pn k d 2 * gradX m (dom m k) (disp m z 2) - contMembrane (l x) Dx Dy x 2 * Fx 2 x) (membrane m pn k d 1 * gradY m (dom m k) (disp m z 2) - contMembrane (l x) Dx Dy x 1 * Fy 2 x)
      rw [show ∀ a b c d : ℝ, a + b - (c + d) = a - c + (b - d) by intros; ring]
      linarith [g 2, g' 1]
  refine list_near fun e he => ?_
  have cm : ∀ i, ContinuousOn (fun x => contMembrane (l x) Dx Dy x i) (hull m e) := fun i => by
    simp only [contMembrane_ab]
    exact continuousOn_finsetSum _ fun q _ => (lam_cont hl he (ab_lamData i q)).mul (strain_cont hD he q)
  have fx : ContinuousOn (Fx 2) (hull m e) := cont_of_lip fun x hx y hy => (hF.lip e he 2 (by norm_num) x hx y hy).1
  have fy : ContinuousOn (Fy 2) (hull m e) := cont_of_lip fun x hx y hy => (hF.lip e he 2 (by norm_num) x hx y hy).2
  have hcont : ContinuousOn (fun x => preX l Dx Dy Fx Fy x * gradX m (tpoly m e) (disp m v 2) + preY l Dx Dy Fx Fy x * gradY m (tpoly m e) (disp m v 2)) (hull m e) := by
    unfold preX preY
    exact ((((cm 0).mul fx).add ((cm 2).mul fy)).mul continuousOn_const).add ((((cm 2).mul fx).add ((cm 1).mul fy)).mul continuousOn_const)
  have e2 : ((m.tria e).edgeIds.map fun k => triArea m e / 3 * (P k * gradX m (tpoly m e) (disp m v 2) + Q k * gradY m (tpoly m e) (disp m v 2))).sum =
      triArea m e * (((m.tria e).edgeIds.map fun k => P k * gradX m (tpoly m e) (disp m v 2) + Q k * gradY m (tpoly m e) (disp m v 2)).sum / (m.tria e).edgeIds.length) := by
    have : (m.tria e).edgeIds.length = 3 := rfl
    rw [List.sum_map_mul_left, this]; push_cast; ring
  rw [e2]
  refine integral_near hcont fun x hx => average_near _ (by simp [Tria.edgeIds]) fun k hk => ?_
  obtain ⟨n1, n2⟩ := near e he k hk x hx
  have m1 := mul_le_mul_of_nonneg_right n1 (abs_nonneg (gradX m (tpoly m e) (disp m v 2)))
  have m2 := mul_le_mul_of_nonneg_right n2 (abs_nonneg (gradY m (tpoly m e) (disp m v 2)))
  rw [← abs_mul] at m1 m2
  have := abs_add_le ((P k - preX l Dx Dy Fx Fy x) * gradX m (tpoly m e) (disp m v 2)) ((Q k - preY l Dx Dy Fx Fy x) * gradY m (tpoly m e) (disp m v 2))
  rw [show ∀ a b c d p q : ℝ, a * p + b * q - (c * p + d * q) = (a - c) * p + (b - d) * q by intros; ring]
  linarith

end

/-- change of the geometric stiffness with the state of pre-stress -/
theorem geometric_change {m : Mesh} (w : WF m) (hp : Proper m) (hg : Planar m) {pn : Bool} (hhp : HasProps m pn) {s h : ℝ} (hs : Shape m s) (hh : Size m h) {l : ℝ × ℝ → Lam} {L0 L1 c : ℝ} (hL0 : 0 ≤ L0) (hL1 : 0 ≤ L1)
    (hl : SmoothLam m (fun _ => l) L0 L1) (ha : Assigned m pn fun _ => l) (hc : 0 < c) (hst : ∀ l', InUse m pn l' → AtLeast c l') {F Fx Fy : ℕ → ℝ × ℝ → ℝ} {S M η : ℝ} (hM : 0 ≤ M) (hS : 0 ≤ S)
    (hη : η = (2 * s + 1) * M * h) (hη0 : 0 ≤ η) (hF : SmoothField m F Fx Fy S M) {z : ℕ → ℝ} (hz : Nodal m F z) (d d' v : ℕ → ℝ) :
    (geometric m pn d z v - geometric m pn d' z v) ^ 2 ≤ (2 * (L0 * (S + η))) ^ 2 * (12 * (energy m pn (fun i => d i - d' i) (fun i => d i - d' i) / c) * slopeSize m v) := by
  obtain ⟨u, hu⟩ : ∃ u : ℕ → ℝ, u = fun i => d i - d' i := ⟨_, rfl⟩
  rw [← hu]
  obtain ⟨A, hA⟩ : ∃ A : Key → ℝ, A = fun k => |sarea m (dom m k)| := ⟨_, rfl⟩
  obtain ⟨X, hX⟩ : ∃ X : Key → ℝ, X = fun k => ∑ q, |eps m k u q| := ⟨_, rfl⟩
  obtain ⟨Y, hY⟩ : ∃ Y : Key → ℝ, Y = fun k => |gradX m (dom m k) (disp m v 2)| + |gradY m (dom m k) (disp m v 2)| := ⟨_, rfl⟩
  have hA0 : ∀ k, 0 ≤ A k := fun k => by rw [hA]; exact abs_nonneg _
  have hX0 : ∀ k, 0 ≤ X k := fun k => by rw [hX]; exact Finset.sum_nonneg fun _ _ => abs_nonneg _
  have hY0 : ∀ k, 0 ≤ Y k := fun k => by rw [hY]; positivity
  have mem : ∀ k ∈ m.ekeys, ∀ i, |membrane m pn k d i - membrane m pn k d' i| ≤ L0 * X k := fun k hk i => by
    obtain ⟨t, ht⟩ := List.exists_mem_of_ne_nil _ (trias_ne w hp hk)
    have hx : pt m k.1 ∈ hull m t := pt_mem_hull (edge_tria w hp hk ht).2.1
    rw [membrane_ab, membrane_ab, ← sum_sub_distrib, hX, mul_sum]
    refine (abs_sum_le_sum_abs _ _).trans (sum_le_sum fun q _ => ?_)
    rw [← mul_sub, abs_mul, hu, eps_sub]
    exact mul_le_mul_of_nonneg_right (avg_near w hp hg hh hL1 hl ha hk ht hx (ab_lamData i q)).1 (abs_nonneg _)
  have b1 : |geometric m pn d z v - geometric m pn d' z v| ≤ (m.ekeys.map fun k => A k * (2 * (L0 * (S + η)) * (X k * Y k))).sum := by
    unfold geometric
    refine list_near fun k hk => ?_
    rw [hA, ← mul_sub, abs_mul, abs_abs]
    refine mul_le_mul_of_nonneg_left ?_ (abs_nonneg _)
    obtain ⟨t, ht⟩ := List.exists_mem_of_ne_nil _ (trias_ne w hp hk)
    obtain ⟨hte, htc, _⟩ := edge_tria w hp hk ht
    have hx : pt m k.1 ∈ hull m t := pt_mem_hull htc
    obtain ⟨z1, z2⟩ := dom_error w hp hg hs hh hM (hF.one (show 2 < 5 by norm_num)) (g := disp m z 2) (fun i hi => hz i hi 2 (by norm_num)) hk ht hx
    obtain ⟨_, f1, f2⟩ := hF.bound t hte 2 (by norm_num) _ hx
    rw [← hη] at z1 z2
    have c1 : |gradX m (dom m k) (disp m z 2)| ≤ S + η := by
      have := abs_sub_abs_le_abs_sub (gradX m (dom m k) (disp m z 2)) (Fx 2 (pt m k.1))
      linarith
    have c2 : |gradY m (dom m k) (disp m z 2)| ≤ S + η := by
      have := abs_sub_abs_le_abs_sub (gradY m (dom m k) (disp m z 2)) (Fy 2 (pt m k.1))
      linarith
    have g := mem k hk
    have hX0 := hX0 k
    rw [hY]
    beta_reduce
    generalize X k = x at *
    generalize gradX m (dom m k) (disp m z 2) = a at *
    generalize gradY m (dom m k) (disp m z 2) = b at *
    generalize gradX m (dom m k) (disp m v 2) = p at *
    generalize gradY m (dom m k) (disp m v 2) = q at *
    have pr : ∀ (i : Fin 3) (a p : ℝ), |a| ≤ S + η → |a * (membrane m pn k d i - membrane m pn k d' i) * p| ≤ L0 * (S + η) * x * |p| := fun i a p h => by
      rw [abs_mul, abs_mul]
      refine mul_le_mul_of_nonneg_right ?_ (abs_nonneg _)
      refine (mul_le_mul h (g i) (abs_nonneg _) (by linarith)).trans (le_of_eq (by ring))
    have t1 := pr 0 a p c1
    have t2 := pr 2 a q c1
    have t3 := pr 2 b p c2
    have t4 := pr 1 b q c2
    rw [abs_le] at t1 t2 t3 t4 ⊢
    constructor <;> linarith [t1.1, t1.2, t2.1, t2.2, t3.1, t3.2, t4.1, t4.2]
  have b2 : (m.ekeys.map fun k => A k * (2 * (L0 * (S + η)) * (X k * Y k))).sum = 2 * (L0 * (S + η)) * (m.ekeys.map fun k => A k * (X k * Y k)).sum := by
    rw [← List.sum_map_mul_left]
    congr 1
    exact List.map_congr_left fun k _ => by ring
  have b3 := prod_sq_le m.ekeys A X Y fun k _ => hA0 k
  have b4 : (m.ekeys.map fun k => A k * X k ^ 2).sum ≤ 6 * (energy m pn u u / c) := by
    have h2 : c * (m.ekeys.map fun k => A k * ∑ p, eps m k u p ^ 2).sum ≤ energy m pn u u := by
      unfold energy
      rw [← List.sum_map_mul_left, hA]
      refine List.sum_le_sum fun k hk => ?_
      have := mul_le_mul_of_nonneg_left (avg_least w hp hg hhp hst hk (eps m k u)) (abs_nonneg (sarea m (dom m k)))
      linarith
    have h3 : (m.ekeys.map fun k => A k * ∑ p, eps m k u p ^ 2).sum ≤ energy m pn u u / c := by rw [le_div_iff₀ hc]; linarith
    refine le_trans ?_ (mul_le_mul_of_nonneg_left h3 (by norm_num))
    rw [← List.sum_map_mul_left]
    refine List.sum_le_sum fun k _ => ?_
    have : X k ^ 2 ≤ 6 * ∑ p, eps m k u p ^ 2 := by
      have := sum_mul_sq_le_sq_mul_sq univ (fun _ : Fin 6 => (1:ℝ)) fun q => |eps m k u q|
      simp only [one_mul, one_pow, sq_abs, sum_const, card_univ, Fintype.card_fin, nsmul_eq_mul, mul_one] at this
      rw [hX]
      exact_mod_cast this
    have := mul_le_mul_of_nonneg_left this (hA0 k)
    linarith
  have b5 : (m.ekeys.map fun k => A k * Y k ^ 2).sum ≤ 2 * slopeSize m v := by
    refine le_trans ?_ (mul_le_mul_of_nonneg_left (slope_mean w hp hg v) (by norm_num))
    rw [← List.sum_map_mul_left, hA, hY]
    refine List.sum_le_sum fun k _ => ?_
    have : (|gradX m (dom m k) (disp m v 2)| + |gradY m (dom m k) (disp m v 2)|) ^ 2 ≤ 2 * (gradX m (dom m k) (disp m v 2) ^ 2 + gradY m (dom m k) (disp m v 2) ^ 2) := by
      rw [← sq_abs (gradX m (dom m k) (disp m v 2)), ← sq_abs (gradY m (dom m k) (disp m v 2))]
      nlinarith [sq_nonneg (|gradX m (dom m k) (disp m v 2)| - |gradY m (dom m k) (disp m v 2)|)]
    have := mul_le_mul_of_nonneg_left this (abs_nonneg (sarea m (dom m k)))
    linarith
  have n1 : 0 ≤ (m.ekeys.map fun k => A k * X k ^ 2).sum := List.sum_nonneg fun y hy => by obtain ⟨k, _, rfl⟩ := List.mem_map.1 hy; exact mul_nonneg (hA0 k) (sq_nonneg _)
  have n2 : 0 ≤ (m.ekeys.map fun k => A k * Y k ^ 2).sum := List.sum_nonneg fun y hy => by obtain ⟨k, _, rfl⟩ := List.mem_map.1 hy; exact mul_nonneg (hA0 k) (sq_nonneg _)
  rw [b2] at b1
  have b6 := sq_le_sq' ((neg_le_neg b1).trans (neg_abs_le _)) ((le_abs_self _).trans b1)
  refine b6.trans ?_
  rw [mul_pow]
  refine mul_le_mul_of_nonneg_left (b3.trans ((mul_le_mul b4 b5 n2 (n1.trans b4)).trans (le_of_eq (by ring)))) (sq_nonneg _)

/-- slopes in the mean -/
theorem slope_abs {m : Mesh} (v : ℕ → ℝ) : (m.eids.map fun e => triArea m e * (|gradX m (tpoly m e) (disp m v 2)| + |gradY m (tpoly m e) (disp m v 2)|)).sum ^ 2 ≤ 2 * totalArea m * slopeSize m v := by
  have hA : ∀ e, 0 ≤ triArea m e := fun e => abs_nonneg _
  have h1 := mean_sq_le m.eids (triArea m) (fun e => |gradX m (tpoly m e) (disp m v 2)| + |gradY m (tpoly m e) (disp m v 2)|) fun e _ => hA e
  have h2 : (m.eids.map fun e => triArea m e * (|gradX m (tpoly m e) (disp m v 2)| + |gradY m (tpoly m e) (disp m v 2)|) ^ 2).sum ≤ 2 * slopeSize m v := by
    unfold slopeSize
    rw [← List.sum_map_mul_left]
    refine List.sum_le_sum fun e _ => ?_
    have : (|gradX m (tpoly m e) (disp m v 2)| + |gradY m (tpoly m e) (disp m v 2)|) ^ 2 ≤ 2 * (gradX m (tpoly m e) (disp m v 2) ^ 2 + gradY m (tpoly m e) (disp m v 2) ^ 2) := by
      rw [← sq_abs (gradX m (tpoly m e) (disp m v 2)), ← sq_abs (gradY m (tpoly m e) (disp m v 2))]
      nlinarith [sq_nonneg (|gradX m (tpoly m e) (disp m v 2)| - |gradY m (tpoly m e) (disp m v 2)|)]
    have := mul_le_mul_of_nonneg_left this (hA e)
    linarith
  have hT : 0 ≤ totalArea m := List.sum_nonneg fun y hy => by obtain ⟨e, _, rfl⟩ := List.mem_map.1 hy; exact hA e
  have h3 := mul_le_mul_of_nonneg_left h2 hT
  unfold totalArea at *
  linarith

/-- A displacement that nearly solves the eigenproblem has an eigenvalue nearby. -/
theorem eigen_near {n : ℕ} {K G : ℕ → ℕ → ℝ} {S : Set ℕ} {T : Type} [Fintype T] {p : T → ℕ → ℝ} {μ : T → ℝ} (hm : Modal n K G S T p μ) (hK : ∀ i < n, ∀ j < n, K i j = K j i)
    {z : ℕ → ℝ} (hz : Supported n S z) {lam ρ : ℝ} (hρ : ∀ v, Supported n S v → (form n K v z + lam * form n G v z) ^ 2 ≤ ρ * form n K v v) (hE : 0 < form n K z z) :
    ∃ a, (1 + lam * μ a) ^ 2 * form n K z z ≤ ρ := by
  classical
  obtain ⟨a, ha⟩ : ∃ a : T → ℝ, a = fun i => form n K (p i) z := ⟨_, rfl⟩
  have ex : ∀ (A : ℕ → ℕ → ℝ) (v : ℕ → ℝ), form n A v z = ∑ i, a i * form n A v (p i) := fun A v => by
    unfold form
    rw [Finset.sum_congr rfl fun i hi => Finset.sum_congr rfl fun j hj => by rw [hm.expand z hz j (mem_range.1 hj)]]
    simp only [mul_sum]
    rw [Finset.sum_congr rfl fun i _ => Finset.sum_comm, Finset.sum_comm]
    rw [ha]
    exact Finset.sum_congr rfl fun b _ => Finset.sum_congr rfl fun i _ => Finset.sum_congr rfl fun j _ => by unfold form; ring
  have combo : ∀ (A : ℕ → ℕ → ℝ) (r : T → ℝ) (u : ℕ → ℝ), form n A (fun j => ∑ i, r i * p i j) u = ∑ i, r i * form n A (p i) u := fun A r u => by
    unfold form
    simp only [mul_sum, sum_mul]
    rw [Finset.sum_congr rfl fun i _ => Finset.sum_comm, Finset.sum_comm]
    exact Finset.sum_congr rfl fun b _ => Finset.sum_congr rfl fun i _ => Finset.sum_congr rfl fun j _ => by ring
  have pG : ∀ i, form n G (p i) z = μ i * a i := fun i => by
    rw [ex, Finset.sum_eq_single i (fun b _ hb => by rw [hm.gorth i b (Ne.symm hb), mul_zero]) (by simp), hm.geo]; ring
  have zz : form n K z z = ∑ i, a i ^ 2 := by
    rw [ex]
    refine Finset.sum_congr rfl fun i _ => ?_
    rw [form_comm hK z (p i), ha]; ring
  obtain ⟨r, hr⟩ : ∃ r : T → ℝ, r = fun i => a i * (1 + lam * μ i) := ⟨_, rfl⟩
  have hv : Supported n S fun j => ∑ i, r i * p i j := fun j hj hS => Finset.sum_eq_zero fun i _ => by rw [hm.sup i j hj hS, mul_zero]
  have key := hρ _ hv
  have e1 : form n K (fun j => ∑ i, r i * p i j) z + lam * form n G (fun j => ∑ i, r i * p i j) z = ∑ i, r i ^ 2 := by
    rw [combo, combo, mul_sum, ← Finset.sum_add_distrib]
    refine Finset.sum_congr rfl fun i _ => ?_
    rw [pG, hr]
    have : form n K (p i) z = a i := by rw [ha]
    rw [this]; ring
  have e2 : form n K (fun j => ∑ i, r i * p i j) (fun j => ∑ i, r i * p i j) = ∑ i, r i ^ 2 := by
    rw [combo]
    refine Finset.sum_congr rfl fun i _ => ?_
    rw [form_comm hK (p i), combo, Finset.sum_eq_single i (fun b _ hb => by rw [hm.orth b i hb, mul_zero]) (by simp), hm.self]; ring
  rw [e1, e2] at key
  have hr0 : 0 ≤ ∑ i, r i ^ 2 := Finset.sum_nonneg fun i _ => sq_nonneg _
  by_contra hcon
  push Not at hcon
  have hlt : ρ * form n K z z < (∑ i, r i ^ 2) * form n K z z := by
    have hex : ∃ i ∈ (univ : Finset T), 0 < a i ^ 2 := by
      by_contra h0
      push Not at h0
      exact absurd hE (by rw [zz]; exact (Finset.sum_nonpos h0).not_gt)
    obtain ⟨i0, _, hi0⟩ := hex
    calc ρ * form n K z z = ∑ i, a i ^ 2 * ρ := by rw [zz, mul_comm, sum_mul]
      _ < ∑ i, a i ^ 2 * ((1 + lam * μ i) ^ 2 * form n K z z) := Finset.sum_lt_sum (fun i _ => mul_le_mul_of_nonneg_left (hcon i).le (sq_nonneg _)) ⟨i0, mem_univ _, mul_lt_mul_of_pos_left (hcon i0) hi0⟩
      _ = _ := by rw [sum_mul, hr]; exact Finset.sum_congr rfl fun i _ => by ring
  have h2 := lt_of_mul_lt_mul_right hlt hE.le
  rcases hr0.eq_or_lt with h0 | h0
  · rw [← h0] at h2 hlt
    have : 0 ≤ ρ * form n K z z := (sq_nonneg _).trans (hρ z hz)
    have := mul_neg_of_neg_of_pos h2 hE
    linarith
  · have := mul_lt_mul_of_pos_right h2 h0
    rw [pow_two] at key
    linarith

end Meshless
