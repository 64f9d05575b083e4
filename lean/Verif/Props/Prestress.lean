import Verif.Props.ConvergeCase
import Verif.Props.Limit
import Verif.Props.Locking

/-! C134: buckling analysis with the displacements computed for the reference load. -/

set_option autoImplicit false

namespace Meshless
open Spec Finset MeasureTheory Filter

section
variable {m : Mesh}

theorem circ_sub (P : List (List ℕ)) (f g : ℕ → ℝ) : circDy m P (fun i => f i - g i) = circDy m P f - circDy m P g ∧ circDx m P (fun i => f i - g i) = circDx m P f - circDx m P g := by
  have hm : ∀ A : List ℕ, mean (fun i => f i - g i) A = mean f A - mean g A := fun A => by
    unfold mean
    rw [← sub_div]
    congr 1
    induction A with
    | nil => simp
    | cons a A ih => simp only [List.map_cons, List.sum_cons, ih]; ring
  have hs : ∀ {α : Type} (L : List α) (a b : α → ℝ), (L.map fun x => a x - b x).sum = (L.map a).sum - (L.map b).sum := fun L a b => by
    induction L with
    | nil => simp
    | cons x L ih => simp only [List.map_cons, List.sum_cons, ih]; ring
  unfold circDy circDx
  simp only [hm]
  rw [← hs, ← hs]
  constructor <;> (congr 1; refine List.map_congr_left fun x _ => ?_; ring)

theorem eps_sub (k : Key) (v u : ℕ → ℝ) (p : Fin 6) : eps m k (fun i => v i - u i) p = eps m k v p - eps m k u p := by
  have hd : ∀ r, disp m (fun i => v i - u i) r = fun i => disp m v r i - disp m u r i := fun r => rfl
  have hX : ∀ r, gradX m (dom m k) (disp m (fun i => v i - u i) r) = gradX m (dom m k) (disp m v r) - gradX m (dom m k) (disp m u r) := fun r => by
    unfold gradX; rw [hd, (circ_sub _ _ _).1, sub_div]
  have hY : ∀ r, gradY m (dom m k) (disp m (fun i => v i - u i) r) = gradY m (dom m k) (disp m v r) - gradY m (dom m k) (disp m u r) := fun r => by
    unfold gradY; rw [hd, (circ_sub _ _ _).2]; ring
  fin_cases p <;> simp [eps, hX, hY] <;> ring

theorem SameStatic.sgeometric {m' : Mesh} (h : SameStatic m m') : geometric m' = geometric m := by
  funext pn d v u
  simp only [geometric, h.ekeys, h.ssarea, h.sdom, h.smembrane, h.sgradX, h.sgradY, h.sdisp]

theorem abs_sums {α : Type} {L : List α} {f g b : α → ℝ} (h : ∀ x ∈ L, |f x - g x| ≤ b x) : |(L.map f).sum - (L.map g).sum| ≤ (L.map b).sum := by
  induction L with
  | nil => simp
  | cons x L ih =>
    simp only [List.map_cons, List.sum_cons]
    have h1 := h x (List.mem_cons_self ..)
    have h2 := ih fun y hy => h y (List.mem_cons_of_mem _ hy)
    rw [show f x + (L.map f).sum - (g x + (L.map g).sum) = (f x - g x) + ((L.map f).sum - (L.map g).sum) by ring]
    exact (abs_add_le _ _).trans (add_le_add h1 h2)

/-- change of the geometric stiffness of smooth slopes with the displacements of the pre-stress -/
theorem geometric_diff (w : WF m) (hp : Proper m) (hg : Planar m) {pn : Bool} {s h : ℝ} (hs : Shape m s) (hh : Size m h) {l : ℕ → ℝ × ℝ → Lam} {L0 L1 : ℝ} (hL1 : 0 ≤ L1)
    (hl : SmoothLam m l L0 L1) (ha : Assigned m pn l) {F Fx Fy G Gx Gy : ℕ → ℝ × ℝ → ℝ} {S M : ℝ} (hM : 0 ≤ M) (hF : SmoothField m F Fx Fy S M)
    (hG : SmoothField m G Gx Gy S M) {d z v u : ℕ → ℝ} (hv : Nodal m F v) (hu : Nodal m G u) :
    |geometric m pn d v u - geometric m pn z v u| ≤
      6 * (S + (2 * s + 1) * M * h) ^ 2 * L0 * (m.ekeys.map fun k => |sarea m (dom m k)| * ∑ q, |eps m k (fun i => d i - z i) q|).sum := by
  rw [geometric_thirds w hp hg, geometric_thirds w hp hg, eps_thirds w hp hg, ← List.sum_map_mul_left]
  refine abs_sums fun e he => ?_
  rw [← List.sum_map_mul_left]
  refine abs_sums fun k hk => ?_
  obtain ⟨hk', ht⟩ := side_trias w he hk
  have c1 : IsCorner m e (m.tria e).n1 := Or.inl rfl
  have hx := pt_mem_hull c1
  generalize pt m (m.tria e).n1 = x at hx
  have ev := dom_error w hp hg hs hh hM (hF.one (r := 2) (by norm_num)) (g := disp m v 2) (fun i hi => hv i hi 2 (by norm_num)) hk' ht hx
  have eu := dom_error w hp hg hs hh hM (hG.one (r := 2) (by norm_num)) (g := disp m u 2) (fun i hi => hu i hi 2 (by norm_num)) hk' ht hx
  have bv := (hF.bound e he 2 (by norm_num) x hx).2
  have bu := (hG.bound e he 2 (by norm_num) x hx).2
  have hL : ∀ p q, |slot m pn k e fun l => ab l p q| ≤ L0 := fun p q => (slot_near w hp hh hL1 hl ha hk' ht hx (ab_lamData p q)).1
  generalize gradX m (dom m k) (disp m v 2) = a at *
  generalize gradY m (dom m k) (disp m v 2) = b at *
  generalize gradX m (dom m k) (disp m u 2) = c at *
  generalize gradY m (dom m k) (disp m u 2) = c' at *
  generalize (2 * s + 1) * M * h = η at *
  have hsl : ∀ p, |slopes a b c c' p| ≤ 2 * (S + η) ^ 2 := fun p => by
    have := slopes_near ev.1 ev.2 eu.1 eu.2 bv.1 bv.2 bu.1 bu.2 p
    calc |slopes a b c c' p| = |(slopes a b c c' p - slopes (Fx 2 x) (Fy 2 x) (Gx 2 x) (Gy 2 x) p) + slopes (Fx 2 x) (Fy 2 x) (Gx 2 x) (Gy 2 x) p| := by ring_nf
      _ ≤ _ := (abs_add_le _ _).trans (add_le_add this.1 this.2)
      _ = _ := by ring
  rw [← mul_sub, abs_mul, abs_of_nonneg (div_nonneg (triArea_pos hg he).le (by norm_num)), ← sum_sub_distrib]
  have e1 : ∀ p : Fin 3, |∑ q, slopes a b c c' p * slot m pn k e (fun l => ab l p q) * eps m k d q - ∑ q, slopes a b c c' p * slot m pn k e (fun l => ab l p q) * eps m k z q| ≤
      2 * (S + η) ^ 2 * L0 * ∑ q, |eps m k (fun i => d i - z i) q| := fun p => by
    rw [← sum_sub_distrib, mul_sum]
    refine (abs_sum_le_sum_abs _ _).trans (sum_le_sum fun q _ => ?_)
    rw [eps_sub, ← mul_sub, abs_mul, abs_mul]
    exact mul_le_mul_of_nonneg_right (mul_le_mul (hsl p) (hL p q) (abs_nonneg _) (by positivity)) (abs_nonneg _)
  have e2 := (abs_sum_le_sum_abs _ _).trans (sum_le_sum fun p (_ : p ∈ univ) => e1 p)
  rw [sum_const, card_univ, Fintype.card_fin, nsmul_eq_mul] at e2
  refine (mul_le_mul_of_nonneg_left e2 (div_nonneg (triArea_pos hg he).le (by norm_num))).trans (le_of_eq ?_)
  push_cast
  ring

/-- the smoothed strains, integrated, against the energy -/
theorem eps_mean (w : WF m) (hp : Proper m) (hg : Planar m) {pn : Bool} (hh : HasProps m pn) {c : ℝ} (hc : 0 < c) (hl : ∀ l, InUse m pn l → AtLeast c l) (v : ℕ → ℝ) :
    (m.ekeys.map fun k => |sarea m (dom m k)| * ∑ q, |eps m k v q|).sum ^ 2 ≤ 6 * totalArea m * (energy m pn v v / c) := by
  have h2 : c * (m.ekeys.map fun k => |sarea m (dom m k)| * ∑ p, eps m k v p ^ 2).sum ≤ energy m pn v v := by
    unfold energy
    rw [← List.sum_map_mul_left]
    refine List.sum_le_sum fun k hk => ?_
    have := mul_le_mul_of_nonneg_left (avg_least w hp hg hh hl hk (eps m k v)) (abs_nonneg (sarea m (dom m k)))
    linarith
  have h3 : (m.ekeys.map fun k => |sarea m (dom m k)| * ∑ p, eps m k v p ^ 2).sum ≤ energy m pn v v / c := by rw [le_div_iff₀ hc]; linarith
  have h4 : (m.ekeys.map fun k => |sarea m (dom m k)| * 1).sum = totalArea m := by
    rw [eps_thirds w hp hg]
    unfold totalArea
    congr 1
    refine List.map_congr_left fun e _ => ?_
    simp [Tria.edgeIds]; ring
  have h5 : ∀ L : List Key, (L.map fun k => |sarea m (dom m k)| * ∑ q, |eps m k v q|).sum ^ 2 ≤
      6 * (L.map fun k => |sarea m (dom m k)| * 1).sum * (L.map fun k => |sarea m (dom m k)| * ∑ p, eps m k v p ^ 2).sum := fun L => by
    induction L with
    | nil => simp
    | cons k L ih =>
      simp only [List.map_cons, List.sum_cons]
      have b1 : 0 ≤ (L.map fun k => |sarea m (dom m k)| * 1).sum := List.sum_nonneg fun y hy => by obtain ⟨k, _, rfl⟩ := List.mem_map.1 hy; positivity
      have b2 : 0 ≤ (L.map fun k => |sarea m (dom m k)| * ∑ p, eps m k v p ^ 2).sum := List.sum_nonneg fun y hy => by
        obtain ⟨k, _, rfl⟩ := List.mem_map.1 hy; exact mul_nonneg (abs_nonneg _) (Finset.sum_nonneg fun _ _ => sq_nonneg _)
      have b3 : (∑ q, |eps m k v q|) ^ 2 ≤ 6 * ∑ p, eps m k v p ^ 2 := by
        have := sum_mul_sq_le_sq_mul_sq univ (fun _ : Fin 6 => (1:ℝ)) fun q => |eps m k v q|
        simp only [one_mul, one_pow, sq_abs, sum_const, card_univ, Fintype.card_fin, nsmul_eq_mul, mul_one] at this
        exact_mod_cast this
      have b4 : 0 ≤ ∑ q, |eps m k v q| := Finset.sum_nonneg fun _ _ => abs_nonneg _
      have b5 : 0 ≤ ∑ p, eps m k v p ^ 2 := Finset.sum_nonneg fun _ _ => sq_nonneg _
      generalize (L.map fun k => |sarea m (dom m k)| * ∑ q, |eps m k v q|).sum = X at *
      generalize (L.map fun k => |sarea m (dom m k)| * 1).sum = Y at *
      generalize (L.map fun k => |sarea m (dom m k)| * ∑ p, eps m k v p ^ 2).sum = Z at *
      have ha := abs_nonneg (sarea m (dom m k))
      generalize |sarea m (dom m k)| = a at *
      generalize ∑ q, |eps m k v q| = x at *
      generalize ∑ p, eps m k v p ^ 2 = y at *
      have c1 : (x * X) ^ 2 ≤ (3 * (y * Y + Z)) ^ 2 := by
        have d1 : x ^ 2 * X ^ 2 ≤ 6 * y * (6 * Y * Z) := mul_le_mul b3 ih (sq_nonneg _) (by positivity)
        nlinarith [sq_nonneg (y * Y - Z)]
      have c2 := (le_abs_self _).trans (abs_le_of_sq_le_sq c1 (by positivity))
      have c3 := mul_le_mul_of_nonneg_left c2 ha
      have c4 := mul_le_mul_of_nonneg_left b3 (sq_nonneg a)
      linarith
  have := h5 m.ekeys
  rw [h4] at this
  have hT : 0 ≤ 6 * totalArea m := mul_nonneg (by norm_num) (List.sum_nonneg fun y hy => by obtain ⟨e, _, rfl⟩ := List.mem_map.1 hy; exact abs_nonneg _)
  exact this.trans (mul_le_mul_of_nonneg_left h3 hT)

end

/-- C134: The geometric stiffness made by `calc_kG` from the displacements computed for a load case, taken on the nodal values of smooth fields, differs from
the work of the membrane forces of the solution `D` of the plate theory at most by a constant times the size of the triangles (for the default method of the
size plus `1/(3·10^15)`, the error of a literal). The constant depends on bounds for the plate and the fields, not on the mesh. -/
theorem C134_rate {s L0 L1 c g tau H al κ A S M : ℝ} (hs0 : 0 ≤ s) (hL0 : 0 ≤ L0) (hL1 : 0 ≤ L1) (hc : 0 < c) (hg0 : 0 < g) (htau : 0 < tau) (hal : 0 ≤ al) (hκ : 0 ≤ κ) (hS : 0 ≤ S) (hM : 0 ≤ M) :
    ∃ C : ℝ, 0 ≤ C ∧ ∀ (m : Mesh) (pn : Bool) (l : ℝ × ℝ → Lam), Reachable m → SmoothPlate m pn l s L0 L1 c g tau → totalArea m ≤ A → ∀ h, 0 ≤ h → h ≤ H → Size m h →
      ∀ (method : String) (fa : Bool) (Sp : Set ℕ) (D Dx Dy : ℕ → ℝ × ℝ → ℝ) (K : Mat) (z f : ℕ → ℝ) (d : List ℝ), RotHeld m Sp κ → SmoothField m D Dx Dy S M →
      StaticProblem m pn l method al fa Sp D Dx Dy K z f (vec d) → d.length = 5 * m.nids.length → ∀ G, calcKG (calcK0 m pn).1 d pn = .ok G →
      ∀ (F Fx Fy F' Fx' Fy' : ℕ → ℝ × ℝ → ℝ) (v u : ℕ → ℝ), SmoothField m F Fx Fy S M → SmoothField m F' Fx' Fy' S M → Nodal m F v → Nodal m F' u →
      |form G.dim G.get v u - contGeometric m (fun _ => l) Dx Dy Fx Fy Fx' Fy'| ≤ C * (h + litErr method) := by
  obtain ⟨C, hC0, hC⟩ := C132_rate (H := H) (A := A) hs0 hL0 hL1 hc hg0 htau hal hκ hS hM
  obtain ⟨E, hE⟩ : ∃ E, E = (2 * s + 1) * M := ⟨_, rfl⟩
  have hE0 : 0 ≤ E := by rw [hE]; positivity
  obtain ⟨B, hB⟩ : ∃ B, B = 6 * (S + E * |H|) ^ 2 * L0 * √(6 * |A| * (C / c)) := ⟨_, rfl⟩
  obtain ⟨B', hB'⟩ : ∃ B, B = 72 * (L0 * E * ((2 * S + E * |H|) * (S + E * |H|) + S ^ 2) + 2 * S ^ 3 * L1) * |A| := ⟨_, rfl⟩
  have hB0 : 0 ≤ B := by rw [hB]; positivity
  have hB0' : 0 ≤ B' := by rw [hB']; positivity
  refine ⟨B + B', by positivity, fun m pn l hr hsp hA h h0 hhH hh method fa Sp D Dx Dy K z f d hrot hD hpr hd G hG F Fx Fy F' Fx' Fy' v u hF hF' hv hu => ?_⟩
  obtain ⟨h1, _⟩ := hC m pn l hr hsp hA h h0 hhH hh method fa Sp D Dx Dy K z f (vec d) hrot hD hpr
  obtain ⟨K0, hK0, _⟩ := hpr.stiff.made
  obtain ⟨ss, _, hh', _⟩ := calcK0_ok hr.wf hK0
  have hp := hsp.good.proper
  have hg := hsp.good.planar
  have hH := hhH.trans (le_abs_self H)
  have hA' := hA.trans (le_abs_self A)
  have hl0 := (litErr_nonneg method).1
  have ht : 0 ≤ totalArea m := List.sum_nonneg fun y hy => by obtain ⟨e, _, rfl⟩ := List.mem_map.1 hy; exact abs_nonneg _
  have e0 : form G.dim G.get v u = geometric m pn (vec d) v u := by
    have := C29_energy (.intro m hr pn K0 hK0 [] (by simp)) (ss.proper hp) (ss.planar hg) (ss.hasProps hh') (by rw [hd]; exact congrArg _ (congrArg _ ss.nids.symm)) hG v u
    rw [this]
    exact congrFun (congrFun (congrFun (congrFun ss.sgeometric pn) (vec d)) v) u
  have e1 := geometric_near hr.wf hp hg hsp.shape hh hL1 hsp.lam hsp.assigned hM hD hF hF' hpr.nodal hv hu
  have e2 := geometric_diff hr.wf hp hg hsp.shape hh hL1 hsp.lam hsp.assigned hM hF hF' (d := vec d) (z := z) hv hu
  have e3 := eps_mean hr.wf hp hg hh' hc hsp.stiff fun i => vec d i - z i
  obtain ⟨_, _, hsplit⟩ := stiffness_split hr hsp.good hpr.stiff
  have e4 : energy m pn (fun i => vec d i - z i) (fun i => vec d i - z i) ≤ C * (h + litErr method) ^ 2 := by
    have := (shearEnergy_zero hr.wf ((SameStatic.refl m).flatMesh hg) hh' hsp.good.shear hal fa (g := methodGamma m method) (v := fun i => vec d i - z i)).1
    rw [hsplit] at h1
    linarith
  have e5 : (m.ekeys.map fun k => |sarea m (dom m k)| * ∑ q, |eps m k (fun i => vec d i - z i) q|).sum ≤ √(6 * |A| * (C / c)) * (h + litErr method) := by
    have q1 : 6 * totalArea m * (energy m pn (fun i => vec d i - z i) (fun i => vec d i - z i) / c) ≤ 6 * |A| * (C / c) * (h + litErr method) ^ 2 := by
      have := mul_le_mul (mul_le_mul_of_nonneg_left hA' (by norm_num : (0:ℝ) ≤ 6)) (div_le_div_of_nonneg_right e4 hc.le)
        (div_nonneg (energy_zero_eps hr.wf hp hg hh' hsp.good.abd).1 hc.le) (by positivity)
      refine this.trans (le_of_eq ?_)
      ring
    have q2 := Real.le_sqrt_of_sq_le (e3.trans q1)
    rwa [Real.sqrt_mul (by positivity), Real.sqrt_sq (by positivity)] at q2
  have hEh : E * h ≤ E * |H| := mul_le_mul_of_nonneg_left hH hE0
  have hEh0 : 0 ≤ E * h := by positivity
  rw [← hE] at e1 e2
  have e6 : |geometric m pn (vec d) v u - geometric m pn z v u| ≤ B * (h + litErr method) := by
    refine e2.trans ?_
    have q1 := mul_le_mul_of_nonneg_left e5 (by positivity : 0 ≤ 6 * (S + E * h) ^ 2 * L0)
    have q2 : 6 * (S + E * h) ^ 2 * L0 ≤ 6 * (S + E * |H|) ^ 2 * L0 := by gcongr
    have q3 := mul_le_mul_of_nonneg_right q2 (by positivity : 0 ≤ √(6 * |A| * (C / c)) * (h + litErr method))
    refine q1.trans (q3.trans (le_of_eq ?_))
    rw [hB]; ring
  have e7 : |geometric m pn z v u - contGeometric m (fun _ => l) Dx Dy Fx Fy Fx' Fy'| ≤ B' * (h + litErr method) := by
    refine e1.trans ?_
    have q1 : 72 * (L0 * E * ((2 * S + E * h) * (S + E * h) + S ^ 2) + 2 * S ^ 3 * L1) ≤ 72 * (L0 * E * ((2 * S + E * |H|) * (S + E * |H|) + S ^ 2) + 2 * S ^ 3 * L1) := by gcongr
    have q2 := mul_le_mul q1 hA' ht (by positivity)
    rw [← hB'] at q2
    have q3 := mul_le_mul_of_nonneg_right q2 h0
    have q4 : 0 ≤ B' * litErr method := by positivity
    refine le_trans (le_of_eq ?_) (q3.trans (by linarith))
    ring
  rw [e0, add_mul]
  exact (abs_sub_le _ (geometric m pn z v u) _).trans (add_le_add e6 e7)

section
variable {Om : Set (ℝ × ℝ)} {l : ℝ × ℝ → Lam} {pn : Bool} {s : ℝ} {m : ℕ → Mesh} {L0 L1 c g tau : ℝ} {D Dx Dy F Fx Fy F' Fx' Fy' : ℕ → ℝ × ℝ → ℝ} {S M : ℝ}

/-- C134: refining the mesh, the geometric stiffness made from the displacements computed for the load case of the field `D` tends to the work of the membrane
forces of `D` on the slopes -/
theorem C134_limit (hr : ∀ n, Reachable (m n)) (hg : ∀ n, GoodPlate (m n) pn) (hR : Refined Om l pn s m) (hs0 : 0 ≤ s) (hL0 : 0 ≤ L0) (hL1 : 0 ≤ L1) (hl : LamOn Om l L0 L1) (hc0 : 0 < c) (hg0 : 0 < g)
    (htau : 0 < tau) (hc : ∀ x ∈ Om, AtLeast c (l x)) (hsh : ∀ x ∈ Om, ShearAtLeast g (l x)) (ht : ∀ x ∈ Om, tau ≤ (l x).h) {κ : ℝ} (hκ : 0 ≤ κ) {al : ℝ} (hal : 0 ≤ al) {fa : Bool}
    (hS : 0 ≤ S) (hM : 0 ≤ M) (hD : FieldOn Om D Dx Dy S M) (hF : FieldOn Om F Fx Fy S M) (hF' : FieldOn Om F' Fx' Fy' S M) {Sp : ℕ → Set ℕ} (hrot : ∀ n, RotHeld (m n) (Sp n) κ)
    {K G : ℕ → Mat} {z f : ℕ → ℕ → ℝ} {d : ℕ → List ℝ} (hd : ∀ n, (d n).length = 5 * (m n).nids.length)
    (hpr : ∀ n, StaticProblem (m n) pn l "cell-based-no-smoothing" al fa (Sp n) D Dx Dy (K n) (z n) (f n) (vec (d n)))
    (hG : ∀ n, calcKG (calcK0 (m n) pn).1 (d n) pn = .ok (G n)) {v u : ℕ → ℕ → ℝ} (hv : ∀ n, Nodal (m n) F (v n)) (hu : ∀ n, Nodal (m n) F' (u n)) :
    Tendsto (fun n => form (G n).dim (G n).get (v n) (u n)) atTop (nhds (plateGeometric Om l Dx Dy Fx Fy Fx' Fy')) := by
  obtain ⟨h, hh, h0⟩ := hR.size
  obtain ⟨C, hC0, hC⟩ := C134_rate (s := s) (L0 := L0) (L1 := L1) (c := c) (g := g) (tau := tau) (H := 1) (al := al) (κ := κ) (A := volume.real Om) (S := S) (M := M) hs0 hL0 hL1 hc0 hg0 htau hal hκ hS hM
  have h1 : Tendsto (fun n => C * |h n|) atTop (nhds 0) := by
    have : Continuous fun x : ℝ => C * |x| := by fun_prop
    exact (this.tendsto' 0 0 (by simp)).comp h0
  rw [tendsto_iff_dist_tendsto_zero]
  refine tendsto_of_tendsto_of_tendsto_of_le_of_le' tendsto_const_nhds h1 (Eventually.of_forall fun n => dist_nonneg) ?_
  have := h0.abs
  rw [abs_zero] at this
  filter_upwards [this.eventually_le_const zero_lt_one] with n hn
  have hsub := fun e (he : e ∈ (m n).eids) => (hR.tiles n).sub he
  have key := hC (m n) pn l (hr n) (refined_smooth hg hR hl hc hsh ht n) (hR.tiles n).area.le |h n| (abs_nonneg _) hn (fun e he => (hh n e he).trans (le_abs_self _)) "cell-based-no-smoothing" fa (Sp n)
    D Dx Dy (K n) (z n) (f n) (d n) (hrot n) (hD.smooth hsub) (hpr n) (hd n) (G n) (hG n) F Fx Fy F' Fx' Fy' (v n) (u n) (hF.smooth hsub) (hF'.smooth hsub) (hv n) (hu n)
  have e1 : litErr "cell-based-no-smoothing" = 0 := by unfold litErr; rw [if_neg (by decide)]
  rwa [e1, add_zero, contGeometric_plate (hR.tiles n) hl hD hF hF'] at key

/-- C134: The whole buckling analysis: static analysis under the reference load with supports `Sp`, geometric stiffness from the displacements computed,
buckling factors with supports `Sb`. Refining the mesh, the first buckling factor does not stay above that of the plate theory: for every smooth field `F`
compatible with the supports on which the membrane forces of the solution `D` do negative work, fine meshes have a first buckling factor, and it is in the
limit at most the quotient of the energies of `F`. -/
theorem C134_factor (hr : ∀ n, Reachable (m n)) (hg : ∀ n, GoodPlate (m n) pn) (hR : Refined Om l pn s m) (hs0 : 0 ≤ s) (hL0 : 0 ≤ L0) (hL1 : 0 ≤ L1) (hl : LamOn Om l L0 L1) (hc0 : 0 < c) (hg0 : 0 < g)
    (htau : 0 < tau) (hc : ∀ x ∈ Om, AtLeast c (l x)) (hsh : ∀ x ∈ Om, ShearAtLeast g (l x)) (ht : ∀ x ∈ Om, tau ≤ (l x).h) {κ : ℝ} (hκ : 0 ≤ κ) {al : ℝ} (hal : 0 ≤ al) {fa : Bool}
    (hS : 0 ≤ S) (hM : 0 ≤ M) (hD : FieldOn Om D Dx Dy S M) (hF : FieldOn Om F Fx Fy S M) {Sp Sb : ℕ → Set ℕ} (hrot : ∀ n, RotHeld (m n) (Sp n) κ)
    {K G : ℕ → Mat} {z f : ℕ → ℕ → ℝ} {d : ℕ → List ℝ} (hd : ∀ n, (d n).length = 5 * (m n).nids.length)
    (hpr : ∀ n, StaticProblem (m n) pn l "cell-based-no-smoothing" al fa (Sp n) D Dx Dy (K n) (z n) (f n) (vec (d n)))
    (hG : ∀ n, calcKG (calcK0 (m n) pn).1 (d n) pn = .ok (G n)) (hSb : ∀ n, Stable (K n) (Sb n)) {v : ℕ → ℕ → ℝ} (hv : ∀ n, Nodal (m n) F (v n))
    (hvS : ∀ n, Supported (K n).dim (Sb n) (v n)) (hneg : plateGeometric Om l Dx Dy Fx Fy Fx Fy < 0) {ε : ℝ} (hε : 0 < ε) :
    ∀ᶠ n in atTop, ∃ b, 0 < b ∧ (∃ x, BucklingMode (K n) (G n) (Sb n) b x) ∧ (∀ b' x, 0 < b' → BucklingMode (K n) (G n) (Sb n) b' x → b ≤ b') ∧
      b ≤ (plateEnergy Om l Fx Fy Fx Fy + plateShear Om l F Fx Fy F Fx Fy) / -plateGeometric Om l Dx Dy Fx Fy Fx Fy + ε := by
  have t1 := C122_stiffness hr hR hL1 hl htau ht hal hM hF hF (fun n => (hpr n).stiff) hv hv
  have t2 := C134_limit hr hg hR hs0 hL0 hL1 hl hc0 hg0 htau hc hsh ht hκ hal hS hM hD hF hF hrot hd hpr hG hv hv
  have t3 := t1.div t2.neg (by linarith : -plateGeometric Om l Dx Dy Fx Fy Fx Fy ≠ 0)
  have hdim : ∀ n, (G n).dim = (K n).dim := fun n => by
    rw [(calcKG_sum (hG n)).1, (stiffness_energy (hr n) (hg n) (hpr n).stiff).1, hd n]
    omega
  filter_upwards [t2.eventually_lt_const hneg, t3.eventually_lt_const (show _ < (plateEnergy Om l Fx Fy Fx Fy + plateShear Om l F Fx Fy F Fx Fy) / -plateGeometric Om l Dx Dy Fx Fy Fx Fy + ε by linarith)] with n h1 h2
  rw [hdim n] at h1
  obtain ⟨c, c1, c2, c3, c4⟩ := C86_first (hr n) (hg n) (hpr n).stiff (hSb n) (hG n) (hvS n) h1
  refine ⟨c, c1, c2, c3, ?_⟩
  rw [Pi.div_apply, hdim n] at h2
  linarith

end

/-! ### concrete case -/

/-- the edge `x = 0` clamped, rotations held along the whole border -/
def gridPress (k : ℕ) : Set ℕ := gridEdge k ∪ {p | p ∈ gridBorder k ∧ 3 ≤ p % 5}

theorem press_supported {k : ℕ} (b : ℝ) (N : ℕ) : Supported N (gridPress k) (gridVals k fun r x => (if r = 0 then b else 0) * x.1) := by
  intro p hN hp
  rcases hp with hp | hp
  · exact linear_supported (fun r => if r = 0 then b else 0) N p hN hp
  · have : ¬ p % 5 = 0 := fun h => by have := hp.2; omega
    simp [gridVals, this]

/-- Pushing the unit square, clamped along `x = 0`, together along `x`, the whole analysis: displacements of the load, geometric stiffness from these,
buckling. Comparing with shearing across, the first buckling factor is in the limit at most 1. -/
example (pn : Bool) : ∃ (m : ℕ → Mesh) (K G : ℕ → Mat) (f : ℕ → ℕ → ℝ) (d : ℕ → List ℝ), (∀ n, GridMesh (n + 1) (fun _ => exIso) pn (m n)) ∧
    (∀ n, StaticProblem (m n) pn (fun _ => exIso) "cell-based-no-smoothing" (1 / 10) false (gridPress (n + 1)) (fun r x => (if r = 0 then -1 else 0) * x.1) (fun r _ => if r = 0 then -1 else 0)
      (fun _ _ => 0) (K n) (gridVals (n + 1) fun r x => (if r = 0 then -1 else 0) * x.1) (f n) (vec (d n))) ∧
    (∀ n, calcKG (calcK0 (m n) pn).1 (d n) pn = .ok (G n)) ∧
    ∀ ε > 0, ∀ᶠ n in atTop, ∃ c, 0 < c ∧ (∃ x, BucklingMode (K n) (G n) (gridEdge (n + 1)) c x) ∧ c ≤ 1 + ε := by
  choose m h using fun n => gridMesh_exists (Nat.succ_pos n) (fun _ => exLam_stiff one_pos one_pos one_pos one_pos) pn
  choose K0 K hK0 hK hG using fun n => (h n).made (Or.inr rfl) (1 / 10) false
  have hc : ∀ x ∈ unitSquare, AtLeast 1 ((fun _ => exIso : ℝ × ℝ → Lam) x) := fun _ _ => exLam_least le_rfl le_rfl
  have hsh : ∀ x ∈ unitSquare, ShearAtLeast 1 ((fun _ => exIso : ℝ × ℝ → Lam) x) := fun _ _ => exIso_shearLeast
  have hth : ∀ x ∈ unitSquare, 1 ≤ ((fun _ => exIso : ℝ × ℝ → Lam) x).h := fun _ _ => le_rfl
  have hR := grid_refined h
  have hD := linear_on (fun r => if r = 0 then -1 else 0) (B := 1) (M := 1) (fun r _ => by split <;> simp) zero_le_one
  have hF := linear_on (fun r => if r = 2 then 1 else 0) (B := 1) (M := 1) (fun r _ => by split <;> simp) zero_le_one
  choose f hf using fun n => C132_loads (h n).reach (h n).good.proper (refined_smooth (fun n => (h n).good) hR exUniform_on hc hsh hth n).lam (hD.smooth fun e he => (hR.tiles n).sub he)
  have hheld : ∀ n, Held (m n) (gridPress (n + 1)) := fun n => by
    obtain ⟨i, hi, j, hj, h1⟩ := (h n).held (Nat.succ_pos n)
    refine ⟨i, hi, j, hj, ?_⟩
    rcases h1 with ⟨a, b⟩ | ⟨a, b⟩
    · exact Or.inl ⟨a, fun r hr => ⟨Or.inl (b r hr).1, Or.inl (b r hr).2⟩⟩
    · exact Or.inr ⟨a, fun r hr => ⟨Or.inl (b r hr).1, Or.inl (b r hr).2⟩⟩
  choose d hd hu using fun n => C76_static (h n).reach (h n).good (by norm_num) (hK n) (hheld n) (f n)
  have hv : ∀ n, ∀ i < (K n).dim, vec ((List.range (K n).dim).map (d n)) i = d n i := fun n i hi => vec_listed hi
  have hsol : ∀ n, StaticSol (K n) (gridPress (n + 1)) (f n) (vec ((List.range (K n).dim).map (d n))) := fun n => by
    refine ⟨fun i hi hS => by rw [hv n i hi]; exact (hd n).1 i hi hS, fun i hi hS => ?_⟩
    rw [← (hd n).2 i hi hS]
    exact sum_congr rfl fun j hj => by rw [hv n j (mem_range.1 hj)]
  have hlen : ∀ n, ((List.range (K n).dim).map (d n)).length = 5 * (m n).nids.length := fun n => by
    rw [List.length_map, List.length_range, (h n).dim (hK n), (h n).count]
  choose G hG using fun n => hG n _ (hlen n)
  have hpr : ∀ n, StaticProblem (m n) pn (fun _ => exIso) "cell-based-no-smoothing" (1 / 10) false (gridPress (n + 1)) (fun r x => (if r = 0 then -1 else 0) * x.1) (fun r _ => if r = 0 then -1 else 0)
      (fun _ _ => 0) (K n) (gridVals (n + 1) fun r x => (if r = 0 then -1 else 0) * x.1) (f n) (vec ((List.range (K n).dim).map (d n))) := fun n =>
    ⟨hK n, (h n).nodal _, press_supported _ _, hf n _, hsol n⟩
  have hrot : ∀ n, RotHeld (m n) (gridPress (n + 1)) (2 + 96 * 1 ^ 2) := fun n =>
    clamped_rotHeld (h n).reach.wf (h n).good.proper (h n).good.planar ⟨0, fun e he i hi => by
      obtain ⟨⟨h1, h2⟩, h3, h4⟩ := mem_unitSquare.1 ((hR.tiles n).sub he (pt_mem_hull hi))
      rw [sub_zero]
      exact (abs_of_nonneg h1).trans_le h3⟩ fun k hk h1 i hi => by
        have := (h n).clamped k hk h1 i hi
        exact ⟨Or.inr ⟨this 3 (by norm_num), by omega⟩, Or.inr ⟨this 4 (by norm_num), by omega⟩⟩
  refine ⟨m, K, G, f, _, h, hpr, hG, fun ε hε => ?_⟩
  have e := linear_geometric (fun r => if r = 0 then -1 else 0) (fun r => if r = 2 then 1 else 0)
  have := C134_factor (fun n => (h n).reach) (fun n => (h n).good) hR (by norm_num) zero_le_one le_rfl exUniform_on one_pos one_pos one_pos hc hsh hth (by norm_num) (by norm_num) zero_le_one zero_le_one
    hD hF hrot hlen hpr hG (fun n => held_stable (h n).reach (h n).good (by norm_num) (hK n) ((h n).held (Nat.succ_pos n))) (fun n => (h n).nodal _)
    (fun n => linear_supported (fun r => if r = 2 then 1 else 0) _) (by rw [e]; norm_num) hε
  filter_upwards [this] with n hn
  obtain ⟨c, c1, c2, _, c4⟩ := hn
  rw [e, linear_energy (a := fun r => if r = 2 then 1 else 0) (by simp) (by simp), linear_shear (a := fun r => if r = 2 then 1 else 0) (by simp) (by simp)] at c4
  refine ⟨c, c1, c2, c4.trans (le_of_eq ?_)⟩
  norm_num

end Meshless
