import Verif.Lemmas.PlateMode
import Verif.Props.Slope
import Verif.Props.Modal

/-! Buckling modes of the plate theory are limits of computed ones. -/

set_option autoImplicit false

namespace Meshless
open Spec Finset MeasureTheory Filter Topology Real

section
variable {m : Mesh} {Om : Set (ℝ × ℝ)} {l : ℝ × ℝ → Lam} {Dx Dy F Fx Fy : ℕ → ℝ × ℝ → ℝ} {lam : ℝ} {S : Set ℕ}

/-- C147: a solution of the buckling equations of the plate theory with free or supported edges fulfils the principle of virtual work on every mesh -/
theorem C147_weak (hr : Reachable m) (hp : Proper m) (hg : Planar m) (hsub : ∀ e ∈ m.eids, hull m e ⊆ Om) (hB : BucklingField Om l Dx Dy F Fx Fy lam) (hq : FreeRim m l Dx Dy F Fx Fy lam S) :
    WeakMode m l Dx Dy F Fx Fy lam S := by
  intro v hv
  have w := hr.wf
  obtain ⟨Xx, Xy, Yx, Yy, Px, Py, Rx, Ry, dP, dR, ⟨c1, c2, c3, c4⟩, hE⟩ := hB
  have h := fun e he => hE.mono (hsub e he)
  obtain ⟨X, hX⟩ : ∃ X : ℕ → ℝ × ℝ → ℝ, X = fun r x => forceX l F Fx Fy r x + if r = 2 then lam * preX l Dx Dy Fx Fy x else 0 := ⟨_, rfl⟩
  obtain ⟨Y, hY⟩ : ∃ Y : ℕ → ℝ × ℝ → ℝ, Y = fun r x => forceY l F Fx Fy r x + if r = 2 then lam * preY l Dx Dy Fx Fy x else 0 := ⟨_, rfl⟩
  obtain ⟨XX, hXX⟩ : ∃ X : ℕ → ℝ × ℝ → ℝ, X = fun r x => Xx r x + if r = 2 then lam * Px x else 0 := ⟨_, rfl⟩
  obtain ⟨XY, hXY⟩ : ∃ X : ℕ → ℝ × ℝ → ℝ, X = fun r x => Xy r x + if r = 2 then lam * Py x else 0 := ⟨_, rfl⟩
  obtain ⟨YX, hYX⟩ : ∃ X : ℕ → ℝ × ℝ → ℝ, X = fun r x => Yx r x + if r = 2 then lam * Rx x else 0 := ⟨_, rfl⟩
  obtain ⟨YY, hYY⟩ : ∃ X : ℕ → ℝ × ℝ → ℝ, X = fun r x => Yy r x + if r = 2 then lam * Ry x else 0 := ⟨_, rfl⟩
  have dX : ∀ e ∈ m.eids, ∀ r < 5, ∀ x ∈ hull m e, HasFDerivWithinAt (X r) (XX r x • ContinuousLinearMap.fst ℝ ℝ ℝ + XY r x • ContinuousLinearMap.snd ℝ ℝ ℝ) (hull m e) x := fun e he r hr x hx => by
    have a := (h e he).derivX r hr x hx
    have b := ((dP x (hsub e he hx)).mono (hsub e he)).const_mul lam
    rw [hX, hXX, hXY]
    by_cases h2 : r = 2
    · simp only [if_pos h2]
      refine (a.add b).congr_fderiv ?_
      simp only [smul_add, smul_smul, add_smul]; abel
    · simp only [if_neg h2, add_zero]; exact a
  have dY : ∀ e ∈ m.eids, ∀ r < 5, ∀ x ∈ hull m e, HasFDerivWithinAt (Y r) (YX r x • ContinuousLinearMap.fst ℝ ℝ ℝ + YY r x • ContinuousLinearMap.snd ℝ ℝ ℝ) (hull m e) x := fun e he r hr x hx => by
    have a := (h e he).derivY r hr x hx
    have b := ((dR x (hsub e he hx)).mono (hsub e he)).const_mul lam
    rw [hY, hYX, hYY]
    by_cases h2 : r = 2
    · simp only [if_pos h2]
      refine (a.add b).congr_fderiv ?_
      simp only [smul_add, smul_smul, add_smul]; abel
    · simp only [if_neg h2, add_zero]; exact a
  have cont : ∀ e ∈ m.eids, ∀ r < 5, ContinuousOn (XX r) (hull m e) ∧ ContinuousOn (XY r) (hull m e) ∧ ContinuousOn (YX r) (hull m e) ∧ ContinuousOn (YY r) (hull m e) := fun e he r hr => by
    obtain ⟨a, b, c, d⟩ := (h e he).cont r hr
    rw [hXX, hXY, hYX, hYY]
    by_cases h2 : r = 2
    · simp only [if_pos h2]
      exact ⟨a.add ((c1.mono (hsub e he)).const_mul _), b.add ((c2.mono (hsub e he)).const_mul _), c.add ((c3.mono (hsub e he)).const_mul _), d.add ((c4.mono (hsub e he)).const_mul _)⟩
    · simp only [if_neg h2, add_zero]; exact ⟨a, b, c, d⟩
  have cX : ∀ e ∈ m.eids, ∀ r < 5, ContinuousOn (X r) (hull m e) := fun e he r hr x hx => (dX e he r hr x hx).continuousWithinAt
  have cY : ∀ e ∈ m.eids, ∀ r < 5, ContinuousOn (Y r) (hull m e) := fun e he r hr x hx => (dY e he r hr x hx).continuousWithinAt
  have cg : ∀ e ∈ m.eids, ∀ r < 5, ContinuousOn (fun x => X r x * gradX m (tpoly m e) (disp m v r) + Y r x * gradY m (tpoly m e) (disp m v r) + (XX r x + YY r x) * lin m e (disp m v r) x) (hull m e) := fun e he r hr =>
    (((cX e he r hr).mul continuousOn_const).add ((cY e he r hr).mul continuousOn_const)).add (((cont e he r hr).1.add (cont e he r hr).2.2.2).mul (lin_cont _).continuousOn)
  have hcomm : ∀ {α : Type} (L : List α) (G : ℕ → α → ℝ), (L.map fun e => ∑ r ∈ range 5, G r e).sum = ∑ r ∈ range 5, (L.map (G r)).sum := by
    intro α L G
    induction L with
    | nil => simp
    | cons a L ih => simp only [List.map_cons, List.sum_cons, ih, sum_add_distrib]
  have cPX : ∀ e ∈ m.eids, ContinuousOn (preX l Dx Dy Fx Fy) (hull m e) := fun e he x hx => ((dP x (hsub e he hx)).mono (hsub e he)).continuousWithinAt
  have cPY : ∀ e ∈ m.eids, ContinuousOn (preY l Dx Dy Fx Fy) (hull m e) := fun e he x hx => ((dR x (hsub e he hx)).mono (hsub e he)).continuousWithinAt
  have cp : ∀ e ∈ m.eids, ContinuousOn (fun x => preX l Dx Dy Fx Fy x * gradX m (tpoly m e) (disp m v 2) + preY l Dx Dy Fx Fy x * gradY m (tpoly m e) (disp m v 2)) (hull m e) := fun e he =>
    ((cPX e he).mul continuousOn_const).add ((cPY e he).mul continuousOn_const)
  have h1 : virtualWork m l F Fx Fy v + lam * preWork m l Dx Dy Fx Fy v = (m.eids.map fun e => ∑ r ∈ range 5, ∫ x in hull m e,
      (X r x * gradX m (tpoly m e) (disp m v r) + Y r x * gradY m (tpoly m e) (disp m v r) + (XX r x + YY r x) * lin m e (disp m v r) x)).sum := by
    unfold virtualWork preWork
    rw [← List.sum_map_mul_left, ← List.sum_map_add]
    refine congrArg List.sum (List.map_congr_left fun e he => ?_)
    have ip : IntegrableOn (fun x => lam * (preX l Dx Dy Fx Fy x * gradX m (tpoly m e) (disp m v 2) + preY l Dx Dy Fx Fy x * gradY m (tpoly m e) (disp m v 2))) (hull m e) :=
      ((cp e he).const_mul lam).integrableOn_compact (hull_compact m e)
    have ig : IntegrableOn (fun x => ∑ r ∈ range 5, (X r x * gradX m (tpoly m e) (disp m v r) + Y r x * gradY m (tpoly m e) (disp m v r) + (XX r x + YY r x) * lin m e (disp m v r) x)) (hull m e) :=
      (continuousOn_finsetSum _ fun r hr => cg e he r (mem_range.1 hr)).integrableOn_compact (hull_compact m e)
    rw [← integral_finsetSum _ fun r hr => (cg e he r (mem_range.1 hr)).integrableOn_compact (hull_compact m e), ← integral_const_mul, ← eq_sub_iff_add_eq, ← integral_sub ig ip]
    refine setIntegral_congr_fun (hull_measurable m e) fun x hx => ?_
    rw [work_point (h e he) e v hx, hX, hY, hXX, hYY]
    simp only [sum_range_succ, range_zero, sum_empty, Nat.reduceEqDiff, if_false, if_true, add_zero, zero_add, zero_mul, OfNat.zero_ne_ofNat, OfNat.one_ne_ofNat]
    ring
  rw [h1, hcomm]
  have h2 : ∀ r ∈ range 5, _ = _ := fun r hr => mesh_parts w hp hg (fun e he => dX e he r (mem_range.1 hr)) (fun e he => dY e he r (mem_range.1 hr))
    (fun e he => cont e he r (mem_range.1 hr)) (disp m v r)
  rw [sum_congr rfl h2]
  refine sum_eq_zero fun r hr => List.sum_eq_zero fun y hy => ?_
  obtain ⟨k, hk, rfl⟩ := List.mem_map.1 hy
  split_ifs with hb
  · obtain ⟨e, ht⟩ := List.length_eq_one_iff.1 hb
    rw [ht]
    simp only [List.map_cons, List.map_nil, List.sum_cons, List.sum_nil, add_zero]
    obtain ⟨he, c1, c2⟩ := edge_tria w hp hk (t := e) (by rw [ht]; simp)
    have i1 := List.idxOf_lt_length_iff.2 (corner_mem w hp.distinct he c1)
    have i2 := List.idxOf_lt_length_iff.2 (corner_mem w hp.distinct he c2)
    have hr := mem_range.1 hr
    obtain ⟨nu, hn, n1, n2⟩ := edgeNormal w hp hg hk ht
    unfold sideFlow
    rw [← intervalIntegral.integral_const_mul]
    rcases hq k hk e ht nu hn r hr with hS | hS
    · have z1 : disp m v r k.1 = 0 := hv (5 * m.nids.idxOf k.1 + r) (by omega) hS.1
      have z2 : disp m v r k.2 = 0 := hv (5 * m.nids.idxOf k.2 + r) (by omega) hS.2
      simp [z1, z2]
    · rw [intervalIntegral.integral_of_le zero_le_one, integral_Ioc_eq_integral_Ioo]
      refine setIntegral_eq_zero_of_forall_eq_zero fun t ht => ?_
      have h1 := hS t ht
      rw [hX, hY]
      unfold sidePt at h1
      beta_reduce
      generalize (forceX l F Fx Fy r (pt m k.1 + t • (pt m k.2 - pt m k.1)) + if r = 2 then lam * preX l Dx Dy Fx Fy (pt m k.1 + t • (pt m k.2 - pt m k.1)) else 0) = a at h1 ⊢
      generalize (forceY l F Fx Fy r (pt m k.1 + t • (pt m k.2 - pt m k.1)) + if r = 2 then lam * preY l Dx Dy Fx Fy (pt m k.1 + t • (pt m k.2 - pt m k.1)) else 0) = b at h1 ⊢
      linear_combination ((1 - t) * disp m v r k.1 + t * disp m v r k.2) * (a * n1 - b * n2) + ((1 - t) * disp m v r k.1 + t * disp m v r k.2) * sideLen m k * h1
  · rfl

end

/-- a stable structure has a solution for every load -/
theorem stable_solution {K : Mat} {S : Set ℕ} (hsym : ∀ i < K.dim, ∀ j < K.dim, K.get i j = K.get j i) (hS : Stable K S) (f : ℕ → ℝ) : ∃ d, StaticSol K S f d := by
  classical
  obtain ⟨_, p, μ, hm⟩ := modal_exists (G := K.get) hsym hsym S hS
  refine ⟨fun i => ∑ a, (∑ j ∈ range K.dim, f j * p a j) * p a i, fun i hi hi' => Finset.sum_eq_zero fun a _ => by rw [hm.sup a i hi hi', mul_zero], fun i hi hi' => ?_⟩
  have hs : Supported K.dim S (fun j => if j = i then 1 else 0) := fun j _ hj => if_neg fun (h : j = i) => hi' (h ▸ hj)
  have ex := fun j (hj : j < K.dim) => hm.expand _ hs j hj
  have row : ∀ u : ℕ → ℝ, form K.dim K.get u (fun j => if j = i then 1 else 0) = ∑ j ∈ range K.dim, K.get i j * u j := fun u => by
    unfold form
    refine Finset.sum_congr rfl fun j hj => ?_
    simp only [mul_ite, mul_one, mul_zero, Finset.sum_ite_eq', mem_range, hi, if_true]
    rw [hsym _ (mem_range.1 hj) _ hi]; ring
  have e1 : f i = ∑ j ∈ range K.dim, f j * ∑ a, (∑ k ∈ range K.dim, K.get i k * p a k) * p a j := by
    have : f i = ∑ j ∈ range K.dim, f j * (if j = i then 1 else 0) := by simp [hi]
    rw [this]
    refine Finset.sum_congr rfl fun j hj => ?_
    rw [ex j (mem_range.1 hj)]
    simp only [row]
  rw [e1]
  simp only [mul_sum, sum_mul]
  rw [Finset.sum_comm]
  rw [Finset.sum_comm (s := range K.dim) (t := univ)]
  refine Finset.sum_congr rfl fun a _ => ?_
  rw [Finset.sum_comm]
  exact Finset.sum_congr rfl fun j _ => Finset.sum_congr rfl fun k _ => by ring

/-- the data of a buckling calculation beside a mode of the plate theory: matrices of the mesh, supports, the mode `F` with its nodal values `z`, the displacements `d` the
geometric stiffness is made of -/
structure Spec.ModeProblem (m : Mesh) (pn : Bool) (l : ℝ × ℝ → Lam) (method : String) (al : ℝ) (fa : Bool) (S : Set ℕ) (Dx Dy F Fx Fy : ℕ → ℝ × ℝ → ℝ) (lam : ℝ) (K G : Mat) (z : ℕ → ℝ) (d : List ℝ) : Prop where
  stiff : Stiffness m pn method al fa K
  stable : Stable K S
  weak : WeakMode m l Dx Dy F Fx Fy lam S
  nodal : Nodal m F z
  supp : Supported K.dim S z
  len : d.length = 5 * m.nids.length
  geo : calcKG (calcK0 m pn).1 d pn = .ok G

set_option maxHeartbeats 1000000 in
/-- C147: a mode of the plate theory nearly solves the eigenproblem assembled on a mesh; the pre-stress may be the nodal values of the state `D` or computed displacements
close to them in energy. The constant does not depend on the mesh. -/
theorem C147_residual {s L0 L1 c g tau H al κ A B M E Lm : ℝ} (hs0 : 0 ≤ s) (hL0 : 0 ≤ L0) (hL1 : 0 ≤ L1) (hc : 0 < c) (hg0 : 0 < g) (htau : 0 < tau) (hal : 0 ≤ al) (hκ : 0 ≤ κ) (hB : 0 ≤ B) (hM : 0 ≤ M)
    (hE : 0 ≤ E) : ∃ C : ℝ, 0 ≤ C ∧ ∀ (m : Mesh) (pn : Bool) (l : ℝ × ℝ → Lam), Reachable m → SmoothPlate m pn l s L0 L1 c g tau → totalArea m ≤ A → ∀ h, 0 ≤ h → h ≤ H → Size m h →
      ∀ (method : String) (fa : Bool) (S : Set ℕ) (D Dx Dy F Fx Fy : ℕ → ℝ × ℝ → ℝ) (lam : ℝ) (K G : Mat) (z d' : ℕ → ℝ) (d : List ℝ), RotHeld m S κ → SmoothField m D Dx Dy B M → SmoothField m F Fx Fy B M →
      |lam| ≤ Lm → ModeProblem m pn l method al fa S Dx Dy F Fx Fy lam K G z d → Nodal m D d' → form K.dim K.get (fun i => vec d i - d' i) (fun i => vec d i - d' i) ≤ E * (h + litErr method) ^ 2 →
      ∀ v, Supported K.dim S v → (form K.dim K.get v z + lam * form K.dim G.get v z) ^ 2 ≤ C * (h + litErr method) ^ 2 * form K.dim K.get v v := by
  obtain ⟨C1, hC1, h1⟩ := C132_rate (H := H) (A := A) hs0 hL0 hL1 hc hg0 htau hal hκ hB hM
  obtain ⟨C2, hC2, h2⟩ := C146_slopes (L0 := L0) (L1 := L1) (H := H) hs0 hc hg0 htau hal hκ
  obtain ⟨e, he⟩ : ∃ e, e = (2 * s + 1) * M := ⟨_, rfl⟩
  have he0 : 0 ≤ e := by rw [he]; positivity
  obtain ⟨b1, hb1⟩ : ∃ b, b = 6 * (L0 * (2 * e) + 2 * B * (3 * L1)) := ⟨_, rfl⟩
  have hb10 : 0 ≤ b1 := by rw [hb1]; positivity
  obtain ⟨b, hb⟩ : ∃ b, b = 2 * ((B + e * |H|) * b1 + 6 * (2 * B * L0) * e) := ⟨_, rfl⟩
  have hb0 : 0 ≤ b := by rw [hb]; positivity
  obtain ⟨Q, hQ⟩ : ∃ Q, Q = 2 * ((2 * (L0 * (B + e * |H|))) ^ 2 * (12 * (E / c) * C2)) + 2 * (b ^ 2 * (2 * |A| * C2)) := ⟨_, rfl⟩
  have hQ0 : 0 ≤ Q := by rw [hQ]; positivity
  refine ⟨2 * C1 + 2 * (Lm ^ 2 * Q), by positivity, fun m pn l hr hsp hA h h0 hhH hh method fa S D Dx Dy F Fx Fy lam K G z d' d hrot hD hF hlam ⟨hK, hS, hweak, hz, hzS, hd, hG⟩ hd' hdd v hv => ?_⟩
  have w := hr.wf
  have hg := hsp.good
  have hH0 : 0 ≤ H := h0.trans hhH
  obtain ⟨hdim, hhp, hform⟩ := stiffness_split hr hg hK
  have hsym := C78_symmetric hr hg hK
  have hpos : ∀ v, 0 ≤ form K.dim K.get v v := fun v => (modes_total hr hg hal hK (d := v)).1
  have hv' : ∀ i < 5 * m.nids.length, i ∈ S → v i = 0 := fun i hi hi' => hv i (hdim ▸ hi) hi'
  obtain ⟨f, hf⟩ := C132_loads hr hg.proper hsp.lam hF
  obtain ⟨u, hu⟩ := stable_solution hsym hS f
  obtain ⟨r1, _⟩ := h1 m pn l hr hsp hA h h0 hhH hh method fa S F Fx Fy K z f u hrot hF ⟨hK, hz, hzS, hf S, hu⟩
  have r2 := h2 m pn l hr hsp hH0 (fun e he => (hh e he).trans hhH) method fa S K v hrot hK hv
  obtain ⟨ε, hε⟩ : ∃ ε, ε = h + litErr method := ⟨_, rfl⟩
  have hhε : h ≤ ε := by rw [hε]; linarith [(litErr_nonneg method).1]
  rw [← hε] at r1 hdd ⊢
  have e1 : form K.dim K.get v u = virtualWork m l F Fx Fy v := by rw [form_load hu hv, ← hf S v hv', hdim]
  have e2 : form K.dim G.get v z = geometric m pn (vec d) z v := by
    obtain ⟨K0, hK0, _⟩ := hK.made
    obtain ⟨ss, _, hh', _⟩ := calcK0_ok hr.wf hK0
    have hGd : G.dim = K.dim := by rw [(calcKG_sum hG).1, hdim]; omega
    have := C29_energy (.intro m hr pn K0 hK0 [] (by simp)) (ss.proper hg.proper) (ss.planar hg.planar) (ss.hasProps hh') (by rw [hd]; exact congrArg _ (congrArg _ ss.nids.symm)) hG z v
    rw [form_comm (fun i _ j _ => (C30_symmetric hG).1 i j), ← hGd, this]
    exact congrFun (congrFun (congrFun (congrFun ss.sgeometric pn) (vec d)) z) v
  have e3 := hweak v hv'
  have e4 : form K.dim K.get v z + lam * form K.dim G.get v z = -form K.dim K.get v (fun i => u i - z i) + lam * (geometric m pn (vec d) z v - preWork m l Dx Dy Fx Fy v) := by
    rw [form_sub_right, e1, e2]
    linear_combination e3
  rw [e4]
  have q1 := (form_cs hsym hpos v fun i => u i - z i).trans (mul_le_mul_of_nonneg_left r1 (hpos v))
  have q2 : (geometric m pn (vec d) z v - preWork m l Dx Dy Fx Fy v) ^ 2 ≤ Q * ε ^ 2 * form K.dim K.get v v := by
    have hη : e * h ≤ e * |H| := mul_le_mul_of_nonneg_left (hhH.trans (le_abs_self H)) he0
    have hη0 : 0 ≤ e * h := mul_nonneg he0 h0
    have g1 := geometric_change w hg.proper hg.planar hhp hsp.shape hh hL0 hL1 hsp.lam hsp.assigned hc hsp.stiff hM hB (η := e * h) (by rw [he]) hη0 hF hz (vec d) d' v
    have g2 := geometric_test w hg.proper hg.planar hh hL1 hsp.lam hsp.assigned hsp.shape hM hD hF hd' hz (β1 := b1 * h) (η := e * h) (by rw [hb1, he]; ring) (by rw [he]) rfl v
    have g3 := slope_abs (m := m) v
    have en : energy m pn (fun i => vec d i - d' i) (fun i => vec d i - d' i) ≤ E * ε ^ 2 := by
      refine le_trans ?_ hdd
      rw [hform]
      have s2 := gammaSize_le (fun t ht r => shearMod_least w hhp hg0.le htau hal hsp.shear hsp.assigned hsp.thick hh fa ht r) method fun i => vec d i - d' i
      have p2 := (size_of_pos (m := m) (v := fun i => vec d i - d' i)).2.1 method
      have : 0 ≤ tau ^ 2 / (tau ^ 2 + al * h ^ 2) * g ^ 2 := by positivity
      have := (mul_nonneg this p2).trans s2
      linarith
    have hF0 := hpos v
    have hsl : 0 ≤ slopeSize m v := List.sum_nonneg fun y hy => by obtain ⟨e, _, rfl⟩ := List.mem_map.1 hy; exact mul_nonneg (abs_nonneg _) (by positivity)
    have hT : 0 ≤ totalArea m := List.sum_nonneg fun y hy => by obtain ⟨e, _, rfl⟩ := List.mem_map.1 hy; exact abs_nonneg _
    have hA' := hA.trans (le_abs_self A)
    have k1 : (geometric m pn (vec d) z v - geometric m pn d' z v) ^ 2 ≤ (2 * (L0 * (B + e * |H|))) ^ 2 * (12 * (E / c) * C2) * ε ^ 2 * form K.dim K.get v v := by
      have a1 : (2 * (L0 * (B + e * h))) ^ 2 ≤ (2 * (L0 * (B + e * |H|))) ^ 2 :=
        pow_le_pow_left₀ (by positivity) (mul_le_mul_of_nonneg_left (mul_le_mul_of_nonneg_left (by linarith) hL0) (by norm_num)) 2
      have a2 : energy m pn (fun i => vec d i - d' i) (fun i => vec d i - d' i) / c ≤ E * ε ^ 2 / c := div_le_div_of_nonneg_right en hc.le
      have a3 : 12 * (energy m pn (fun i => vec d i - d' i) (fun i => vec d i - d' i) / c) * slopeSize m v ≤ 12 * (E * ε ^ 2 / c) * (C2 * form K.dim K.get v v) :=
        mul_le_mul (mul_le_mul_of_nonneg_left a2 (by norm_num)) r2 hsl (by positivity)
      refine g1.trans ((mul_le_mul_of_nonneg_left a3 (sq_nonneg _)).trans ((mul_le_mul_of_nonneg_right a1 (by positivity)).trans (le_of_eq (by ring))))
    have k2 : (geometric m pn d' z v - preWork m l Dx Dy Fx Fy v) ^ 2 ≤ b ^ 2 * (2 * |A| * C2) * ε ^ 2 * form K.dim K.get v v := by
      obtain ⟨β, hβ⟩ : ∃ β, β = 2 * ((B + e * h) * (b1 * h) + 6 * (2 * B * L0) * (e * h)) := ⟨_, rfl⟩
      have hβ0 : 0 ≤ β := by rw [hβ]; positivity
      have hββ : β ≤ b * ε := by
        have a1 := mul_le_mul_of_nonneg_right (add_le_add (le_refl B) hη) (mul_nonneg hb10 h0)
        have a2 := mul_le_mul_of_nonneg_left hhε hb0
        rw [hβ]
        refine le_trans ?_ a2
        rw [hb]
        linarith
      rw [← hβ] at g2
      have a3 : (m.eids.map fun e => triArea m e * (β * (|gradX m (tpoly m e) (disp m v 2)| + |gradY m (tpoly m e) (disp m v 2)|))).sum =
          β * (m.eids.map fun e => triArea m e * (|gradX m (tpoly m e) (disp m v 2)| + |gradY m (tpoly m e) (disp m v 2)|)).sum := by
        rw [← List.sum_map_mul_left]
        congr 1
        exact List.map_congr_left fun k _ => by ring
      rw [a3] at g2
      have a4 := sq_le_sq' ((neg_le_neg g2).trans (neg_abs_le _)) ((le_abs_self _).trans g2)
      rw [mul_pow] at a4
      have a5 : 2 * totalArea m * slopeSize m v ≤ 2 * |A| * (C2 * form K.dim K.get v v) := mul_le_mul (by linarith) r2 hsl (by positivity)
      have a6 := mul_le_mul (pow_le_pow_left₀ hβ0 hββ 2) (g3.trans a5) (sq_nonneg _) (sq_nonneg _)
      exact a4.trans (a6.trans (le_of_eq (by ring)))
    rw [hQ]
    generalize geometric m pn (vec d) z v = x1 at *
    generalize geometric m pn d' z v = x2 at *
    generalize preWork m l Dx Dy Fx Fy v = x3 at *
    have : (x1 - x3) ^ 2 ≤ 2 * (x1 - x2) ^ 2 + 2 * (x2 - x3) ^ 2 := by
      have := add_sq_le (a := x1 - x2) (b := x2 - x3)
      rw [sub_add_sub_cancel] at this
      linarith
    linarith
  have hl2 : lam ^ 2 ≤ Lm ^ 2 := by rw [← sq_abs]; exact pow_le_pow_left₀ (abs_nonneg _) hlam 2
  have q3 := mul_le_mul hl2 q2 (sq_nonneg _) (sq_nonneg _)
  generalize form K.dim K.get v (fun i => u i - z i) = X at *
  generalize geometric m pn (vec d) z v - preWork m l Dx Dy Fx Fy v = Y at *
  have : (-X + lam * Y) ^ 2 ≤ 2 * X ^ 2 + 2 * (lam ^ 2 * Y ^ 2) := by
    have := add_sq_le (a := -X) (b := lam * Y)
    rw [neg_sq, mul_pow] at this
    linarith
  linarith

/-- C147: near every smooth mode of the plate theory with factor `lam` there is a computed buckling factor `b`: `|1 - lam / b|` is at most a constant times the size of the
triangles (for the default method, of the size plus `1/(3·10^15)`), measured with the energy of the mode -/
theorem C147_near {s L0 L1 c g tau H al κ A B M E Lm : ℝ} (hs0 : 0 ≤ s) (hL0 : 0 ≤ L0) (hL1 : 0 ≤ L1) (hc : 0 < c) (hg0 : 0 < g) (htau : 0 < tau) (hal : 0 ≤ al) (hκ : 0 ≤ κ) (hB : 0 ≤ B) (hM : 0 ≤ M)
    (hE : 0 ≤ E) : ∃ C : ℝ, 0 ≤ C ∧ ∀ (m : Mesh) (pn : Bool) (l : ℝ × ℝ → Lam), Reachable m → SmoothPlate m pn l s L0 L1 c g tau → totalArea m ≤ A → ∀ h, 0 ≤ h → h ≤ H → Size m h →
      ∀ (method : String) (fa : Bool) (S : Set ℕ) (D Dx Dy F Fx Fy : ℕ → ℝ × ℝ → ℝ) (lam : ℝ) (K G : Mat) (z d' : ℕ → ℝ) (d : List ℝ), RotHeld m S κ → SmoothField m D Dx Dy B M → SmoothField m F Fx Fy B M →
      |lam| ≤ Lm → ModeProblem m pn l method al fa S Dx Dy F Fx Fy lam K G z d → Nodal m D d' → form K.dim K.get (fun i => vec d i - d' i) (fun i => vec d i - d' i) ≤ E * (h + litErr method) ^ 2 →
      C * (h + litErr method) ^ 2 < form K.dim K.get z z → ∃ b x, BucklingMode K G S b x ∧ (1 - lam / b) ^ 2 * form K.dim K.get z z ≤ C * (h + litErr method) ^ 2 := by
  obtain ⟨C, hC0, hC⟩ := C147_residual (H := H) (A := A) (Lm := Lm) hs0 hL0 hL1 hc hg0 htau hal hκ hB hM hE
  refine ⟨C, hC0, fun m pn l hr hsp hA h h0 hhH hh method fa S D Dx Dy F Fx Fy lam K G z d' d hrot hD hF hlam hpr hd' hdd hlt => ?_⟩
  have hres := hC m pn l hr hsp hA h h0 hhH hh method fa S D Dx Dy F Fx Fy lam K G z d' d hrot hD hF hlam hpr hd' hdd
  have hsym := C78_symmetric hr hsp.good hpr.stiff
  obtain ⟨_, p, μ, hm⟩ := modal_exists hsym (fun i _ j _ => (C30_symmetric hpr.geo).1 i j) S hpr.stable
  have hE0 : 0 < form K.dim K.get z z := lt_of_le_of_lt (by positivity) hlt
  obtain ⟨a, ha⟩ := eigen_near hm hsym hpr.supp hres hE0
  have hμ : μ a ≠ 0 := fun h0 => by
    rw [h0, mul_zero, add_zero, one_pow, one_mul] at ha
    linarith
  refine ⟨-1 / μ a, p a, ⟨hm.nonzero _, hm.sup _, fun i hi hi' => ?_⟩, ?_⟩
  · have h1 := hm.row a hi hi'
    have : ∑ j ∈ range K.dim, (K.get i j + -1 / μ a * G.get i j) * p a j = ∑ j ∈ range K.dim, K.get i j * p a j + -1 / μ a * ∑ j ∈ range K.dim, G.get i j * p a j := by
      rw [Finset.mul_sum, ← Finset.sum_add_distrib]; exact Finset.sum_congr rfl fun j _ => by ring
    rw [this, h1]
    field_simp
    ring
  · rw [show 1 - lam / (-1 / μ a) = 1 + lam * μ a by field_simp; ring]
    exact ha

section
variable {Om : Set (ℝ × ℝ)} {l : ℝ × ℝ → Lam} {pn : Bool} {s : ℝ} {m : ℕ → Mesh} {L0 L1 c g tau : ℝ} {D Dx Dy F Fx Fy : ℕ → ℝ × ℝ → ℝ} {B M lam : ℝ}

theorem mode_limit (hr : ∀ n, Reachable (m n)) (hg : ∀ n, GoodPlate (m n) pn) (hR : Refined Om l pn s m) (hs0 : 0 ≤ s) (hL0 : 0 ≤ L0) (hL1 : 0 ≤ L1) (hl : LamOn Om l L0 L1) (hc0 : 0 < c) (hg0 : 0 < g)
    (htau : 0 < tau) (hc : ∀ x ∈ Om, AtLeast c (l x)) (hsh : ∀ x ∈ Om, ShearAtLeast g (l x)) (ht : ∀ x ∈ Om, tau ≤ (l x).h) {al : ℝ} (hal : 0 ≤ al) {fa : Bool}
    (hB : 0 ≤ B) (hM : 0 ≤ M) (hD : FieldOn Om D Dx Dy B M) (hF : FieldOn Om F Fx Fy B M) {h : ℕ → ℝ} (hh : ∀ n, Size (m n) (h n)) (h0 : Tendsto h atTop (nhds 0)) {S : ℕ → Set ℕ} {κ : ℝ} (hκ : 0 ≤ κ)
    (hS : ∀ n, RotHeld (m n) (S n) κ) {K G : ℕ → Mat} {z d' : ℕ → ℕ → ℝ} {d : ℕ → List ℝ} (hpr : ∀ n, ModeProblem (m n) pn l "cell-based-no-smoothing" al fa (S n) Dx Dy F Fx Fy lam (K n) (G n) (z n) (d n))
    (hd' : ∀ n, Nodal (m n) D (d' n)) {E : ℝ} (hE : 0 ≤ E) (hdd : ∀ᶠ n in atTop, form (K n).dim (K n).get (fun i => vec (d n) i - d' n i) (fun i => vec (d n) i - d' n i) ≤ E * |h n| ^ 2)
    (hpos : 0 < plateEnergy Om l Fx Fy Fx Fy + plateShear Om l F Fx Fy F Fx Fy) :
    ∃ b : ℕ → ℝ, Tendsto b atTop (nhds lam) ∧ ∀ᶠ n in atTop, ∃ x, BucklingMode (K n) (G n) (S n) (b n) x := by
  classical
  obtain ⟨C, hC0, hC⟩ := C147_near (s := s) (L0 := L0) (L1 := L1) (c := c) (g := g) (tau := tau) (H := 1) (al := al) (κ := κ) (A := volume.real Om) (B := B) (M := M) (E := E) (Lm := |lam|)
    hs0 hL0 hL1 hc0 hg0 htau hal hκ hB hM hE
  obtain ⟨e, he⟩ : ∃ e, e = plateEnergy Om l Fx Fy Fx Fy + plateShear Om l F Fx Fy F Fx Fy := ⟨_, rfl⟩
  have t2 := C122_stiffness hr hR hL1 hl htau ht hal hM hF hF (fun n => (hpr n).stiff) (fun n => (hpr n).nodal) (fun n => (hpr n).nodal)
  rw [← he] at t2 hpos
  have h1 : Tendsto (fun n => C * |h n| ^ 2) atTop (nhds 0) := by
    have : Continuous fun x : ℝ => C * |x| ^ 2 := by fun_prop
    exact (this.tendsto' 0 0 (by simp)).comp h0
  have habs := h0.abs
  rw [abs_zero] at habs
  have ev : ∀ᶠ n in atTop, ∃ b, (∃ x, BucklingMode (K n) (G n) (S n) b x) ∧ (1 - lam / b) ^ 2 ≤ C * |h n| ^ 2 * (2 / e) := by
    filter_upwards [habs.eventually_le_const zero_lt_one, hdd, t2.eventually_const_lt (half_lt_self hpos), h1.eventually_lt_const (half_pos hpos)] with n a1 a2 a3 a4
    have e1 : litErr "cell-based-no-smoothing" = 0 := by unfold litErr; rw [if_neg (by decide)]
    have hsub := fun e (he : e ∈ (m n).eids) => (hR.tiles n).sub he
    have key := hC (m n) pn l (hr n) (refined_smooth hg hR hl hc hsh ht n) (hR.tiles n).area.le |h n| (abs_nonneg _) a1 (fun e he => (hh n e he).trans (le_abs_self _)) "cell-based-no-smoothing" fa (S n) D Dx Dy F Fx Fy
      lam (K n) (G n) (z n) (d' n) (d n) (hS n) (hD.smooth hsub) (hF.smooth hsub) le_rfl (hpr n) (hd' n) (by rwa [e1, add_zero]) (by rw [e1, add_zero]; linarith)
    obtain ⟨b, x, hx, hb⟩ := key
    rw [e1, add_zero] at hb
    refine ⟨b, ⟨x, hx⟩, ?_⟩
    have := (mul_le_mul_of_nonneg_left a3.le (sq_nonneg (1 - lam / b))).trans hb
    rw [mul_div_assoc', le_div_iff₀ hpos]
    linarith
  obtain ⟨b, hb⟩ : ∃ b : ℕ → ℝ, ∀ᶠ n in atTop, (∃ x, BucklingMode (K n) (G n) (S n) (b n) x) ∧ (1 - lam / b n) ^ 2 ≤ C * |h n| ^ 2 * (2 / e) := by
    refine ⟨fun n => if hn : ∃ b, (∃ x, BucklingMode (K n) (G n) (S n) b x) ∧ (1 - lam / b) ^ 2 ≤ C * |h n| ^ 2 * (2 / e) then hn.choose else 0, ev.mono fun n hn => ?_⟩
    simp only [dif_pos hn]
    exact hn.choose_spec
  have q : Tendsto (fun n => lam / b n) atTop (nhds 1) := by
    have s1 : Tendsto (fun n => √(C * |h n| ^ 2 * (2 / e))) atTop (nhds 0) := by
      have := (h1.mul_const (2 / e)).sqrt
      rwa [zero_mul, Real.sqrt_zero] at this
    have s2 : Tendsto (fun n => 1 - lam / b n) atTop (nhds 0) := by
      refine squeeze_zero_norm' (hb.mono fun n hn => ?_) s1
      rw [Real.norm_eq_abs]
      exact Real.abs_le_sqrt hn.2
    have := s2.const_sub 1
    rw [sub_zero] at this
    exact this.congr fun n => by ring
  have hl0 : lam ≠ 0 := fun h => by
    rw [h] at q
    simp only [zero_div] at q
    exact zero_ne_one (tendsto_nhds_unique tendsto_const_nhds q)
  refine ⟨b, ?_, hb.mono fun n hn => hn.1⟩
  have := (tendsto_const_nhds (x := lam)).div q one_ne_zero
  rw [div_one] at this
  refine this.congr fun n => ?_
  simp only [Pi.div_apply]
  rw [div_div_eq_mul_div, mul_div_cancel_left₀ _ hl0]

/-- C147: a smooth mode of the plate theory satisfies the principle of virtual work with every smooth field that is compatible with the supports -/
theorem C147_virtual {V Vx Vy : ℕ → ℝ × ℝ → ℝ} (hr : ∀ n, Reachable (m n)) (hg : ∀ n, GoodPlate (m n) pn) (hR : Refined Om l pn s m) (hs0 : 0 ≤ s) (hL0 : 0 ≤ L0) (hL1 : 0 ≤ L1) (hl : LamOn Om l L0 L1) (hc0 : 0 < c) (hg0 : 0 < g)
    (htau : 0 < tau) (hc : ∀ x ∈ Om, AtLeast c (l x)) (hsh : ∀ x ∈ Om, ShearAtLeast g (l x)) (ht : ∀ x ∈ Om, tau ≤ (l x).h) {al : ℝ} (hal : 0 ≤ al) {fa : Bool}
    (hB : 0 ≤ B) (hM : 0 ≤ M) (hD : FieldOn Om D Dx Dy B M) (hF : FieldOn Om F Fx Fy B M) (hV : FieldOn Om V Vx Vy B M) (hmode : BucklingField Om l Dx Dy F Fx Fy lam) {S : ℕ → Set ℕ} {R : ℝ} (hS : ∀ n, Guided (m n) (S n) R)
    (hrim : ∀ n, FreeRim (m n) l Dx Dy F Fx Fy lam (S n)) {K G : ℕ → Mat} (hK : ∀ n, Stiffness (m n) pn "cell-based-no-smoothing" al fa (K n)) {d : ℕ → List ℝ}
    (hd : ∀ n, (d n).length = 5 * (m n).nids.length) (hdD : ∀ n, Nodal (m n) D (vec (d n))) (hG : ∀ n, calcKG (calcK0 (m n) pn).1 (d n) pn = .ok (G n)) {z : ℕ → ℕ → ℝ} (hz : ∀ n, Nodal (m n) F (z n))
    (hzS : ∀ n, Supported (K n).dim (S n) (z n)) {v : ℕ → ℕ → ℝ} (hv : ∀ n, Nodal (m n) V (v n)) (hvS : ∀ n, Supported (K n).dim (S n) (v n)) :
    plateEnergy Om l Vx Vy Fx Fy + plateShear Om l V Vx Vy F Fx Fy = -lam * plateGeometric Om l Dx Dy Vx Vy Fx Fy := by
  obtain ⟨h, hh, h0⟩ := hR.size
  obtain ⟨C, hC0, hC⟩ := C147_residual (s := s) (L0 := L0) (L1 := L1) (c := c) (g := g) (tau := tau) (H := 1) (al := al) (κ := 2 + 96 * R ^ 2) (A := volume.real Om) (B := B) (M := M) (E := 0) (Lm := |lam|)
    hs0 hL0 hL1 hc0 hg0 htau hal (by positivity) hB hM le_rfl
  choose K0 hK0 _ using fun n => (hK n).made
  have t1 := C122_stiffness hr hR hL1 hl htau ht hal hM hV hF hK hv hz
  have t2 := C122_kG hr hR hL1 hl hM hD hV hF hK0 hd hG hdD hv hz
  have hdim : ∀ n, (G n).dim = (K n).dim := fun n => by 
    rw [(calcKG_sum (hG n)).1, (stiffness_split (hr n) (hg n) (hK n)).1, hd n]; omega
  simp only [hdim] at t2
  have habs := h0.abs
  rw [abs_zero] at habs
  have t3 := (t1.add (t2.const_mul lam)).pow 2
  have t4 := ((habs.pow 2).const_mul C).mul (C122_stiffness hr hR hL1 hl htau ht hal hM hV hV hK hv hv)
  have key : (plateEnergy Om l Vx Vy Fx Fy + plateShear Om l V Vx Vy F Fx Fy + lam * plateGeometric Om l Dx Dy Vx Vy Fx Fy) ^ 2 ≤ 0 := by
    refine (le_of_tendsto_of_tendsto t3 t4 ?_).trans (le_of_eq (by ring))
    filter_upwards [habs.eventually_le_const zero_lt_one] with n a1
    have e1 : litErr "cell-based-no-smoothing" = 0 := by unfold litErr; rw [if_neg (by decide)]
    have hsub := fun e (he : e ∈ (m n).eids) => (hR.tiles n).sub he
    have := hC (m n) pn l (hr n) (refined_smooth hg hR hl hc hsh ht n) (hR.tiles n).area.le |h n| (abs_nonneg _) a1 (fun e he => (hh n e he).trans (le_abs_self _)) "cell-based-no-smoothing" fa (S n) D Dx Dy F Fx Fy
      lam (K n) (G n) (z n) (vec (d n)) (d n) (guided_rotHeld (hr n).wf (hg n).proper (hg n).planar (hS n).rotGuided) (hD.smooth hsub) (hF.smooth hsub) le_rfl
      ⟨hK n, C143_stable (hr n) (hg n) (hS n) hal (hK n), C147_weak (hr n) (hg n).proper (hg n).planar hsub hmode (hrim n), hz n, hzS n, hd n, hG n⟩ (hdD n) (by simp [form]) (v n) (hvS n)
    rwa [e1, add_zero] at this
  have := pow_eq_zero_iff two_ne_zero |>.1 (le_antisymm key (sq_nonneg _))
  linarith

/-- C147: the factor of a smooth mode of the plate theory is its energy over the work of the membrane forces on its slopes -/
theorem C147_rayleigh (hr : ∀ n, Reachable (m n)) (hg : ∀ n, GoodPlate (m n) pn) (hR : Refined Om l pn s m) (hs0 : 0 ≤ s) (hL0 : 0 ≤ L0) (hL1 : 0 ≤ L1) (hl : LamOn Om l L0 L1) (hc0 : 0 < c) (hg0 : 0 < g)
    (htau : 0 < tau) (hc : ∀ x ∈ Om, AtLeast c (l x)) (hsh : ∀ x ∈ Om, ShearAtLeast g (l x)) (ht : ∀ x ∈ Om, tau ≤ (l x).h) {al : ℝ} (hal : 0 ≤ al) {fa : Bool}
    (hB : 0 ≤ B) (hM : 0 ≤ M) (hD : FieldOn Om D Dx Dy B M) (hF : FieldOn Om F Fx Fy B M) (hmode : BucklingField Om l Dx Dy F Fx Fy lam) {S : ℕ → Set ℕ} {R : ℝ} (hS : ∀ n, Guided (m n) (S n) R)
    (hrim : ∀ n, FreeRim (m n) l Dx Dy F Fx Fy lam (S n)) {K G : ℕ → Mat} (hK : ∀ n, Stiffness (m n) pn "cell-based-no-smoothing" al fa (K n)) {d : ℕ → List ℝ}
    (hd : ∀ n, (d n).length = 5 * (m n).nids.length) (hdD : ∀ n, Nodal (m n) D (vec (d n))) (hG : ∀ n, calcKG (calcK0 (m n) pn).1 (d n) pn = .ok (G n)) {z : ℕ → ℕ → ℝ} (hz : ∀ n, Nodal (m n) F (z n))
    (hzS : ∀ n, Supported (K n).dim (S n) (z n)) :
    plateEnergy Om l Fx Fy Fx Fy + plateShear Om l F Fx Fy F Fx Fy = -lam * plateGeometric Om l Dx Dy Fx Fy Fx Fy :=
  C147_virtual hr hg hR hs0 hL0 hL1 hl hc0 hg0 htau hc hsh ht hal hB hM hD hF hF hmode hS hrim hK hd hdD hG hz hzS hz hzS

/-- C147: refining the mesh, computed buckling factors tend to the factor of every smooth mode of the plate theory (nodal values of the pre-stress) -/
theorem C147_limit (hr : ∀ n, Reachable (m n)) (hg : ∀ n, GoodPlate (m n) pn) (hR : Refined Om l pn s m) (hs0 : 0 ≤ s) (hL0 : 0 ≤ L0) (hL1 : 0 ≤ L1) (hl : LamOn Om l L0 L1) (hc0 : 0 < c) (hg0 : 0 < g)
    (htau : 0 < tau) (hc : ∀ x ∈ Om, AtLeast c (l x)) (hsh : ∀ x ∈ Om, ShearAtLeast g (l x)) (ht : ∀ x ∈ Om, tau ≤ (l x).h) {al : ℝ} (hal : 0 ≤ al) {fa : Bool}
    (hB : 0 ≤ B) (hM : 0 ≤ M) (hD : FieldOn Om D Dx Dy B M) (hF : FieldOn Om F Fx Fy B M) (hmode : BucklingField Om l Dx Dy F Fx Fy lam) {S : ℕ → Set ℕ} {R : ℝ} (hS : ∀ n, Guided (m n) (S n) R)
    (hrim : ∀ n, FreeRim (m n) l Dx Dy F Fx Fy lam (S n)) {K G : ℕ → Mat} (hK : ∀ n, Stiffness (m n) pn "cell-based-no-smoothing" al fa (K n)) {d : ℕ → List ℝ}
    (hd : ∀ n, (d n).length = 5 * (m n).nids.length) (hdD : ∀ n, Nodal (m n) D (vec (d n))) (hG : ∀ n, calcKG (calcK0 (m n) pn).1 (d n) pn = .ok (G n)) {z : ℕ → ℕ → ℝ} (hz : ∀ n, Nodal (m n) F (z n))
    (hzS : ∀ n, Supported (K n).dim (S n) (z n)) (hpos : 0 < plateEnergy Om l Fx Fy Fx Fy + plateShear Om l F Fx Fy F Fx Fy) :
    ∃ b : ℕ → ℝ, Tendsto b atTop (nhds lam) ∧ ∀ᶠ n in atTop, ∃ x, BucklingMode (K n) (G n) (S n) (b n) x := by
  obtain ⟨h, hh, h0⟩ := hR.size
  refine mode_limit hr hg hR hs0 hL0 hL1 hl hc0 hg0 htau hc hsh ht hal hB hM hD hF hh h0 (by positivity : 0 ≤ 2 + 96 * R ^ 2) (fun n => guided_rotHeld (hr n).wf (hg n).proper (hg n).planar (hS n).rotGuided)
    (fun n => ⟨hK n, C143_stable (hr n) (hg n) (hS n) hal (hK n), C147_weak (hr n) (hg n).proper (hg n).planar (fun e he => (hR.tiles n).sub he) hmode (hrim n), hz n, hzS n, hd n, hG n⟩) hdD le_rfl
    (Eventually.of_forall fun n => ?_) hpos
  simp [form]

/-- C147: the same for the pre-stress computed from a load case whose solution in the plate theory is `D` -/
theorem C147_computed (hr : ∀ n, Reachable (m n)) (hg : ∀ n, GoodPlate (m n) pn) (hR : Refined Om l pn s m) (hs0 : 0 ≤ s) (hL0 : 0 ≤ L0) (hL1 : 0 ≤ L1) (hl : LamOn Om l L0 L1) (hc0 : 0 < c) (hg0 : 0 < g)
    (htau : 0 < tau) (hc : ∀ x ∈ Om, AtLeast c (l x)) (hsh : ∀ x ∈ Om, ShearAtLeast g (l x)) (ht : ∀ x ∈ Om, tau ≤ (l x).h) {al : ℝ} (hal : 0 ≤ al) {fa : Bool}
    (hB : 0 ≤ B) (hM : 0 ≤ M) (hD : FieldOn Om D Dx Dy B M) (hF : FieldOn Om F Fx Fy B M) (hmode : BucklingField Om l Dx Dy F Fx Fy lam) {S : ℕ → Set ℕ} {R : ℝ} (hS : ∀ n, Guided (m n) (S n) R)
    (hrim : ∀ n, FreeRim (m n) l Dx Dy F Fx Fy lam (S n)) {K G : ℕ → Mat} {d : ℕ → List ℝ} {Sp : ℕ → Set ℕ} {κ : ℝ} (hκ : 0 ≤ κ) (hSp : ∀ n, RotHeld (m n) (Sp n) κ) {z' f : ℕ → ℕ → ℝ}
    (hpr : ∀ n, StaticProblem (m n) pn l "cell-based-no-smoothing" al fa (Sp n) D Dx Dy (K n) (z' n) (f n) (vec (d n)))
    (hd : ∀ n, (d n).length = 5 * (m n).nids.length) (hG : ∀ n, calcKG (calcK0 (m n) pn).1 (d n) pn = .ok (G n)) {z : ℕ → ℕ → ℝ} (hz : ∀ n, Nodal (m n) F (z n))
    (hzS : ∀ n, Supported (K n).dim (S n) (z n)) (hpos : 0 < plateEnergy Om l Fx Fy Fx Fy + plateShear Om l F Fx Fy F Fx Fy) :
    ∃ b : ℕ → ℝ, Tendsto b atTop (nhds lam) ∧ ∀ᶠ n in atTop, ∃ x, BucklingMode (K n) (G n) (S n) (b n) x := by
  obtain ⟨h, hh, h0⟩ := hR.size
  obtain ⟨C, hC0, hC⟩ := C132_rate (s := s) (L0 := L0) (L1 := L1) (c := c) (g := g) (tau := tau) (H := 1) (al := al) (κ := κ) (A := volume.real Om) (S := B) (M := M) hs0 hL0 hL1 hc0 hg0 htau hal hκ hB hM
  refine mode_limit hr hg hR hs0 hL0 hL1 hl hc0 hg0 htau hc hsh ht hal hB hM hD hF hh h0 (by positivity : 0 ≤ 2 + 96 * R ^ 2) (fun n => guided_rotHeld (hr n).wf (hg n).proper (hg n).planar (hS n).rotGuided)
    (fun n => ⟨(hpr n).stiff, C143_stable (hr n) (hg n) (hS n) hal (hpr n).stiff, C147_weak (hr n) (hg n).proper (hg n).planar (fun e he => (hR.tiles n).sub he) hmode (hrim n), hz n, hzS n, hd n, hG n⟩)
    (fun n => (hpr n).nodal) hC0 ?_ hpos
  have habs := h0.abs
  rw [abs_zero] at habs
  filter_upwards [habs.eventually_le_const zero_lt_one] with n hn
  have hsub := fun e (he : e ∈ (m n).eids) => (hR.tiles n).sub he
  have e1 : litErr "cell-based-no-smoothing" = 0 := by unfold litErr; rw [if_neg (by decide)]
  have key := (hC (m n) pn l (hr n) (refined_smooth hg hR hl hc hsh ht n) (hR.tiles n).area.le |h n| (abs_nonneg _) hn (fun e he => (hh n e he).trans (le_abs_self _)) "cell-based-no-smoothing" fa (Sp n) D Dx Dy (K n)
    (z' n) (f n) (vec (d n)) (hSp n) (hD.smooth hsub) (hpr n)).1
  rwa [e1, add_zero] at key

end

/-! ### concrete case: the hinged unit square pushed together along `x`, factor `6 π² / (1 + 3 π²)` -/

theorem push_pre (x : ℝ × ℝ) : preX (fun _ => exIso) (fun r _ => if r = 0 then -1 else 0) (fun _ _ => 0) navierX navierY x = -navierX 2 x ∧
    preY (fun _ => exIso) (fun r _ => if r = 0 then -1 else 0) (fun _ _ => 0) navierX navierY x = 0 := by
  constructor <;> simp [preX, preY, contMembrane, exIso, exLam, strain]

theorem push_mode : BucklingField unitSquare (fun _ => exIso) (fun r _ => if r = 0 then -1 else 0) (fun _ _ => 0) navier navierX navierY (6 * π ^ 2 / (1 + 3 * π ^ 2)) := by
  obtain ⟨Xx, Xy, Yx, Yy, hE⟩ := navier_equilibrium
  have hp : (1 + 3 * π ^ 2) ≠ 0 := by positivity
  refine ⟨Xx, Xy, Yx, Yy, fun x => -((1 + 3 * π ^ 2) * (π * (π * wave 2 0 x))), fun x => -((1 + 3 * π ^ 2) * (π * (π * wave 1 1 x))), fun _ => 0, fun _ => 0, fun x _ => ?_, fun x _ => ?_, ?_, ?_⟩
  · rw [funext fun y => (push_pre y).1]
    have h2 : navierX 2 = fun x => (1 + 3 * π ^ 2) * (π * wave 1 0 x) := by
      funext x
      simp [navierX, navierAmp]
    rw [h2]
    refine ((((wave_deriv 1 0 x).const_mul π).const_mul (1 + 3 * π ^ 2)).neg.hasFDerivWithinAt).congr_fderiv ?_
    ext <;> simp
  · rw [funext fun y => (push_pre y).2]
    refine (hasFDerivWithinAt_const (0:ℝ) x _).congr_fderiv ?_
    ext <;> simp
  · refine ⟨?_, ?_, continuousOn_const, continuousOn_const⟩ <;>
    · refine Continuous.continuousOn ?_
      unfold wave
      fun_prop
  · have : (fun (r : ℕ) (x : ℝ × ℝ) => if r = 2 then 6 * π ^ 2 / (1 + 3 * π ^ 2) * (-((1 + 3 * π ^ 2) * (π * (π * wave 2 0 x))) + 0) else 0) = navierLoad := by
      funext r x
      unfold navierLoad
      split
      · rw [(wave_shift 0 0 x).1]
        field_simp
        ring
      · rfl
    rw [this]
    exact hE

/-- the sides of the hinged square are free of bending moments and cannot deflect -/
theorem GridMesh.push_rim {k : ℕ} {l : ℝ × ℝ → Lam} {pn : Bool} {m : Mesh} (h : GridMesh k l pn m) (hk0 : 0 < k) (lam : ℝ) :
    FreeRim m (fun _ => exIso) (fun r _ => if r = 0 then -1 else 0) (fun _ _ => 0) navier navierX navierY lam (gridHinge k) := by
  intro key hkey e ht nu hn r hr
  by_cases h2 : r ≤ 2
  · exact Or.inl ((h.hinge_side ⟨hkey, by rw [ht]; rfl⟩).1 r h2)
  · refine (h.navier_traction hk0 key hkey e ht nu hn r hr).imp id fun h3 t ht => ?_
    rw [if_neg (by omega), if_neg (by omega), add_zero, add_zero]
    exact h3 t ht

/-- Computed factors of the hinged square tend to `6 π² / (1 + 3 π²)`. -/
example (pn : Bool) : ∃ (m : ℕ → Mesh) (K G : ℕ → Mat) (b : ℕ → ℝ), (∀ n, GridMesh (n + 1) (fun _ => exIso) pn (m n)) ∧
    (∀ n, Stiffness (m n) pn "cell-based-no-smoothing" (1 / 10) false (K n)) ∧
    (∀ n, calcKG (calcK0 (m n) pn).1 (gridList (n + 1) fun r x => (if r = 0 then -1 else 0) * x.1) pn = .ok (G n)) ∧
    Tendsto b atTop (nhds (6 * π ^ 2 / (1 + 3 * π ^ 2))) ∧ ∀ᶠ n in atTop, ∃ x, BucklingMode (K n) (G n) (gridHinge (n + 1)) (b n) x := by
  choose m h using fun n => gridMesh_exists (Nat.succ_pos n) (fun _ => exLam_stiff one_pos one_pos one_pos one_pos) pn
  choose K0 K hK0 hK hG using fun n => (h n).made (Or.inr rfl) (1 / 10) false
  have hl : ∀ n, (gridList (n + 1) fun r x => (if r = 0 then -1 else 0) * x.1).length = 5 * (m n).nids.length := fun n => by rw [gridList_length, (h n).count]
  choose G hG using fun n => hG n _ (hl n)
  have hc : ∀ x ∈ unitSquare, AtLeast 1 ((fun _ => exIso : ℝ × ℝ → Lam) x) := fun _ _ => exLam_least le_rfl le_rfl
  have hsh : ∀ x ∈ unitSquare, ShearAtLeast 1 ((fun _ => exIso : ℝ × ℝ → Lam) x) := fun _ _ => exIso_shearLeast
  have hth : ∀ x ∈ unitSquare, 1 ≤ ((fun _ => exIso : ℝ × ℝ → Lam) x).h := fun _ _ => le_rfl
  have hpi := Real.two_le_pi
  have hD := linear_on (fun r => if r = 0 then -1 else 0) (B := (1 + 3 * π ^ 2) * π) (M := (1 + 3 * π ^ 2) * π * (2 * π)) (fun r _ => by
    have : 1 ≤ (1 + 3 * π ^ 2) * π := one_le_mul_of_one_le_of_one_le (by nlinarith) (by linarith)
    split
    · simpa using this
    · simpa using by linarith) (by positivity)
  have hray := C147_rayleigh (fun n => (h n).reach) (fun n => (h n).good) (grid_refined h) (by norm_num) zero_le_one le_rfl exUniform_on one_pos one_pos one_pos hc hsh hth (by norm_num) (by positivity)
    (by positivity) hD navier_on push_mode (fun n => (h n).guided (Nat.succ_pos n)) (fun n => (h n).push_rim (Nat.succ_pos n) _) hK hl (fun n => (h n).nodal_list _) hG (fun n => (h n).nodal navier)
    (fun n => navier_supported (Nat.succ_pos n) _)
  have hpos : 0 < plateEnergy unitSquare (fun _ => exIso) navierX navierY navierX navierY + plateShear unitSquare (fun _ => exIso) navier navierX navierY navier navierX navierY := by
    refine lt_of_lt_of_eq ?_ hray.symm
    rw [neg_mul, neg_pos]
    exact mul_neg_of_pos_of_neg (by positivity) push_neg
  obtain ⟨b, hb, hx⟩ := C147_limit (fun n => (h n).reach) (fun n => (h n).good) (grid_refined h) (by norm_num) zero_le_one le_rfl exUniform_on one_pos one_pos one_pos hc hsh hth (by norm_num) (by positivity)
    (by positivity) hD navier_on push_mode (fun n => (h n).guided (Nat.succ_pos n)) (fun n => (h n).push_rim (Nat.succ_pos n) _) hK hl (fun n => (h n).nodal_list _) hG (fun n => (h n).nodal navier)
    (fun n => navier_supported (Nat.succ_pos n) _) hpos
  exact ⟨m, K, G, b, h, hK, hG, hb, hx⟩

end Meshless
