import Verif.Spec.Equilibrium
import Verif.Lemmas.Green
import Verif.Props.ConvergeCase

/-! Distributed loads: the consistent nodal loads of a plate problem are in balance with its solution, so the computed displacements converge to
the solution of the plate equations (C135). -/

set_option autoImplicit false

namespace Meshless
open Spec Finset MeasureTheory Filter Topology

theorem Spec.Equilibrium.mono {Om Om' : Set (ℝ × ℝ)} {l : ℝ × ℝ → Lam} {F Fx Fy Xx Xy Yx Yy p : ℕ → ℝ × ℝ → ℝ} (h : Equilibrium Om l F Fx Fy Xx Xy Yx Yy p) (hs : Om' ⊆ Om) :
    Equilibrium Om' l F Fx Fy Xx Xy Yx Yy p :=
  ⟨fun r hr x hx => (h.derivX r hr x (hs hx)).mono hs, fun r hr x hx => (h.derivY r hr x (hs hx)).mono hs,
    fun r hr => ⟨(h.cont r hr).1.mono hs, (h.cont r hr).2.1.mono hs, (h.cont r hr).2.2.1.mono hs, (h.cont r hr).2.2.2.mono hs⟩, fun r hr x hx => h.balance r hr x (hs hx)⟩

section
variable {m : Mesh} {l : ℝ × ℝ → Lam} {F Fx Fy Xx Xy Yx Yy p q : ℕ → ℝ × ℝ → ℝ} {Om : Set (ℝ × ℝ)}

theorem Spec.Equilibrium.contX (h : Equilibrium Om l F Fx Fy Xx Xy Yx Yy p) {r : ℕ} (hr : r < 5) : ContinuousOn (forceX l F Fx Fy r) Om := fun x hx => (h.derivX r hr x hx).continuousWithinAt
theorem Spec.Equilibrium.contY (h : Equilibrium Om l F Fx Fy Xx Xy Yx Yy p) {r : ℕ} (hr : r < 5) : ContinuousOn (forceY l F Fx Fy r) Om := fun x hx => (h.derivY r hr x hx).continuousWithinAt

theorem Spec.Equilibrium.contLoad (h : Equilibrium Om l F Fx Fy Xx Xy Yx Yy p) {r : ℕ} (hr : r < 5) : ContinuousOn (p r) Om := by
  have hc : ContinuousOn (couple l F Fx Fy r) Om := by
    have h0 := h.contX (show 2 < 5 by norm_num)
    have h1 := h.contY (show 2 < 5 by norm_num)
    rcases (by omega : r = 0 ∨ r = 1 ∨ r = 2 ∨ r = 3 ∨ r = 4) with rfl | rfl | rfl | rfl | rfl
    · exact continuousOn_const
    · exact continuousOn_const
    · exact continuousOn_const
    · exact h0
    · exact h1
  refine ((hc.sub (h.cont r hr).1).sub (h.cont r hr).2.2.2).congr fun x hx => ?_
  have := h.balance r hr x hx
  simp only [Pi.sub_apply]
  linarith

/-- the work of the forces on the strains, by parts: pointwise identity -/
theorem work_point (h : Equilibrium Om l F Fx Fy Xx Xy Yx Yy p) (e : ℕ) (v : ℕ → ℝ) {x : ℝ × ℝ} (hx : x ∈ Om) :
    ∑ i, ∑ j, strain Fx Fy x i * abd (l x) i j * triEps m e v j + ∑ r, shear F Fx Fy x r * shearStiff (l x) r * linShear m e v x r =
      ∑ r ∈ range 5, (forceX l F Fx Fy r x * gradX m (tpoly m e) (disp m v r) + forceY l F Fx Fy r x * gradY m (tpoly m e) (disp m v r) + (Xx r x + Yy r x) * lin m e (disp m v r) x)
      + ∑ r ∈ range 5, p r x * lin m e (disp m v r) x := by
  have h1 : ∑ i, ∑ j, strain Fx Fy x i * abd (l x) i j * triEps m e v j = ∑ j, resultant l Fx Fy x j * triEps m e v j := by
    rw [sum_comm]
    refine sum_congr rfl fun j _ => ?_
    unfold resultant
    rw [sum_mul]
    exact sum_congr rfl fun i _ => by rw [abd_symm (l x) j i]; ring
  have b0 := h.balance 0 (by norm_num) x hx
  have b1 := h.balance 1 (by norm_num) x hx
  have b2 := h.balance 2 (by norm_num) x hx
  have b3 := h.balance 3 (by norm_num) x hx
  have b4 := h.balance 4 (by norm_num) x hx
  have h2 : ∑ r, shear F Fx Fy x r * shearStiff (l x) r * linShear m e v x r = ∑ r, shearForce l F Fx Fy x r * linShear m e v x r :=
    sum_congr rfl fun r _ => by unfold shearForce; ring
  rw [h1, h2]
  simp only [couple] at b0 b1 b2 b3 b4
  simp only [sum_range_succ, sum_range_zero, zero_add, Fin.sum_univ_six, Fin.sum_univ_two, forceX, forceY]
  have t0 : triEps m e v 0 = gradX m (tpoly m e) (disp m v 0) := rfl
  have t1 : triEps m e v 1 = gradY m (tpoly m e) (disp m v 1) := rfl
  have t2 : triEps m e v 2 = gradY m (tpoly m e) (disp m v 0) + gradX m (tpoly m e) (disp m v 1) := rfl
  have t3 : triEps m e v 3 = gradX m (tpoly m e) (disp m v 3) := rfl
  have t4 : triEps m e v 4 = gradY m (tpoly m e) (disp m v 4) := rfl
  have t5 : triEps m e v 5 = gradY m (tpoly m e) (disp m v 3) + gradX m (tpoly m e) (disp m v 4) := rfl
  have s0 : linShear m e v x 0 = gradX m (tpoly m e) (disp m v 2) + lin m e (disp m v 3) x := rfl
  have s1 : linShear m e v x 1 = gradY m (tpoly m e) (disp m v 2) + lin m e (disp m v 4) x := rfl
  rw [t0, t1, t2, t3, t4, t5, s0, s1]
  linear_combination -lin m e (disp m v 0) x * b0 - lin m e (disp m v 1) x * b1 - lin m e (disp m v 2) x * b2 - lin m e (disp m v 3) x * b3 - lin m e (disp m v 4) x * b4

theorem edgeNormal (w : WF m) (hp : Proper m) (hg : Planar m) {k : Key} (hk : k ∈ m.ekeys) {e : ℕ} (ht : (m.edge k).trias = [e]) :
    ∃ nu, OutNormal m e k nu ∧ sg (sarea m [[k.1], [k.2], corners m e]) * (ny m k.2 - ny m k.1) = sideLen m k * nu.1 ∧
      sg (sarea m [[k.1], [k.2], corners m e]) * (nx m k.2 - nx m k.1) = -(sideLen m k * nu.2) := by
  obtain ⟨he, c1, c2⟩ := edge_tria w hp hk (t := e) (by rw [ht]; simp)
  have hne : k.1 ≠ k.2 := by
    rcases edge_shape w hp hk with ⟨t, o, htr, hs, _⟩ | ⟨t1, t2, o1, o2, htr, hs1, hs2, _⟩
    · exact hs.hab
    · exact hs1.hab
  have h0 := hg.nondeg e he
  have hs0 : sarea m (tpoly m e) = ((nx m (m.tria e).n2 - nx m (m.tria e).n1) * (ny m (m.tria e).n3 - ny m (m.tria e).n1) - (nx m (m.tria e).n3 - nx m (m.tria e).n1) * (ny m (m.tria e).n2 - ny m (m.tria e).n1)) / 2 := by
    unfold tpoly; rw [sarea3]; simp only [mean_single]
  have hs : sarea m [[k.1], [k.2], corners m e] = (((nx m k.2 - nx m k.1) * (ny m (m.tria e).n1 - ny m k.1) - (nx m (m.tria e).n1 - nx m k.1) * (ny m k.2 - ny m k.1)) +
      ((nx m k.2 - nx m k.1) * (ny m (m.tria e).n2 - ny m k.1) - (nx m (m.tria e).n2 - nx m k.1) * (ny m k.2 - ny m k.1)) +
      ((nx m k.2 - nx m k.1) * (ny m (m.tria e).n3 - ny m k.1) - (nx m (m.tria e).n3 - nx m k.1) * (ny m k.2 - ny m k.1))) / 6 := by
    rw [sarea3]; simp only [mean_single]
    simp only [mean, corners, List.map_cons, List.map_nil, List.sum_cons, List.sum_nil, List.length_cons, List.length_nil]
    push_cast; ring
  obtain ⟨s, hsv⟩ : ∃ s, s = sarea m [[k.1], [k.2], corners m e] := ⟨_, rfl⟩
  -- every corner lies on the edge or on the inner side
  have key : s ≠ 0 ∧ ∀ i, IsCorner m e i → (nx m k.2 - nx m k.1) * (ny m i - ny m k.1) - (nx m i - nx m k.1) * (ny m k.2 - ny m k.1) = 0 ∨
      (nx m k.2 - nx m k.1) * (ny m i - ny m k.1) - (nx m i - nx m k.1) * (ny m k.2 - ny m k.1) = 6 * s := by
    have hsa : s = sarea m (tpoly m e) / 3 ∨ s = -(sarea m (tpoly m e) / 3) := by
      rw [hsv, hs, hs0]
      rcases c1 with c1 | c1 | c1 <;> rcases c2 with c2 | c2 | c2 <;> first
        | exact absurd (c1.trans c2.symm) hne
        | (rw [c1, c2]; left; ring1)
        | (rw [c1, c2]; right; ring1)
    refine ⟨fun h => h0 ?_, fun i hi => ?_⟩
    · change sarea m (tpoly m e) = 0
      rcases hsa with h' | h' <;> linarith
    · rw [hsv, hs]
      rcases c1 with c1 | c1 | c1 <;> rcases c2 with c2 | c2 | c2 <;> first
        | exact absurd (c1.trans c2.symm) hne
        | (rcases hi with hi | hi | hi <;> rw [hi, c1, c2] <;> first | (left; ring1) | (right; ring1))
  obtain ⟨k0, k1⟩ := key
  rw [← hsv]
  obtain ⟨L, hL⟩ : ∃ L, L = sideLen m k := ⟨_, rfl⟩
  have hL2 : L ^ 2 = (nx m k.2 - nx m k.1) ^ 2 + (ny m k.2 - ny m k.1) ^ 2 := by rw [hL, sideLen, Real.sq_sqrt (by positivity)]
  have hL1 : 0 ≤ L := by rw [hL]; exact Real.sqrt_nonneg _
  have hL0 : L ≠ 0 := by
    intro h
    rw [h] at hL2
    have a : nx m k.2 - nx m k.1 = 0 := by nlinarith [pow_two_nonneg (nx m k.2 - nx m k.1), pow_two_nonneg (ny m k.2 - ny m k.1)]
    have b : ny m k.2 - ny m k.1 = 0 := by nlinarith [pow_two_nonneg (nx m k.2 - nx m k.1), pow_two_nonneg (ny m k.2 - ny m k.1)]
    rw [a, b] at hs
    exact k0 (by rw [hsv, hs]; ring)
  have hsg : sg s ^ 2 = 1 := by unfold sg; split_ifs <;> norm_num
  rw [← hL]
  refine ⟨(sg s * (ny m k.2 - ny m k.1) / L, -(sg s * (nx m k.2 - nx m k.1)) / L), ⟨?_, ?_, fun i hi => ?_⟩, by simp only; field_simp, by simp only; field_simp⟩
  · simp only
    rw [div_pow, div_pow, ← add_div, div_eq_one_iff_eq (pow_ne_zero 2 hL0), hL2]
    linear_combination ((nx m k.2 - nx m k.1) ^ 2 + (ny m k.2 - ny m k.1) ^ 2) * hsg
  · simp only; ring
  · simp only
    have e1 : sg s * (ny m k.2 - ny m k.1) / L * (nx m i - nx m k.1) + -(sg s * (nx m k.2 - nx m k.1)) / L * (ny m i - ny m k.1) =
        -(sg s * ((nx m k.2 - nx m k.1) * (ny m i - ny m k.1) - (nx m i - nx m k.1) * (ny m k.2 - ny m k.1))) / L := by ring
    rw [e1]
    apply div_nonpos_of_nonpos_of_nonneg _ hL1
    rcases k1 i hi with h | h <;> rw [h]
    · simp
    · have := sg_mul k0
      have := abs_nonneg s
      linarith

theorem sidePt_mem (w : WF m) (hp : Proper m) {k : Key} (hk : k ∈ m.ekeys) {e : ℕ} (ht : e ∈ (m.edge k).trias) {t : ℝ} (h0 : 0 ≤ t) (h1 : t ≤ 1) : sidePt m k t ∈ hull m e := by
  obtain ⟨he, c1, c2⟩ := edge_tria w hp hk ht
  have hc : Convex ℝ (hull m e) := convex_convexHull ℝ _
  have := hc (pt_mem_hull c1) (pt_mem_hull c2) (sub_nonneg.2 h1) h0 (by ring)
  convert this using 1
  unfold sidePt
  ext <;> simp only [Prod.fst_add, Prod.snd_add, Prod.smul_fst, Prod.smul_snd, Prod.fst_sub, Prod.snd_sub, smul_eq_mul] <;> ring

/-- flow of the forces through a boundary edge is the work of the edge loads -/
theorem edge_term (w : WF m) (hp : Proper m) (hg : Planar m) {S : Set ℕ} (hq : Traction m l F Fx Fy q S) {k : Key} (hk : k ∈ m.ekeys) {e : ℕ} (ht : (m.edge k).trias = [e]) {r : ℕ} (hr : r < 5)
    {f : ℕ → ℝ} (hf : 5 * m.nids.idxOf k.1 + r ∈ S ∧ 5 * m.nids.idxOf k.2 + r ∈ S → f k.1 = 0 ∧ f k.2 = 0) :
    sg (sarea m [[k.1], [k.2], corners m e]) * sideFlow m (forceX l F Fx Fy r) (forceY l F Fx Fy r) f k.1 k.2 =
      ∫ t in (0:ℝ)..1, sideLen m k * q r (sidePt m k t) * ((1 - t) * f k.1 + t * f k.2) := by
  obtain ⟨nu, hn, n1, n2⟩ := edgeNormal w hp hg hk ht
  unfold sideFlow
  rw [← intervalIntegral.integral_const_mul]
  rcases hq k hk e ht nu hn r hr with h | h
  · obtain ⟨h1, h2⟩ := hf h
    simp [h1, h2]
  · rw [intervalIntegral.integral_of_le zero_le_one, intervalIntegral.integral_of_le zero_le_one, integral_Ioc_eq_integral_Ioo, integral_Ioc_eq_integral_Ioo]
    refine setIntegral_congr_fun measurableSet_Ioo fun t ht => ?_
    have h1 := h t ht
    unfold sidePt at h1 ⊢
    rw [← h1]
    linear_combination ((1 - t) * f k.1 + t * f k.2) * (forceX l F Fx Fy r (pt m k.1 + t • (pt m k.2 - pt m k.1)) * n1 - forceY l F Fx Fy r (pt m k.1 + t • (pt m k.2 - pt m k.1)) * n2)

theorem work_parts (w : WF m) (hp : Proper m) (hg : Planar m) (h : ∀ e ∈ m.eids, Equilibrium (hull m e) l F Fx Fy Xx Xy Yx Yy p) {S : Set ℕ} (hq : Traction m l F Fx Fy q S) {v : ℕ → ℝ}
    (hv : ∀ i < 5 * m.nids.length, i ∈ S → v i = 0) : virtualWork m l F Fx Fy v = planeWork m p v + edgeWork m q v := by
  have hsum : ∀ (L : List ℕ) (f g : ℕ → ℝ), (L.map fun e => f e + g e).sum = (L.map f).sum + (L.map g).sum := fun L f g => List.sum_map_add
  have hcomm : ∀ {α : Type} (L : List α) (G : ℕ → α → ℝ), (L.map fun e => ∑ r ∈ range 5, G r e).sum = ∑ r ∈ range 5, (L.map (G r)).sum := by
    intro α L G
    induction L with
    | nil => simp
    | cons a L ih => simp only [List.map_cons, List.sum_cons, ih, sum_add_distrib]
  have cg : ∀ e ∈ m.eids, ∀ r < 5, ContinuousOn (fun x => forceX l F Fx Fy r x * gradX m (tpoly m e) (disp m v r) + forceY l F Fx Fy r x * gradY m (tpoly m e) (disp m v r)
      + (Xx r x + Yy r x) * lin m e (disp m v r) x) (hull m e) := fun e he r hr =>
    ((((h e he).contX hr).mul continuousOn_const).add (((h e he).contY hr).mul continuousOn_const)).add ((((h e he).cont r hr).1.add ((h e he).cont r hr).2.2.2).mul (lin_cont _).continuousOn)
  have cp : ∀ e ∈ m.eids, ∀ r < 5, ContinuousOn (fun x => p r x * lin m e (disp m v r) x) (hull m e) := fun e he r hr => ((h e he).contLoad hr).mul (lin_cont _).continuousOn
  have h1 : virtualWork m l F Fx Fy v = (m.eids.map fun e => ∑ r ∈ range 5, ∫ x in hull m e, (forceX l F Fx Fy r x * gradX m (tpoly m e) (disp m v r)
      + forceY l F Fx Fy r x * gradY m (tpoly m e) (disp m v r) + (Xx r x + Yy r x) * lin m e (disp m v r) x)).sum + planeWork m p v := by
    unfold virtualWork planeWork
    rw [← hsum]
    refine congrArg List.sum (List.map_congr_left fun e he => ?_)
    rw [← integral_finsetSum _ fun r hr => (cg e he r (mem_range.1 hr)).integrableOn_compact (hull_compact m e), ← integral_add]
    · exact setIntegral_congr_fun (hull_measurable m e) fun x hx => work_point (h e he) e v hx
    · exact (continuousOn_finsetSum _ fun r hr => cg e he r (mem_range.1 hr)).integrableOn_compact (hull_compact m e)
    · exact (continuousOn_finsetSum _ fun r hr => cp e he r (mem_range.1 hr)).integrableOn_compact (hull_compact m e)
  rw [h1, hcomm, add_comm]
  congr 1
  have h2 : ∀ r ∈ range 5, _ = _ := fun r hr => mesh_parts w hp hg (fun e he => (h e he).derivX r (mem_range.1 hr)) (fun e he => (h e he).derivY r (mem_range.1 hr))
    (fun e he => (h e he).cont r (mem_range.1 hr)) (disp m v r)
  rw [sum_congr rfl h2, ← hcomm]
  unfold edgeWork
  refine congrArg List.sum (List.map_congr_left fun k hk => ?_)
  by_cases hb : (m.edge k).trias.length = 1
  · rw [if_pos hb]
    obtain ⟨e, ht⟩ := List.length_eq_one_iff.1 hb
    refine sum_congr rfl fun r hr => ?_
    rw [if_pos hb, ht]
    simp only [List.map_cons, List.map_nil, List.sum_cons, List.sum_nil, add_zero]
    obtain ⟨he, c1, c2⟩ := edge_tria w hp hk (t := e) (by rw [ht]; simp)
    have i1 := List.idxOf_lt_length_iff.2 (corner_mem w hp.distinct he c1)
    have i2 := List.idxOf_lt_length_iff.2 (corner_mem w hp.distinct he c2)
    have hr := mem_range.1 hr
    exact edge_term w hp hg hq hk ht hr fun hS => ⟨hv (5 * m.nids.idxOf k.1 + r) (by omega) hS.1, hv (5 * m.nids.idxOf k.2 + r) (by omega) hS.2⟩
  · simp only [if_neg hb, sum_const_zero]

theorem lin_disp (w : WF m) (hp : Proper m) {t : ℕ} (ht : t ∈ m.eids) (v : ℕ → ℝ) (x : ℝ × ℝ) {r : ℕ} (hr : r < 5) :
    lin m t (disp m v r) x = ∑ a ∈ range (5 * m.nids.length), v a * lin m t (disp m (unitAt a) r) x := by
  have hd : ∀ i, IsCorner m t i → disp m v r i = ∑ a ∈ range (5 * m.nids.length), v a * disp m (unitAt a) r i := by
    intro i hi
    have := List.idxOf_lt_length_iff.2 (corner_mem w hp.distinct ht hi)
    unfold disp unitAt
    simp only [mul_ite, mul_one, mul_zero]
    rw [sum_ite_eq, if_pos (mem_range.2 (by omega))]
  unfold lin
  rw [hd _ (Or.inl rfl), (gradX_tri_congr hd).1, gradX_lin, (gradX_tri_congr hd).2, gradY_lin, sum_mul, sum_mul, ← sum_add_distrib, ← sum_add_distrib]
  exact sum_congr rfl fun a _ => by ring

theorem planeWork_lin (w : WF m) (hp : Proper m) (hc : ∀ e ∈ m.eids, ∀ r < 5, ContinuousOn (p r) (hull m e)) (v : ℕ → ℝ) :
    planeWork m p v = ∑ j ∈ range (5 * m.nids.length), planeWork m p (unitAt j) * v j := by
  have h2 : ∀ (L : List ℕ) (G : ℕ → ℕ → ℝ), (L.map fun e => ∑ i ∈ range (5 * m.nids.length), v i * G e i).sum = ∑ i ∈ range (5 * m.nids.length), (L.map fun e => G e i).sum * v i := by
    intro L G
    induction L with
    | nil => simp
    | cons a L ih =>
      simp only [List.map_cons, List.sum_cons, add_mul, sum_add_distrib]
      rw [ih]
      congr 1
      exact sum_congr rfl fun i _ => mul_comm _ _
  unfold planeWork
  rw [← h2]
  refine congrArg List.sum (List.map_congr_left fun e he => ?_)
  have cp : ∀ j, ContinuousOn (fun x => ∑ r ∈ range 5, p r x * lin m e (disp m (unitAt j) r) x) (hull m e) := fun j =>
    continuousOn_finsetSum _ fun r hr => (hc e he r (mem_range.1 hr)).mul (lin_cont _).continuousOn
  simp only [← integral_const_mul]
  rw [← integral_finsetSum _ fun j _ => ((cp j).integrableOn_compact (hull_compact m e)).const_mul (v j)]
  refine integral_congr_ae (Filter.Eventually.of_forall fun x => ?_)
  simp only
  have : ∀ r ∈ range 5, p r x * lin m e (disp m v r) x = ∑ a ∈ range (5 * m.nids.length), v a * (p r x * lin m e (disp m (unitAt a) r) x) := fun r hr => by
    rw [lin_disp w hp he v x (mem_range.1 hr), mul_sum]
    exact sum_congr rfl fun a _ => by ring
  rw [sum_congr rfl this, sum_comm]
  exact sum_congr rfl fun a _ => by rw [mul_sum]

theorem edgeWork_lin (w : WF m) (hp : Proper m) (hg : Planar m) (h : ∀ e ∈ m.eids, Equilibrium (hull m e) l F Fx Fy Xx Xy Yx Yy p) {S : Set ℕ} (hq : Traction m l F Fx Fy q S) {v : ℕ → ℝ}
    (hv : ∀ i < 5 * m.nids.length, i ∈ S → v i = 0) : edgeWork m q v = ∑ j ∈ range (5 * m.nids.length), edgeWork m q (unitAt j) * v j := by
  have h2 : ∀ (L : List Key) (G : Key → ℕ → ℝ), (L.map fun e => ∑ i ∈ range (5 * m.nids.length), v i * G e i).sum = ∑ i ∈ range (5 * m.nids.length), (L.map fun e => G e i).sum * v i := by
    intro L G
    induction L with
    | nil => simp
    | cons a L ih =>
      simp only [List.map_cons, List.sum_cons, add_mul, sum_add_distrib]
      rw [ih]
      congr 1
      exact sum_congr rfl fun i _ => mul_comm _ _
  unfold edgeWork
  rw [← h2]
  refine congrArg List.sum (List.map_congr_left fun k hk => ?_)
  by_cases hb : (m.edge k).trias.length = 1
  swap
  · simp only [if_neg hb, mul_zero, sum_const_zero]
  simp only [if_pos hb]
  obtain ⟨e, ht⟩ := List.length_eq_one_iff.1 hb
  have hte : e ∈ (m.edge k).trias := by rw [ht]; simp
  obtain ⟨he, c1, c2⟩ := edge_tria w hp hk hte
  have i1 := List.idxOf_lt_length_iff.2 (corner_mem w hp.distinct he c1)
  have i2 := List.idxOf_lt_length_iff.2 (corner_mem w hp.distinct he c2)
  obtain ⟨nu, hn, _, _⟩ := edgeNormal w hp hg hk ht
  simp only [mul_sum]
  rw [sum_comm]
  refine sum_congr rfl fun r hr => ?_
  have hr := mem_range.1 hr
  have hd : ∀ i, m.nids.idxOf i < m.nids.length → disp m v r i = ∑ a ∈ range (5 * m.nids.length), v a * disp m (unitAt a) r i := by
    intro i hi
    unfold disp unitAt
    simp only [mul_ite, mul_one, mul_zero]
    rw [sum_ite_eq, if_pos (mem_range.2 (by omega))]
  rcases hq k hk e ht nu hn r hr with hS | hT
  · have z1 : disp m v r k.1 = 0 := hv (5 * m.nids.idxOf k.1 + r) (by omega) hS.1
    have z2 : disp m v r k.2 = 0 := hv (5 * m.nids.idxOf k.2 + r) (by omega) hS.2
    have hz : ∀ j ∈ range (5 * m.nids.length), v j * ∫ t in (0:ℝ)..1, sideLen m k * q r (sidePt m k t) * ((1 - t) * disp m (unitAt j) r k.1 + t * disp m (unitAt j) r k.2) = 0 := by
      intro j hj
      by_cases hjS : j ∈ S
      · rw [hv j (mem_range.1 hj) hjS, zero_mul]
      · have a1 : disp m (unitAt j) r k.1 = 0 := if_neg fun (h : 5 * m.nids.idxOf k.1 + r = j) => hjS (h ▸ hS.1)
        have a2 : disp m (unitAt j) r k.2 = 0 := if_neg fun (h : 5 * m.nids.idxOf k.2 + r = j) => hjS (h ▸ hS.2)
        simp [a1, a2]
    rw [sum_eq_zero hz]
    simp [z1, z2]
  · have hi : ∀ a b : ℝ, IntervalIntegrable (fun t => sideLen m k * q r (sidePt m k t) * ((1 - t) * a + t * b)) volume 0 1 := by
      intro a b
      have hca : Continuous (sidePt m k) := by unfold sidePt; fun_prop
      have hm : ∀ t ∈ Set.Icc (0:ℝ) 1, sidePt m k t ∈ hull m e := fun t ht => sidePt_mem w hp hk hte ht.1 ht.2
      have hc : ContinuousOn (fun t => sideLen m k * (nu.1 * forceX l F Fx Fy r (sidePt m k t) + nu.2 * forceY l F Fx Fy r (sidePt m k t)) * ((1 - t) * a + t * b)) (Set.uIcc 0 1) := by
        rw [Set.uIcc_of_le zero_le_one]
        have g1 := ((h e he).contX hr).comp hca.continuousOn hm
        have g2 := ((h e he).contY hr).comp hca.continuousOn hm
        exact (continuousOn_const.mul ((continuousOn_const.mul g1).add (continuousOn_const.mul g2))).mul (by fun_prop)
      have := hc.intervalIntegrable (μ := volume)
      rw [intervalIntegrable_iff_integrableOn_Ioo_of_le zero_le_one] at this ⊢
      exact this.congr_fun (fun t ht => by simp only; rw [hT t ht]) measurableSet_Ioo
    simp only [← intervalIntegral.integral_const_mul]
    rw [← intervalIntegral.integral_finsetSum fun j _ => (hi _ _).const_mul (v j)]
    refine intervalIntegral.integral_congr fun t _ => ?_
    rw [hd k.1 i1, hd k.2 i2, mul_sum, mul_sum, ← sum_add_distrib, mul_sum]
    exact sum_congr rfl fun j _ => by ring

/-- C135, with the equations of equilibrium stated triangle by triangle -/
theorem C135_elements (hr : Reachable m) (hp : Proper m) (hg : Planar m) (h' : ∀ e ∈ m.eids, Equilibrium (hull m e) l F Fx Fy Xx Xy Yx Yy p) {S : Set ℕ}
    (hq : Traction m l F Fx Fy q S) {f : ℕ → ℝ} (hf : Consistent m p q S f) : Balanced m l F Fx Fy S f := by
  intro v hv
  rw [work_parts hr.wf hp hg h' hq hv, planeWork_lin hr.wf hp (fun e he r hr => (h' e he).contLoad hr) v, edgeWork_lin hr.wf hp hg h' hq hv, ← sum_add_distrib]
  refine sum_congr rfl fun j hj => ?_
  by_cases hS : j ∈ S
  · rw [hv j (mem_range.1 hj) hS]; ring
  · rw [hf j (mem_range.1 hj) hS]; ring

/-- C135: if the field solves the plate equations under the loads per area `p` and per length of boundary `q`, the consistent nodal loads of `p` and `q` are in
balance with it -/
theorem C135_balanced (hr : Reachable m) (hp : Proper m) (hg : Planar m) (hs : ∀ e ∈ m.eids, hull m e ⊆ Om) (h : Equilibrium Om l F Fx Fy Xx Xy Yx Yy p) {S : Set ℕ}
    (hq : Traction m l F Fx Fy q S) {f : ℕ → ℝ} (hf : Consistent m p q S f) : Balanced m l F Fx Fy S f :=
  C135_elements hr hp hg (fun e he => h.mono (hs e he)) hq hf

/-- on edges with all degrees of freedom fixed there is no condition on the edge loads -/
theorem Spec.Clamped.traction {S : Set ℕ} (h : Clamped m S) : Traction m l F Fx Fy q S := fun k hk e ht _ _ r hr =>
  Or.inl ⟨h k hk (by rw [ht]; rfl) _ (Or.inl rfl) r hr, h k hk (by rw [ht]; rfl) _ (Or.inr rfl) r hr⟩

theorem consistent_exists (m : Mesh) (p q : ℕ → ℝ × ℝ → ℝ) : ∃ f, ∀ S, Consistent m p q S f := ⟨fun j => planeWork m p (unitAt j) + edgeWork m q (unitAt j), fun _ _ _ _ => rfl⟩
end

/-- C135: the distance in energy, and that of strains and curvatures, between the displacements computed with consistent nodal loads and the solution of the
plate equations is at most a constant times the longest side of the mesh. The constant depends on bounds for the plate and its solution only. -/
theorem C135_rate {s L0 L1 c g tau H al κ A S M : ℝ} (hs0 : 0 ≤ s) (hL0 : 0 ≤ L0) (hL1 : 0 ≤ L1) (hc : 0 < c) (hg0 : 0 < g) (htau : 0 < tau) (hal : 0 ≤ al) (hκ : 0 ≤ κ) (hS : 0 ≤ S) (hM : 0 ≤ M) :
    ∃ C : ℝ, 0 ≤ C ∧ ∀ (m : Mesh) (pn : Bool) (l : ℝ × ℝ → Lam), Reachable m → SmoothPlate m pn l s L0 L1 c g tau → totalArea m ≤ A → ∀ h, 0 ≤ h → h ≤ H → Size m h →
      ∀ (method : String) (fa : Bool) (Sp : Set ℕ) (F Fx Fy Xx Xy Yx Yy p q : ℕ → ℝ × ℝ → ℝ) (K : Mat) (z f d : ℕ → ℝ), RotHeld m Sp κ → SmoothField m F Fx Fy S M →
      (∀ e ∈ m.eids, Equilibrium (hull m e) l F Fx Fy Xx Xy Yx Yy p) → Traction m l F Fx Fy q Sp →
      Stiffness m pn method al fa K → Nodal m F z → Supported K.dim Sp z → Consistent m p q Sp f → StaticSol K Sp f d →
      form K.dim K.get (fun i => d i - z i) (fun i => d i - z i) ≤ C * (h + litErr method) ^ 2 ∧ strainErr m Fx Fy d ≤ C * (h + litErr method) ^ 2 := by
  obtain ⟨C, hC0, hC⟩ := C132_rate (H := H) (A := A) hs0 hL0 hL1 hc hg0 htau hal hκ hS hM
  obtain ⟨C', hC0', hC'⟩ := C132_strains (H := H) (A := A) hs0 hL0 hL1 hc hg0 htau hal hκ hS hM
  refine ⟨C + C', by positivity, fun m pn l hr hsp hA h h0 hhH hh method fa Sp F Fx Fy Xx Xy Yx Yy p q K z f d hrot hF hE hT hK hz hzS hf hd => ?_⟩
  have hpr : StaticProblem m pn l method al fa Sp F Fx Fy K z f d := ⟨hK, hz, hzS, C135_elements hr hsp.good.proper hsp.good.planar hE hT hf, hd⟩
  have a1 := (hC m pn l hr hsp hA h h0 hhH hh method fa Sp F Fx Fy K z f d hrot hF hpr).1
  have a2 := hC' m pn l hr hsp hA h h0 hhH hh method fa Sp F Fx Fy K z f d hrot hF hpr
  have p1 : 0 ≤ C * (h + litErr method) ^ 2 := by positivity
  have p2 : 0 ≤ C' * (h + litErr method) ^ 2 := by positivity
  constructor <;> nlinarith

/-- C135: refining the mesh of a plate clamped along its boundary and loaded by the consistent nodal loads of the loads per area `p`, the computed
displacements tend to the solution of the plate equations -/
theorem C135_limit {m : ℕ → Mesh} {pn : Bool} {Om : Set (ℝ × ℝ)} {l : ℝ × ℝ → Lam} {F Fx Fy Xx Xy Yx Yy p q : ℕ → ℝ × ℝ → ℝ} {s L0 L1 c g tau S M : ℝ}
    (hr : ∀ n, Reachable (m n)) (hg : ∀ n, GoodPlate (m n) pn) (hR : Refined Om l pn s m) (hs0 : 0 ≤ s) (hL0 : 0 ≤ L0) (hL1 : 0 ≤ L1) (hl : LamOn Om l L0 L1) (hc0 : 0 < c) (hg0 : 0 < g)
    (htau : 0 < tau) (hc : ∀ x ∈ Om, AtLeast c (l x)) (hsh : ∀ x ∈ Om, ShearAtLeast g (l x)) (ht : ∀ x ∈ Om, tau ≤ (l x).h) {R : ℝ} (hOm : ∀ x ∈ Om, |x.1| ≤ R) {al : ℝ} (hal : 0 ≤ al) {fa : Bool}
    (hS : 0 ≤ S) (hM : 0 ≤ M) (hF : FieldOn Om F Fx Fy S M) (hE : Equilibrium Om l F Fx Fy Xx Xy Yx Yy p) {Sp : ℕ → Set ℕ} (hcl : ∀ n, Clamped (m n) (Sp n)) {K : ℕ → Mat} {z f d : ℕ → ℕ → ℝ}
    (hK : ∀ n, Stiffness (m n) pn "cell-based-no-smoothing" al fa (K n)) (hz : ∀ n, Nodal (m n) F (z n)) (hzS : ∀ n, Supported (K n).dim (Sp n) (z n))
    (hf : ∀ n, Consistent (m n) p q (Sp n) (f n)) (hd : ∀ n, StaticSol (K n) (Sp n) (f n) (d n)) :
    Tendsto (fun n => dispSize (m n) fun i => d n i - z n i) atTop (nhds 0) ∧ Tendsto (fun n => strainErr (m n) Fx Fy (d n)) atTop (nhds 0) ∧
    Tendsto (fun n => form (K n).dim (K n).get (fun i => d n i - z n i) (fun i => d n i - z n i)) atTop (nhds 0) ∧
    Tendsto (fun n => ∑ i ∈ range (K n).dim, f n i * d n i) atTop (nhds (plateEnergy Om l Fx Fy Fx Fy + plateShear Om l F Fx Fy F Fx Fy)) :=
  C132_limit hr hg hR hs0 hL0 hL1 hl hc0 hg0 htau hc hsh ht hOm hal hS hM hF hcl fun n =>
    ⟨hK n, hz n, hzS n, C135_balanced (hr n) (hg n).proper (hg n).planar (fun _ he => (hR.tiles n).sub he) hE (hcl n).traction (hf n), hd n⟩

/-! ### concrete cases -/

/-- loads per area under which all displacements of the clamped square are the bubble -/
noncomputable def bubbleLoad (r : ℕ) (x : ℝ × ℝ) : ℝ :=
  let b := bubble x
  let bx := (1 - 2 * x.1) * (x.2 * (1 - x.2))
  let by' := x.1 * (1 - x.1) * (1 - 2 * x.2)
  let bxx := -2 * (x.2 * (1 - x.2))
  let byy := -2 * (x.1 * (1 - x.1))
  let bxy := (1 - 2 * x.1) * (1 - 2 * x.2)
  match r with
  | 0 => -(bxx + bxy + byy)
  | 1 => -(bxx + bxy + byy)
  | 2 => -(bxx + byy + bx + by')
  | 3 => bx + b - (bxx + bxy + byy)
  | _ => by' + b - (bxx + bxy + byy)

theorem exIso_resultant (Fx Fy : ℕ → ℝ × ℝ → ℝ) (x : ℝ × ℝ) (p : Fin 6) : resultant (fun _ => exIso) Fx Fy x p = strain Fx Fy x p := by
  unfold resultant
  fin_cases p <;> simp [exIso, exLam_abd]

theorem exIso_shearForce (F Fx Fy : ℕ → ℝ × ℝ → ℝ) (x : ℝ × ℝ) (p : Fin 2) : shearForce (fun _ => exIso) F Fx Fy x p = shear F Fx Fy x p := by
  unfold shearForce
  fin_cases p <;> simp [exIso, exLam, shearStiff]

set_option linter.unusedSimpArgs false in
set_option linter.unusedTactic false in
set_option linter.unreachableTactic false in
theorem bubble_equilibrium : ∃ Xx Xy Yx Yy, Equilibrium unitSquare (fun _ => exIso) (fun _ => bubble) (fun _ x => (1 - 2 * x.1) * (x.2 * (1 - x.2)))
    (fun _ x => x.1 * (1 - x.1) * (1 - 2 * x.2)) Xx Xy Yx Yy bubbleLoad := by
  let bx : ℝ × ℝ → ℝ := fun x => (1 - 2 * x.1) * (x.2 * (1 - x.2))
  let b2 : ℝ × ℝ → ℝ := fun x => x.1 * (1 - x.1) * (1 - 2 * x.2)
  let bxx : ℝ × ℝ → ℝ := fun x => -2 * (x.2 * (1 - x.2))
  let byy : ℝ × ℝ → ℝ := fun x => -2 * (x.1 * (1 - x.1))
  let bxy : ℝ × ℝ → ℝ := fun x => (1 - 2 * x.1) * (1 - 2 * x.2)
  refine ⟨fun r x => if r = 0 ∨ r = 3 then bxx x else if r = 2 then bxx x + bx x else bxx x + bxy x,
    fun r x => if r = 0 ∨ r = 3 then bxy x else if r = 2 then bxy x + b2 x else bxy x + byy x,
    fun r x => if r = 0 ∨ r = 3 then bxx x + bxy x else if r = 2 then bxy x + bx x else bxy x,
    fun r x => if r = 0 ∨ r = 3 then bxy x + byy x else if r = 2 then byy x + b2 x else byy x, ?_, ?_, ?_, ?_⟩
  all_goals intro r hr
  all_goals have a := fun x : ℝ × ℝ => hasFDerivAt_fst (𝕜 := ℝ) (p := x)
  all_goals have b := fun x : ℝ × ℝ => hasFDerivAt_snd (𝕜 := ℝ) (p := x)
  all_goals have d0 : ∀ x, HasFDerivAt bubble (bx x • ContinuousLinearMap.fst ℝ ℝ ℝ + b2 x • ContinuousLinearMap.snd ℝ ℝ ℝ) x := fun x =>
    (((a x).mul ((a x).const_sub 1)).mul ((b x).mul ((b x).const_sub 1))).congr_fderiv (by ext <;> simp [bx, b2] <;> ring)
  all_goals have d1 : ∀ x, HasFDerivAt bx (bxx x • ContinuousLinearMap.fst ℝ ℝ ℝ + bxy x • ContinuousLinearMap.snd ℝ ℝ ℝ) x := fun x =>
    ((((a x).const_mul 2).const_sub 1).mul ((b x).mul ((b x).const_sub 1))).congr_fderiv (by ext <;> simp [bxx, bxy] <;> ring)
  all_goals have d2 : ∀ x, HasFDerivAt b2 (bxy x • ContinuousLinearMap.fst ℝ ℝ ℝ + byy x • ContinuousLinearMap.snd ℝ ℝ ℝ) x := fun x =>
    (((a x).mul ((a x).const_sub 1)).mul (((b x).const_mul 2).const_sub 1)).congr_fderiv (by ext <;> simp [byy, bxy] <;> ring)
  · intro x _
    have d3 : ∀ (f g : ℝ × ℝ → ℝ) (f1 f2 g1 g2 : ℝ), HasFDerivAt f (f1 • ContinuousLinearMap.fst ℝ ℝ ℝ + f2 • ContinuousLinearMap.snd ℝ ℝ ℝ) x →
        HasFDerivAt g (g1 • ContinuousLinearMap.fst ℝ ℝ ℝ + g2 • ContinuousLinearMap.snd ℝ ℝ ℝ) x →
        HasFDerivAt (fun y => f y + g y) ((f1 + g1) • ContinuousLinearMap.fst ℝ ℝ ℝ + (f2 + g2) • ContinuousLinearMap.snd ℝ ℝ ℝ) x := fun f g f1 f2 g1 g2 h1 h2 =>
      (h1.add h2).congr_fderiv (by ext <;> simp)
    rcases (by omega : r = 0 ∨ r = 1 ∨ r = 2 ∨ r = 3 ∨ r = 4) with rfl | rfl | rfl | rfl | rfl
    · rw [show forceX (fun _ => exIso) (fun _ => bubble) (fun _ x => (1 - 2 * x.1) * (x.2 * (1 - x.2))) (fun _ x => x.1 * (1 - x.1) * (1 - 2 * x.2)) 0 = fun y => bx y from
        funext fun y => by simp [forceX, exIso_resultant, exIso_shearForce, strain, shear, bx, b2]]
      refine (d1 x).hasFDerivWithinAt.congr_fderiv ?_
      ext <;> simp <;> ring
    · rw [show forceX (fun _ => exIso) (fun _ => bubble) (fun _ x => (1 - 2 * x.1) * (x.2 * (1 - x.2))) (fun _ x => x.1 * (1 - x.1) * (1 - 2 * x.2)) 1 = fun y => b2 y + bx y from
        funext fun y => by simp [forceX, exIso_resultant, exIso_shearForce, strain, shear, bx, b2]]
      refine (d3 _ _ _ _ _ _ (d2 x) (d1 x)).hasFDerivWithinAt.congr_fderiv ?_
      ext <;> simp <;> ring
    · rw [show forceX (fun _ => exIso) (fun _ => bubble) (fun _ x => (1 - 2 * x.1) * (x.2 * (1 - x.2))) (fun _ x => x.1 * (1 - x.1) * (1 - 2 * x.2)) 2 = fun y => bx y + bubble y from
        funext fun y => by simp [forceX, exIso_resultant, exIso_shearForce, strain, shear, bx, b2]]
      refine (d3 _ _ _ _ _ _ (d1 x) (d0 x)).hasFDerivWithinAt.congr_fderiv ?_
      ext <;> simp <;> ring
    · rw [show forceX (fun _ => exIso) (fun _ => bubble) (fun _ x => (1 - 2 * x.1) * (x.2 * (1 - x.2))) (fun _ x => x.1 * (1 - x.1) * (1 - 2 * x.2)) 3 = fun y => bx y from
        funext fun y => by simp [forceX, exIso_resultant, exIso_shearForce, strain, shear, bx, b2]]
      refine (d1 x).hasFDerivWithinAt.congr_fderiv ?_
      ext <;> simp <;> ring
    · rw [show forceX (fun _ => exIso) (fun _ => bubble) (fun _ x => (1 - 2 * x.1) * (x.2 * (1 - x.2))) (fun _ x => x.1 * (1 - x.1) * (1 - 2 * x.2)) 4 = fun y => b2 y + bx y from
        funext fun y => by simp [forceX, exIso_resultant, exIso_shearForce, strain, shear, bx, b2]]
      refine (d3 _ _ _ _ _ _ (d2 x) (d1 x)).hasFDerivWithinAt.congr_fderiv ?_
      ext <;> simp <;> ring
  · intro x _
    have d3 : ∀ (f g : ℝ × ℝ → ℝ) (f1 f2 g1 g2 : ℝ), HasFDerivAt f (f1 • ContinuousLinearMap.fst ℝ ℝ ℝ + f2 • ContinuousLinearMap.snd ℝ ℝ ℝ) x →
        HasFDerivAt g (g1 • ContinuousLinearMap.fst ℝ ℝ ℝ + g2 • ContinuousLinearMap.snd ℝ ℝ ℝ) x →
        HasFDerivAt (fun y => f y + g y) ((f1 + g1) • ContinuousLinearMap.fst ℝ ℝ ℝ + (f2 + g2) • ContinuousLinearMap.snd ℝ ℝ ℝ) x := fun f g f1 f2 g1 g2 h1 h2 =>
      (h1.add h2).congr_fderiv (by ext <;> simp)
    rcases (by omega : r = 0 ∨ r = 1 ∨ r = 2 ∨ r = 3 ∨ r = 4) with rfl | rfl | rfl | rfl | rfl
    · rw [show forceY (fun _ => exIso) (fun _ => bubble) (fun _ x => (1 - 2 * x.1) * (x.2 * (1 - x.2))) (fun _ x => x.1 * (1 - x.1) * (1 - 2 * x.2)) 0 = fun y => b2 y + bx y from
        funext fun y => by simp [forceY, exIso_resultant, exIso_shearForce, strain, shear, bx, b2]]
      refine (d3 _ _ _ _ _ _ (d2 x) (d1 x)).hasFDerivWithinAt.congr_fderiv ?_
      ext <;> simp <;> ring
    · rw [show forceY (fun _ => exIso) (fun _ => bubble) (fun _ x => (1 - 2 * x.1) * (x.2 * (1 - x.2))) (fun _ x => x.1 * (1 - x.1) * (1 - 2 * x.2)) 1 = fun y => b2 y from
        funext fun y => by simp [forceY, exIso_resultant, exIso_shearForce, strain, shear, bx, b2]]
      refine (d2 x).hasFDerivWithinAt.congr_fderiv ?_
      ext <;> simp <;> ring
    · rw [show forceY (fun _ => exIso) (fun _ => bubble) (fun _ x => (1 - 2 * x.1) * (x.2 * (1 - x.2))) (fun _ x => x.1 * (1 - x.1) * (1 - 2 * x.2)) 2 = fun y => b2 y + bubble y from
        funext fun y => by simp [forceY, exIso_resultant, exIso_shearForce, strain, shear, bx, b2]]
      refine (d3 _ _ _ _ _ _ (d2 x) (d0 x)).hasFDerivWithinAt.congr_fderiv ?_
      ext <;> simp <;> ring
    · rw [show forceY (fun _ => exIso) (fun _ => bubble) (fun _ x => (1 - 2 * x.1) * (x.2 * (1 - x.2))) (fun _ x => x.1 * (1 - x.1) * (1 - 2 * x.2)) 3 = fun y => b2 y + bx y from
        funext fun y => by simp [forceY, exIso_resultant, exIso_shearForce, strain, shear, bx, b2]]
      refine (d3 _ _ _ _ _ _ (d2 x) (d1 x)).hasFDerivWithinAt.congr_fderiv ?_
      ext <;> simp <;> ring
    · rw [show forceY (fun _ => exIso) (fun _ => bubble) (fun _ x => (1 - 2 * x.1) * (x.2 * (1 - x.2))) (fun _ x => x.1 * (1 - x.1) * (1 - 2 * x.2)) 4 = fun y => b2 y from
        funext fun y => by simp [forceY, exIso_resultant, exIso_shearForce, strain, shear, bx, b2]]
      refine (d2 x).hasFDerivWithinAt.congr_fderiv ?_
      ext <;> simp <;> ring
  · refine ⟨?_, ?_, ?_, ?_⟩ <;> refine Continuous.continuousOn ?_ <;> split_ifs <;> simp only [bx, b2, bxx, byy, bxy] <;> fun_prop
  · intro x _
    rcases (by omega : r = 0 ∨ r = 1 ∨ r = 2 ∨ r = 3 ∨ r = 4) with rfl | rfl | rfl | rfl | rfl <;>
      simp [bubbleLoad, couple, exIso_shearForce, shear, bx, b2, bxx, byy, bxy] <;> ring

/-- Unit square clamped along its border under these loads: on ever finer grids the displacements computed with the consistent nodal loads tend to the
bubble. -/
example (pn : Bool) : ∃ (m : ℕ → Mesh) (K : ℕ → Mat) (f d : ℕ → ℕ → ℝ), (∀ n, GridMesh (n + 1) (fun _ => exIso) pn (m n)) ∧
    (∀ n, Consistent (m n) bubbleLoad (fun _ _ => 0) (gridBorder (n + 1)) (f n) ∧ Stiffness (m n) pn "cell-based-no-smoothing" (1 / 10) false (K n) ∧ StaticSol (K n) (gridBorder (n + 1)) (f n) (d n)) ∧
    Tendsto (fun n => dispSize (m n) fun i => d n i - gridVals (n + 1) (fun _ => bubble) i) atTop (nhds 0) ∧
    Tendsto (fun n => strainErr (m n) (fun _ x => (1 - 2 * x.1) * (x.2 * (1 - x.2))) (fun _ x => x.1 * (1 - x.1) * (1 - 2 * x.2)) (d n)) atTop (nhds 0) := by
  choose m h using fun n => gridMesh_exists (Nat.succ_pos n) (fun _ => exLam_stiff one_pos one_pos one_pos one_pos) pn
  choose K0 K hK0 hK hG using fun n => (h n).made (Or.inr rfl) (1 / 10) false
  have hc : ∀ x ∈ unitSquare, AtLeast 1 ((fun _ => exIso : ℝ × ℝ → Lam) x) := fun _ _ => exLam_least le_rfl le_rfl
  have hsh : ∀ x ∈ unitSquare, ShearAtLeast 1 ((fun _ => exIso : ℝ × ℝ → Lam) x) := fun _ _ => exIso_shearLeast
  have hth : ∀ x ∈ unitSquare, 1 ≤ ((fun _ => exIso : ℝ × ℝ → Lam) x).h := fun _ _ => le_rfl
  choose f hf using fun n => consistent_exists (m n) bubbleLoad fun _ _ => 0
  choose d hd hu using fun n => C76_static (h n).reach (h n).good (by norm_num) (hK n) ((h n).held_border (Nat.succ_pos n)) (f n)
  obtain ⟨Xx, Xy, Yx, Yy, hE⟩ := bubble_equilibrium
  obtain ⟨t1, t2, _⟩ := C135_limit (fun n => (h n).reach) (fun n => (h n).good) (grid_refined h) (by norm_num) zero_le_one le_rfl exUniform_on one_pos one_pos one_pos hc hsh hth (R := 1)
    (fun x hx => by obtain ⟨⟨h1, h2⟩, h3, h4⟩ := mem_unitSquare.1 hx; rw [abs_of_nonneg h1]; exact h3) (by norm_num) zero_le_one (by norm_num) bubble_on hE (fun n => (h n).clamped)
    hK (fun n => (h n).nodal _) (fun n => bubble_supported (Nat.succ_pos n) _) (fun n => hf n _) hd
  exact ⟨m, K, f, d, h, fun n => ⟨hf n _, hK n, hd n⟩, t1, t2⟩

/-- edge loads `c` on the side `x = 1` of the square, none on the others -/
noncomputable def endLoad (c : ℕ → ℝ) (r : ℕ) (x : ℝ × ℝ) : ℝ := if x.1 = 1 then c r else 0

/-- The square held along `x = 0` and loaded at the opposite side only: the boundary conditions for fields whose forces and moments on sections normal to `x`
are constant and on those normal to `y` zero. -/
theorem GridMesh.endLoaded {k : ℕ} {l : ℝ × ℝ → Lam} {pn : Bool} {m : Mesh} (h : GridMesh k l pn m) (hk : 0 < k) {l' : ℝ × ℝ → Lam} {F Fx Fy : ℕ → ℝ × ℝ → ℝ} {c : ℕ → ℝ}
    (hX : ∀ r < 5, ∀ x, forceX l' F Fx Fy r x = c r) (hY : ∀ r < 5, ∀ x, forceY l' F Fx Fy r x = 0) : Traction m l' F Fx Fy (endLoad c) (gridEdge k) := by
  have hk' : (k : ℝ) ≠ 0 := by exact_mod_cast hk.ne'
  unfold endLoad
  intro key hkey e ht nu hn r hr
  obtain ⟨a, b, a', b', h2, h3, h4, h5, h6, h7, h8⟩ := h.side_border hkey (by rw [ht]; rfl)
  have p1 : pt m key.1 = ((a : ℝ) / k, (b : ℝ) / k) := by rw [h7, h.place _ (node_lt h2 h3), gridAt_eq h3]
  have p2 : pt m key.2 = ((a' : ℝ) / k, (b' : ℝ) / k) := by rw [h8, h.place _ (node_lt h4 h5), gridAt_eq h5]
  have hte : e ∈ (m.edge key).trias := by rw [ht]; simp
  obtain ⟨he, c1, c2⟩ := edge_tria h.reach.wf h.good.proper hkey hte
  have hkk : key.1 ≠ key.2 := by
    rcases edge_shape h.reach.wf h.good.proper hkey with ⟨t, o, htr, hs, _⟩ | ⟨t1, t2, o1, o2, htr, hs1, hs2, _⟩
    · exact hs.hab
    · exact hs1.hab
  have hne : ((a : ℝ) / k, (b : ℝ) / k) ≠ ((a' : ℝ) / k, (b' : ℝ) / k) := fun h0 => by
    obtain ⟨e1, e2⟩ := Prod.mk.inj h0
    rw [div_left_inj' hk', Nat.cast_inj] at e1 e2
    exact hkk (by rw [h7, h8, e1, e2])
  have x1 : nx m key.1 = (a : ℝ) / k := congrArg Prod.fst p1
  have y1 : ny m key.1 = (b : ℝ) / k := congrArg Prod.snd p1
  have x2 : nx m key.2 = (a' : ℝ) / k := congrArg Prod.fst p2
  have y2 : ny m key.2 = (b' : ℝ) / k := congrArg Prod.snd p2
  have hn2 := hn.normal
  rw [x1, y1, x2, y2] at hn2
  have flat : nu.1 = 0 → (a ≠ a') → ∀ t ∈ Set.Ioo (0:ℝ) 1, nu.1 * c r + nu.2 * 0 = (if (sidePt m key t).1 = 1 then c r else 0) := by
    intro h0 haa t ht
    have hz : (if (sidePt m key t).1 = 1 then c r else 0) = 0 := by
      refine if_neg ?_
      intro h1
      unfold sidePt at h1
      rw [p1, p2] at h1
      simp only [Prod.fst_add, Prod.smul_fst, Prod.fst_sub, smul_eq_mul] at h1
      field_simp at h1
      have q1 : (a : ℝ) ≤ k := by exact_mod_cast h2
      have q2 : (a' : ℝ) ≤ k := by exact_mod_cast h4
      obtain ⟨t0, t1⟩ := ht
      have e1 : (a : ℝ) = k := by nlinarith
      have e2 : (a' : ℝ) = k := by nlinarith
      exact haa (by exact_mod_cast e1.trans e2.symm)
    rw [h0, hz]
    ring
  simp only [hX r hr, hY r hr]
  rcases h6 with ⟨rfl, rfl⟩ | ⟨rfl, rfl⟩ | ⟨rfl, rfl⟩ | ⟨rfl, rfl⟩
  · left
    rw [h7, h8, h.idx (node_lt h2 h3), h.idx (node_lt h4 h5)]
    constructor
    · show 5 * (0 * (k + 1) + b) + r < 5 * (k + 1)
      omega
    · show 5 * (0 * (k + 1) + b') + r < 5 * (k + 1)
      omega
  · right
    intro t ht
    have hb : b ≠ b' := fun h0 => hne (by rw [h0])
    have hb' : (b' : ℝ) / a' - b / a' ≠ 0 := by
      rw [← sub_div]
      exact div_ne_zero (sub_ne_zero.2 (by exact_mod_cast hb.symm)) hk'
    have n2 : nu.2 = 0 := by
      rw [sub_self, mul_zero, zero_add] at hn2
      exact (mul_eq_zero.1 hn2).resolve_right hb'
    obtain ⟨i, hi, j, hj, s, g1, _⟩ := h.corners he
    have g2 := hn.out _ (Or.inl rfl)
    have x3 : nx m (m.tria e).n1 = (i : ℝ) / a' := congrArg Prod.fst g1
    rw [x3, x1, n2, zero_mul, add_zero, ← sub_div] at g2
    have hia : (i : ℝ) < a' := by exact_mod_cast hi
    have ha0 : (0 : ℝ) < a' := by exact_mod_cast hk
    have g3 : ((i : ℝ) - a') / a' < 0 := div_neg_of_neg_of_pos (by linarith) ha0
    have hu := hn.unit
    rw [n2] at hu
    have n1 : nu.1 = 1 := by
      have : 0 ≤ nu.1 := by by_contra h0; nlinarith
      nlinarith
    unfold sidePt
    rw [p1, p2, n1]
    simp [hk']
  · right
    exact flat ((mul_eq_zero.1 (by simpa using hn2)).resolve_right fun h0 => hne (by
      have := sub_eq_zero.1 h0
      rw [this])) fun h0 => hne (by rw [h0])
  · right
    exact flat ((mul_eq_zero.1 (by simpa using hn2)).resolve_right fun h0 => hne (by
      have := sub_eq_zero.1 h0
      rw [this])) fun h0 => hne (by rw [h0])

/-- Free edges: the square held along `x = 0` and pulled at the opposite side. The consistent nodal loads of the pull are in balance with the uniform
stretching of the square. -/
example {k : ℕ} {pn : Bool} {m : Mesh} (h : GridMesh k (fun _ => exIso) pn m) (hk : 0 < k) : ∃ f, Consistent m (fun _ _ => 0) (endLoad fun r => if r = 0 then 1 else 0) (gridEdge k) f ∧
    Balanced m (fun _ => exIso) (fun r x => if r = 0 then x.1 else 0) (fun r _ => if r = 0 then 1 else 0) (fun _ _ => 0) (gridEdge k) f := by
  obtain ⟨f, hf⟩ := consistent_exists m (fun _ _ => 0) (endLoad fun r => if r = 0 then 1 else 0)
  have hX : ∀ r x, forceX (fun _ => exIso) (fun r x => if r = 0 then x.1 else 0) (fun r _ => if r = 0 then 1 else 0) (fun _ _ => 0) r x = if r = 0 then 1 else 0 := by
    intro r x
    rcases r with _ | _ | _ | _ | _ | r <;> simp [forceX, exIso_resultant, exIso_shearForce, strain, shear]
  have hY : ∀ r x, forceY (fun _ => exIso) (fun r x => if r = 0 then x.1 else 0) (fun r _ => if r = 0 then 1 else 0) (fun _ _ => 0) r x = 0 := by
    intro r x
    rcases r with _ | _ | _ | _ | _ | r <;> simp [forceY, exIso_resultant, exIso_shearForce, strain, shear]
  refine ⟨f, hf _, C135_balanced (Xx := fun _ _ => 0) (Xy := fun _ _ => 0) (Yx := fun _ _ => 0) (Yy := fun _ _ => 0) (Om := unitSquare) h.reach h.good.proper h.good.planar
    (fun _ he => (h.tiles hk).sub he) ⟨?_, ?_, ?_, ?_⟩ ?_ (hf _)⟩
  · intro r _ x _
    rw [funext (hX r)]
    simpa using hasFDerivWithinAt_const _ _ _
  · intro r _ x _
    rw [funext (hY r)]
    simpa using hasFDerivWithinAt_const _ _ _
  · exact fun r _ => ⟨continuousOn_const, continuousOn_const, continuousOn_const, continuousOn_const⟩
  · intro r hr x _
    rcases (by omega : r = 0 ∨ r = 1 ∨ r = 2 ∨ r = 3 ∨ r = 4) with rfl | rfl | rfl | rfl | rfl <;> simp [couple, exIso_shearForce, shear]
  · exact h.endLoaded hk (fun r _ => hX r) fun r _ => hY r

end Meshless
