import Verif.Lemmas.K0sForm
import Verif.Lemmas.GenEdgeB
import Verif.Lemmas.GenEdgeI
import Verif.Lemmas.Energy
import Verif.Spec.ShearEdge

/-! The form added by the edge-based shear method. -/

set_option autoImplicit false

namespace Meshless
open Spec Finset

theorem Side.swap {m : Mesh} {t o : ℕ} {a b : ℕ} (h : Side m t (a, b) o) : Side m t (b, a) o :=
  ⟨h.mem, h.perm.trans (List.Perm.swap _ _ _), h.hab.symm, h.hbo, h.hao, h.inb, h.ina, h.ino⟩

theorem Side.cSum {m : Mesh} {t o : ℕ} {k : Key} (h : Side m t k o) (z : ℕ → ℝ) (r : ℕ) :
    cSum m t z r = disp m z r k.1 + disp m z r k.2 + disp m z r o := by
  have := mean_corners h (disp m z r)
  unfold mean at this
  unfold Spec.cSum
  rw [show ((corners m t).length : ℝ) = 3 by simp [corners]] at this
  linarith

theorem Side.third {m : Mesh} {t o : ℕ} {k : Key} (h : Side m t k o) (z : ℕ → ℝ) (r : ℕ) : third m k t z r = disp m z r o := by
  unfold Spec.third; rw [h.cSum]; ring

theorem eps1_eq : eps1 = sqErr := by unfold eps1 sqErr; norm_num
theorem eps2_eq : eps2 = prodErr := rfl
theorem eps3_eq : eps3 = quarterErr := rfl

/-! ### boundary edges -/

/-- local variables of a boundary edge with ordered ends `a b` -/
noncomputable def edgeBVal (m : Mesh) (t a b o : ℕ) (E : Fin 2 → Fin 2 → ℝ) : EdgeBEnv ℝ :=
  let X := mean (nx m) (corners m t); let Y := mean (ny m) (corners m t)
  { i1 := (m.nids.idxOf a : ℕ), i2 := (m.nids.idxOf b : ℕ), i3 := (m.nids.idxOf o : ℕ), Ac := |sarea m [corners m t, [a], [b]]|,
    a1 := nx m a - X, b1 := ny m a - Y, c1 := nx m b - X, d1 := ny m b - Y, E44 := E 0 0, E45 := E 0 1, E55 := E 1 1 }

theorem strain_edgeB {m : Mesh} {t a b o : ℕ} {E : Fin 2 → Fin 2 → ℝ} (hs : Side m t (a, b) o) (hpos : 0 < sarea m [corners m t, [a], [b]]) (z : ℕ → ℝ) :
    strainOf (5 * m.nids.length) (edgeBDofs (edgeBVal m t a b o E)) z = v8
      (dsg m z (corners m t) [a] [b] 0 + lit1 m t a b z 0 / |sarea m [corners m t, [a], [b]]|)
      (dsg m z (corners m t) [a] [b] 1 + lit1 m t a b z 1 / |sarea m [corners m t, [a], [b]]|)
      (disp m z 3 o) (disp m z 4 o)
      (quarterErr * ((ny m a - mean (ny m) (corners m t)) * (ny m b - mean (ny m) (corners m t)) * (disp m z 4 a - disp m z 4 b))
        + sqErr * (|sarea m [corners m t, [a], [b]]| * disp m z 3 o - turned m a b 0 * disp m z 2 o))
      (quarterErr * (-((nx m a - mean (nx m) (corners m t)) * (nx m b - mean (nx m) (corners m t)) * (disp m z 3 a - disp m z 3 b)))
        + sqErr * (|sarea m [corners m t, [a], [b]]| * disp m z 4 o - turned m a b 1 * disp m z 2 o))
      (quarterErr * ((ny m a - mean (ny m) (corners m t)) * (ny m b - mean (ny m) (corners m t)) * (disp m z 4 a - disp m z 4 b)))
      (quarterErr * (-((nx m a - mean (nx m) (corners m t)) * (nx m b - mean (nx m) (corners m t)) * (disp m z 3 a - disp m z 3 b)))) := by
  have va : ∀ r : ℕ, r < 5 → ∀ i ∈ m.nids, vAt (5 * m.nids.length) z (((m.nids.idxOf i : ℕ) : ℤ) * 5 + r) = disp m z r i :=
    fun r hr i hi => vAt_indexed z hi hr
  have va2 := va 2 (by norm_num)
  have va3 := va 3 (by norm_num)
  have va4 := va 4 (by norm_num)
  push_cast at va2 va3 va4
  have ha : a ∈ m.nids := hs.ina
  have hb : b ∈ m.nids := hs.inb
  have ho := hs.ino
  have hA : sarea m [corners m t, [a], [b]] = ((nx m a - mean (nx m) (corners m t)) * (ny m b - mean (ny m) (corners m t))
      - (nx m b - mean (nx m) (corners m t)) * (ny m a - mean (ny m) (corners m t))) / 2 := by
    rw [sarea3]; simp only [mean_single]
  have h6 : (0.166666666666667 : ℝ) = 1 / 6 + sixthErr := by unfold sixthErr; ring
  set A := sarea m [corners m t, [a], [b]] with hAdef
  have hA0 := hpos.ne'
  have t0 : turned m a b 0 = ny m b - ny m a := rfl
  have t1 : turned m a b 1 = nx m a - nx m b := rfl
  have q2 := hs.cSum z 2
  have q3 := hs.cSum z 3
  have q4 := hs.cSum z 4
  dsimp only at q2 q3 q4
  have mx := mean_corners hs (nx m)
  have my := mean_corners hs (ny m)
  dsimp only at mx my
  funext p
  fin_cases p
  · simp only [Fin.zero_eta, v8_0, strainOf, edgeBVal, edgeBDofs, List.map_cons, List.map_nil, List.sum_cons, List.sum_nil, va2 a ha, va2 b hb, va2 o ho,
      va3 a ha, va3 b hb, va3 o ho, va4 a ha, va4 b hb, va4 o ho, ← hAdef, abs_of_pos hpos, lit1, dsg, Matrix.cons_val_zero, t0, q2, q3, gap,
      mean_single, Fin.val_zero, add_zero, mean_corners hs (disp m z 2), mean_corners hs (disp m z 3), mean_corners hs (disp m z 4)]
    rw [h6]
    field_simp
    rw [hA, mx, my]
    ring
  · simp only [Fin.mk_one, v8_1, strainOf, edgeBVal, edgeBDofs, List.map_cons, List.map_nil, List.sum_cons, List.sum_nil, va2 a ha, va2 b hb, va2 o ho,
      va3 a ha, va3 b hb, va3 o ho, va4 a ha, va4 b hb, va4 o ho, ← hAdef, abs_of_pos hpos, lit1, dsg, Matrix.cons_val_zero, Matrix.cons_val_one, t1, q2, q4, gap,
      mean_single, Fin.val_one, mean_corners hs (disp m z 2), mean_corners hs (disp m z 3), mean_corners hs (disp m z 4), Nat.reduceAdd]
    rw [h6]
    field_simp
    rw [hA, mx, my]
    ring
  all_goals
    simp only [Fin.reduceFinMk, v8_2, v8_3, v8_4, v8_5, v8_6, v8_7, strainOf, edgeBVal, edgeBDofs, List.map_cons, List.map_nil, List.sum_cons, List.sum_nil,
      va2 a ha, va2 b hb, va2 o ho, va3 a ha, va3 b hb, va3 o ho, va4 a ha, va4 b hb, va4 o ho, ← hAdef, abs_of_pos hpos, t0, t1, eps1_eq, eps3_eq]
    ring

/-! ### interior edges -/

/-- local variables of an interior edge with ordered ends `a b` -/
noncomputable def edgeIVal (m : Mesh) (k : Key) (t1 t2 a b o1 o2 : ℕ) (E : Fin 2 → Fin 2 → ℝ) : EdgeIEnv ℝ :=
  let X := mean (nx m) (corners m t1); let Y := mean (ny m) (corners m t1)
  { i1 := (m.nids.idxOf a : ℕ), i2 := (m.nids.idxOf b : ℕ), i3 := (m.nids.idxOf o1 : ℕ), i4 := (m.nids.idxOf o2 : ℕ),
    Ac := |sarea m (dom m k)|, Ac1 := |sarea m [corners m t1, [a], [b]]|, Ac2 := |sarea m [[a], corners m t2, [b]]|,
    a1 := nx m a - X, b1 := (m.node a).xyz.z - Y, c1 := nx m b - X, d1 := ny m b - Y,
    a2 := mean (nx m) (corners m t2) - nx m a, b2 := mean (ny m) (corners m t2) - ny m a, c2 := nx m b - nx m a, d2 := ny m b - ny m a,
    E44 := E 0 0, E45 := E 0 1, E55 := E 1 1 }

theorem strain_edgeI {m : Mesh} {k : Key} {t1 t2 a b o1 o2 : ℕ} {E : Fin 2 → Fin 2 → ℝ} (hs1 : Side m t1 (a, b) o1) (hs2 : Side m t2 (a, b) o2)
    (hp1 : 0 < sarea m [corners m t1, [a], [b]]) (hp2 : 0 < sarea m [[a], corners m t2, [b]]) (z : ℕ → ℝ) :
    strainOf (5 * m.nids.length) (edgeIDofs (edgeIVal m k t1 t2 a b o1 o2 E)) z = v8
      (|sarea m [corners m t1, [a], [b]]| * dsg m z (corners m t1) [a] [b] 0 + |sarea m [[a], corners m t2, [b]]| * dsg m z [a] (corners m t2) [b] 0
        + (lit1 m t1 a b z 0 + swap1 m t1 a b z 0 + lit2 m t2 a b z 0))
      (|sarea m [corners m t1, [a], [b]]| * dsg m z (corners m t1) [a] [b] 1 + |sarea m [[a], corners m t2, [b]]| * dsg m z [a] (corners m t2) [b] 1
        + (lit1 m t1 a b z 1 + swap1 m t1 a b z 1 + lit2 m t2 a b z 1))
      (|sarea m [corners m t1, [a], [b]]| / |sarea m (dom m k)| * disp m z 3 o1) (|sarea m [corners m t1, [a], [b]]| / |sarea m (dom m k)| * disp m z 4 o1)
      (sqErr * (|sarea m [corners m t1, [a], [b]]| * disp m z 3 o1) + turned m a b 0 * (sqErr * disp m z 2 o2 + prodErr *
        ((mean (nx m) (corners m t2) - nx m a) * disp m z 3 o2 + (mean (ny m) (corners m t2) - ny m a) * disp m z 4 o2)))
      (sqErr * (|sarea m [corners m t1, [a], [b]]| * disp m z 4 o1) + turned m a b 1 * (sqErr * disp m z 2 o2 + prodErr *
        ((mean (nx m) (corners m t2) - nx m a) * disp m z 3 o2 + (mean (ny m) (corners m t2) - ny m a) * disp m z 4 o2)))
      0 0 := by
  have va : ∀ r : ℕ, r < 5 → ∀ i ∈ m.nids, vAt (5 * m.nids.length) z (((m.nids.idxOf i : ℕ) : ℤ) * 5 + r) = disp m z r i :=
    fun r hr i hi => vAt_indexed z hi hr
  have va2 := va 2 (by norm_num)
  have va3 := va 3 (by norm_num)
  have va4 := va 4 (by norm_num)
  push_cast at va2 va3 va4
  have ha : a ∈ m.nids := hs1.ina
  have hb : b ∈ m.nids := hs1.inb
  have ho1 := hs1.ino
  have ho2 := hs2.ino
  have hA1 : sarea m [corners m t1, [a], [b]] = ((nx m a - mean (nx m) (corners m t1)) * (ny m b - mean (ny m) (corners m t1))
      - (nx m b - mean (nx m) (corners m t1)) * (ny m a - mean (ny m) (corners m t1))) / 2 := by
    rw [sarea3]; simp only [mean_single]
  have hA2 : sarea m [[a], corners m t2, [b]] = ((mean (nx m) (corners m t2) - nx m a) * (ny m b - ny m a)
      - (nx m b - nx m a) * (mean (ny m) (corners m t2) - ny m a)) / 2 := by
    rw [sarea3]; simp only [mean_single]
  have h6 : (0.166666666666667 : ℝ) = 1 / 6 + sixthErr := by unfold sixthErr; ring
  have h12 : (0.0833333333333333 : ℝ) = 1 / 12 + twelfthErr := by unfold twelfthErr; ring
  set A1 := sarea m [corners m t1, [a], [b]] with hA1def
  set A2 := sarea m [[a], corners m t2, [b]] with hA2def
  have hA10 := hp1.ne'
  have hA20 := hp2.ne'
  have t0 : turned m a b 0 = ny m b - ny m a := rfl
  have t1' : turned m a b 1 = nx m a - nx m b := rfl
  have q2 := hs1.cSum z 2
  have q3 := hs1.cSum z 3
  have q4 := hs1.cSum z 4
  have r2 := hs2.cSum z 2
  have r3 := hs2.cSum z 3
  have r4 := hs2.cSum z 4
  dsimp only at q2 q3 q4 r2 r3 r4
  have mx := mean_corners hs1 (nx m)
  have my := mean_corners hs1 (ny m)
  have mx2 := mean_corners hs2 (nx m)
  have my2 := mean_corners hs2 (ny m)
  dsimp only at mx my mx2 my2
  have s1 : ∀ x : ℝ, A1 * (x / (2 * A1)) = x / 2 := by intro x; field_simp
  have s2 : ∀ x : ℝ, A2 * (x / (2 * A2)) = x / 2 := by intro x; field_simp
  funext p
  fin_cases p
  · simp only [Fin.zero_eta, v8_0, strainOf, edgeIVal, edgeIDofs, EdgeIEnv.gx_i1_2, EdgeIEnv.gx_i1_3, EdgeIEnv.gx_i1_4, EdgeIEnv.gx_i2_2, EdgeIEnv.gx_i2_3,
      EdgeIEnv.gx_i2_4, List.map_cons, List.map_nil, List.sum_cons, List.sum_nil, va2 a ha, va2 b hb, va2 o1 ho1, va2 o2 ho2,
      va3 a ha, va3 b hb, va3 o1 ho1, va3 o2 ho2, va4 a ha, va4 b hb, va4 o1 ho1, va4 o2 ho2, ← hA1def, ← hA2def, abs_of_pos hp1, abs_of_pos hp2, lit1, lit2,
      swap1, dsg, Matrix.cons_val_zero, t0, q2, q3, r2, r3, r4, gap, mean_single, Fin.val_zero, add_zero, if_true,
      mean_corners hs1 (disp m z 2), mean_corners hs1 (disp m z 3), mean_corners hs1 (disp m z 4),
      mean_corners hs2 (disp m z 2), mean_corners hs2 (disp m z 3), mean_corners hs2 (disp m z 4), s1, s2]
    rw [h6, h12]
    field_simp
    rw [hA1, hA2, mx, my, mx2, my2]
    ring
  · simp only [Fin.mk_one, v8_1, strainOf, edgeIVal, edgeIDofs, EdgeIEnv.gy_i1_2, EdgeIEnv.gy_i1_3, EdgeIEnv.gy_i1_4, EdgeIEnv.gy_i2_2, EdgeIEnv.gy_i2_3,
      EdgeIEnv.gy_i2_4, List.map_cons, List.map_nil, List.sum_cons, List.sum_nil, va2 a ha, va2 b hb, va2 o1 ho1, va2 o2 ho2,
      va3 a ha, va3 b hb, va3 o1 ho1, va3 o2 ho2, va4 a ha, va4 b hb, va4 o1 ho1, va4 o2 ho2, ← hA1def, ← hA2def, abs_of_pos hp1, abs_of_pos hp2, lit1, lit2,
      swap1, dsg, Matrix.cons_val_zero, Matrix.cons_val_one, t1', q2, q4, r2, r3, r4, gap, mean_single, Fin.val_one, Nat.reduceAdd, one_ne_zero, if_false,
      mean_corners hs1 (disp m z 2), mean_corners hs1 (disp m z 3), mean_corners hs1 (disp m z 4),
      mean_corners hs2 (disp m z 2), mean_corners hs2 (disp m z 3), mean_corners hs2 (disp m z 4), s1, s2]
    rw [h6, h12]
    field_simp
    rw [hA1, hA2, mx, my, mx2, my2]
    ring
  all_goals
    simp only [Fin.reduceFinMk, v8_2, v8_3, v8_4, v8_5, v8_6, v8_7, strainOf, edgeIVal, edgeIDofs, List.map_cons, List.map_nil, List.sum_cons, List.sum_nil,
      va2 a ha, va2 b hb, va2 o1 ho1, va2 o2 ho2, va3 a ha, va3 b hb, va3 o1 ho1, va3 o2 ho2, va4 a ha, va4 b hb, va4 o1 ho1, va4 o2 ho2,
      ← hA1def, abs_of_pos hp1, t0, t1', eps1_eq, eps2_eq]
    ring

/-! ### the forms of single edges -/

theorem bil_edgeB {m : Mesh} {t a b o : ℕ} {E : Fin 2 → Fin 2 → ℝ} (hE : E 1 0 = E 0 1) (hs : Side m t (a, b) o) (hpos : 0 < sarea m [corners m t, [a], [b]])
    {k : Key} (htr : (m.edge k).trias = [t]) (hends : ends m k t = (a, b)) (hk : (a, b) = k ∨ (b, a) = k)
    (hdom : |sarea m (dom m k)| = |sarea m [corners m t, [a], [b]]|) (v u : ℕ → ℝ) :
    bil (5 * m.nids.length) (entrySum (5 * m.nids.length) (edgeBEntries (edgeBVal m t a b o E))) v u =
      edgeEnergy m k E (fun z r => edgeGamma m k z r + devGamma m k z r) v u + edgeResid m k E v u := by
  have hsk : Side m t k o := by rcases hk with rfl | rfl; exacts [hs, hs.swap]
  rw [edgeBEntries_eq _ (by unfold edgeBVal; exact (abs_pos.2 hpos.ne').ne'), bil_outer, strain_edgeB hs hpos, strain_edgeB hs hpos, sumE]
  simp only [edgeEnergy, edgeResid, form2, Fin.sum_univ_two, edgeGamma, devGamma, residRho, residEta, residKappa, htr, hends, hdom, hsk.third, Fin.val_zero,
    Fin.val_one, Nat.reduceAdd, add_zero, if_true, one_ne_zero, if_false, hE]
  simp only [edgeBVal]
  ring

theorem bil_edgeI {m : Mesh} {t1 t2 a b o1 o2 : ℕ} {E : Fin 2 → Fin 2 → ℝ} (hE : E 1 0 = E 0 1) (hs1 : Side m t1 (a, b) o1) (hs2 : Side m t2 (a, b) o2)
    (hp1 : 0 < sarea m [corners m t1, [a], [b]]) (hp2 : 0 < sarea m [[a], corners m t2, [b]])
    {k : Key} (htr : (m.edge k).trias = [t1, t2]) (hends : ends m k t1 = (a, b)) (hk : (a, b) = k ∨ (b, a) = k) (h0 : sarea m (dom m k) ≠ 0) (v u : ℕ → ℝ) :
    bil (5 * m.nids.length) (entrySum (5 * m.nids.length) (edgeIEntries (edgeIVal m k t1 t2 a b o1 o2 E))) v u =
      edgeEnergy m k E (fun z r => edgeGamma m k z r + devGamma m k z r) v u + edgeResid m k E v u := by
  have hsk1 : Side m t1 k o1 := by rcases hk with rfl | rfl; exacts [hs1, hs1.swap]
  have hsk2 : Side m t2 k o2 := by rcases hk with rfl | rfl; exacts [hs2, hs2.swap]
  have hA0 : |sarea m (dom m k)| ≠ 0 := abs_ne_zero.2 h0
  rw [edgeIEntries_eq, bil_outer, strain_edgeI hs1 hs2 hp1 hp2, strain_edgeI hs1 hs2 hp1 hp2, sumE]
  simp only [edgeEnergy, edgeResid, form2, Fin.sum_univ_two, edgeGamma, devGamma, residRho, residEta, residKappa, htr, hends, hsk1.third, hsk2.third, Fin.val_zero,
    Fin.val_one, Nat.reduceAdd, add_zero, hE]
  simp only [edgeIVal, ← add_div]
  have key : ∀ x y E : ℝ, |sarea m (dom m k)| * (x / |sarea m (dom m k)| * E * (y / |sarea m (dom m k)|)) = 1 / |sarea m (dom m k)| * (x * E * y) := by
    intro x y E; field_simp
  simp only [mul_add, key]
  ring

theorem entriesOk_edgeB {m : Mesh} {t a b o : ℕ} {E : Fin 2 → Fin 2 → ℝ} (hs : Side m t (a, b) o) (hpos : 0 < sarea m [corners m t, [a], [b]]) :
    EntriesOk (5 * m.nids.length) (edgeBEntries (edgeBVal m t a b o E)) := by
  have ha : a ∈ m.nids := hs.ina
  have hb : b ∈ m.nids := hs.inb
  have ho := hs.ino
  rw [edgeBEntries_eq _ (by unfold edgeBVal; exact (abs_pos.2 hpos.ne').ne')]
  apply entriesOk_outer
  intro x hx
  simp only [edgeBDofs, List.mem_cons, List.not_mem_nil, or_false] at hx
  rcases hx with rfl | rfl | rfl | rfl | rfl | rfl | rfl | rfl | rfl
  · exact idx_ok ha 2 (by simp)
  · exact idx_ok ha 3 (by simp)
  · exact idx_ok ha 4 (by simp)
  · exact idx_ok hb 2 (by simp)
  · exact idx_ok hb 3 (by simp)
  · exact idx_ok hb 4 (by simp)
  · exact idx_ok ho 2 (by simp)
  · exact idx_ok ho 3 (by simp)
  · exact idx_ok ho 4 (by simp)

theorem entriesOk_edgeI {m : Mesh} {k : Key} {t1 t2 a b o1 o2 : ℕ} {E : Fin 2 → Fin 2 → ℝ} (hs1 : Side m t1 (a, b) o1) (hs2 : Side m t2 (a, b) o2) :
    EntriesOk (5 * m.nids.length) (edgeIEntries (edgeIVal m k t1 t2 a b o1 o2 E)) := by
  have ha : a ∈ m.nids := hs1.ina
  have hb : b ∈ m.nids := hs1.inb
  have ho1 := hs1.ino
  have ho2 := hs2.ino
  rw [edgeIEntries_eq]
  apply entriesOk_outer
  intro x hx
  simp only [edgeIDofs, List.mem_cons, List.not_mem_nil, or_false] at hx
  rcases hx with rfl | rfl | rfl | rfl | rfl | rfl | rfl | rfl | rfl | rfl | rfl | rfl
  · exact idx_ok ha 2 (by simp)
  · exact idx_ok ha 3 (by simp)
  · exact idx_ok ha 4 (by simp)
  · exact idx_ok hb 2 (by simp)
  · exact idx_ok hb 3 (by simp)
  · exact idx_ok hb 4 (by simp)
  · exact idx_ok ho1 2 (by simp)
  · exact idx_ok ho1 3 (by simp)
  · exact idx_ok ho1 4 (by simp)
  · exact idx_ok ho2 2 (by simp)
  · exact idx_ok ho2 3 (by simp)
  · exact idx_ok ho2 4 (by simp)

/-! ### the local variables -/

theorem edgeOrient_ends {m : Mesh} (hb : ∀ i ∈ m.nids, (m.node i).cp (m.node i).xyz = (m.node i).xyz) {k : Key} {t o : ℕ} (hs : Side m t k o)
    (h1 : (m.edge k).n1 = k.1) (h2 : (m.edge k).n2 = k.2) : edgeOrient m (m.edge k) t = ends m k t := by
  obtain ⟨q1, q2, _⟩ := mid_eq hb hs
  have hsign : Vec3.dot (Vec3.cross ((m.node k.2).xyz.sub (m.node k.1).xyz) ((m.mid t).sub (m.node k.1).xyz)) zGlobal = 2 * sarea m [[k.1], [k.2], corners m t] := by
    rw [sarea3, mean_corners hs, mean_corners hs, ← q1, ← q2]
    simp only [Vec3.dot, Vec3.cross, Vec3.sub, zGlobal, mean_single, nx, ny]
    ring
  unfold edgeOrient ends
  rw [h1, h2, hsign]
  by_cases h : sarea m [[k.1], [k.2], corners m t] < 0
  · rw [if_pos (by linarith), if_pos h]
  · rw [if_neg (by linarith), if_neg h]

/-- the ordered ends are counter-clockwise with the centroid -/
theorem ends_spec {m : Mesh} {k : Key} {t o : ℕ} (hs : Side m t k o) (h0 : sarea m [[k.1], [k.2], corners m t] ≠ 0) :
    Side m t ((ends m k t).1, (ends m k t).2) o ∧ 0 < sarea m [corners m t, [(ends m k t).1], [(ends m k t).2]] ∧
      (((ends m k t).1, (ends m k t).2) = k ∨ ((ends m k t).2, (ends m k t).1) = k) ∧
      (∀ P : List ℕ, sarea m [[k.1], [k.2], corners m t] * sarea m [[k.1], [k.2], P] < 0 → 0 < sarea m [[(ends m k t).1], P, [(ends m k t).2]]) := by
  have hrot : ∀ a b : ℕ, sarea m [corners m t, [a], [b]] = sarea m [[a], [b], corners m t] := by intro a b; rw [sarea3, sarea3]; ring
  have hsw : ∀ (a b : ℕ) (P : List ℕ), sarea m [[a], [b], P] = - sarea m [[b], [a], P] := by intro a b P; rw [sarea3, sarea3]; ring
  have hsw' : ∀ (a b : ℕ) (P : List ℕ), sarea m [[a], P, [b]] = sarea m [[b], [a], P] := by intro a b P; rw [sarea3, sarea3]; ring
  unfold ends
  split
  · rename_i h
    refine ⟨hs.swap, ?_, Or.inr rfl, fun P hP => ?_⟩
    · rw [hrot, hsw]; linarith
    · dsimp only
      rw [hsw']; exact (neg_iff_pos_of_mul_neg hP).1 h
  · rename_i h
    have hpos : 0 < sarea m [[k.1], [k.2], corners m t] := lt_of_le_of_ne (not_lt.1 h) (Ne.symm h0)
    refine ⟨hs, by rw [hrot]; exact hpos, Or.inl rfl, fun P hP => ?_⟩
    dsimp only
    rw [hsw', hsw]
    have := (neg_iff_pos_of_mul_neg hP).2
    nlinarith

theorem mid_mean {m : Mesh} (hb : ∀ i ∈ m.nids, (m.node i).cp (m.node i).xyz = (m.node i).xyz) {t o : ℕ} {k : Key} (hs : Side m t k o) :
    (m.mid t).x = mean (nx m) (corners m t) ∧ (m.mid t).y = mean (ny m) (corners m t) := by
  obtain ⟨h1, h2, _⟩ := mid_eq hb hs
  rw [mean_corners hs, mean_corners hs]; exact ⟨h1, h2⟩

/-- averaged laminate data of an edge -/
noncomputable def eShear (m : Mesh) (pn : Bool) (k : Key) : ShearProp :=
  ⟨avg m pn k fun l => l.k13, avg m pn k fun l => l.k23, avg m pn k fun l => l.h, fun i j => avg m pn k fun l => l.E i j⟩

theorem dom_b {m : Mesh} {k : Key} {t : ℕ} (htr : (m.edge k).trias = [t]) : dom m k = [[k.1], corners m t, [k.2]] := by simp [dom, htr]
theorem dom_i {m : Mesh} {k : Key} {t1 t2 : ℕ} (htr : (m.edge k).trias = [t1, t2]) : dom m k = [[k.1], corners m t1, [k.2], corners m t2] := by simp [dom, htr]

theorem edgeBShear_eq {m : Mesh} {pn : Bool} (hh : HasProps m pn) {k : Key} {t a b o : ℕ} (hs : Side m t (a, b) o) (hk : (a, b) = k ∨ (b, a) = k)
    (htr : (m.edge k).trias = [t]) (h0 : triArea m t ≠ 0) : edgeBShear m pn t a b o = .ok (eShear m pn k) := by
  unfold edgeBShear
  cases pn with
  | true =>
    obtain ⟨p, e1⟩ := hasProps_node hh hs.mem ((hs.corner_iff a).2 (by simp))
    obtain ⟨q, e2⟩ := hasProps_node hh hs.mem ((hs.corner_iff b).2 (by simp))
    obtain ⟨r, e3⟩ := hasProps_node hh hs.mem ((hs.corner_iff o).2 (by simp))
    rw [if_pos rfl, e1, e2, e3]
    have key : ∀ s : Lam → ℝ, avg m true k s = 4/9 * s p + 4/9 * s q + 1/9 * s r := by
      intro s
      unfold avg
      rw [if_pos rfl, dom_b htr]
      rcases hk with rfl | rfl <;>
      · simp only [List.map_cons, List.map_nil, List.sum_cons, List.sum_nil, mean_single, mean_corners hs, List.length_cons, List.length_nil, e1, e2, e3, ofProp]
        push_cast; ring
    simp only [eShear, shear3, key]
    rfl
  | false =>
    obtain ⟨p, e1⟩ := hasProps_tria hh hs.mem
    rw [if_neg (by simp), e1]
    have key : ∀ s : Lam → ℝ, avg m false k s = s p := by
      intro s
      unfold avg
      simp only [Bool.false_eq_true, if_false, htr, List.map_cons, List.map_nil, List.sum_cons, List.sum_nil, add_zero, e1, ofProp]
      rw [mul_div_cancel_left₀ _ h0]
    simp only [eShear, key]
    rfl

theorem edgeIShear_eq {m : Mesh} {pn : Bool} (hh : HasProps m pn) {k : Key} {t1 t2 a b o1 o2 : ℕ} (hs1 : Side m t1 (a, b) o1) (hs2 : Side m t2 (a, b) o2)
    (hk : (a, b) = k ∨ (b, a) = k) (htr : (m.edge k).trias = [t1, t2]) :
    edgeIShear m pn (triArea m t1 / 3) (triArea m t2 / 3) (triArea m t1 / 3 + triArea m t2 / 3) t1 t2 a b o1 o2 = .ok (eShear m pn k) := by
  unfold edgeIShear
  cases pn with
  | true =>
    obtain ⟨p, e1⟩ := hasProps_node hh hs1.mem ((hs1.corner_iff a).2 (by simp))
    obtain ⟨q, e2⟩ := hasProps_node hh hs1.mem ((hs1.corner_iff b).2 (by simp))
    obtain ⟨r, e3⟩ := hasProps_node hh hs1.mem ((hs1.corner_iff o1).2 (by simp))
    obtain ⟨r', e4⟩ := hasProps_node hh hs2.mem ((hs2.corner_iff o2).2 (by simp))
    rw [if_pos rfl, e1, e2, e3, e4]
    have key : ∀ s : Lam → ℝ, avg m true k s = 5/12 * s p + 5/12 * s q + 1/12 * s r + 1/12 * s r' := by
      intro s
      unfold avg
      rw [if_pos rfl, dom_i htr]
      rcases hk with rfl | rfl <;>
      · simp only [List.map_cons, List.map_nil, List.sum_cons, List.sum_nil, mean_single, mean_corners hs1, mean_corners hs2, List.length_cons,
          List.length_nil, e1, e2, e3, e4, ofProp]
        push_cast; ring
    simp only [eShear, shear4, key]
    rfl
  | false =>
    obtain ⟨p, e1⟩ := hasProps_tria hh hs1.mem
    obtain ⟨q, e2⟩ := hasProps_tria hh hs2.mem
    rw [if_neg (by simp), e1, e2]
    have key : ∀ s : Lam → ℝ, avg m false k s = (triArea m t1 / 3 * s p + triArea m t2 / 3 * s q) / (triArea m t1 / 3 + triArea m t2 / 3) := by
      intro s
      unfold avg
      simp only [Bool.false_eq_true, if_false, htr, List.map_cons, List.map_nil, List.sum_cons, List.sum_nil, add_zero, e1, e2, ofProp]
      rw [← add_div, div_mul_eq_mul_div, div_mul_eq_mul_div, ← add_div, div_div_div_cancel_right₀ (by norm_num)]
    simp only [eShear, shearA, key]
    rfl

theorem vdist_comm (m : Mesh) (P Q : List ℕ) : vdist m P Q = vdist m Q P := by unfold vdist; congr 1; ring
theorem vdist_nonneg (m : Mesh) (P Q : List ℕ) : 0 ≤ vdist m P Q := Real.sqrt_nonneg _

theorem edgeBMaxl_eq {m : Mesh} (hb : ∀ i ∈ m.nids, (m.node i).cp (m.node i).xyz = (m.node i).xyz)
    (hz : ∀ i ∈ m.nids, ∀ j ∈ m.nids, (m.node i).xyz.z = (m.node j).xyz.z) {k : Key} {t o : ℕ} (he : m.edge k = bEdge m k t o) (hs : Side m t k o) (fa : Bool) :
    edgeBMaxl (m.edge k) |sarea m (dom m k)| fa = .ok (edgeCharLen m fa k) := by
  have htr : (m.edge k).trias = [t] := by rw [he]; rfl
  unfold edgeBMaxl edgeCharLen
  cases fa with
  | true => rfl
  | false =>
    simp only [Bool.false_eq_true, if_false]
    obtain ⟨-, -, m3⟩ := mid_eq hb hs
    have z1 := hz _ hs.ina _ hs.inb
    have z2 := hz _ hs.ina _ hs.ino
    have nc : ∀ i : ℕ, i = k.1 ∨ i = k.2 → ((m.node i).xyz.sub (m.mid t)).norm = vdist m [i] (corners m t) ∧
        ((m.mid t).sub (m.node i).xyz).norm = vdist m [i] (corners m t) := by
      intro i hi
      have zi : (m.node i).xyz.z = (m.mid t).z := by rw [m3]; rcases hi with rfl | rfl <;> linarith
      unfold Vec3.norm Vec3.sub vdist
      simp only [mean_single, (mid_mean hb hs).1, (mid_mean hb hs).2, nx, ny]
      constructor <;> congr 1 <;> rw [zi] <;> ring
    have nn : ((m.node k.1).xyz.sub (m.node k.2).xyz).norm = vdist m [k.1] [k.2] ∧ ((m.node k.2).xyz.sub (m.node k.1).xyz).norm = vdist m [k.1] [k.2] := by
      unfold Vec3.norm Vec3.sub vdist
      simp only [mean_single, nx, ny]
      constructor <;> congr 1 <;> rw [z1] <;> ring
    have h := dom_b htr
    have hL : pyMax ((m.edge k).ipts.map (·.le)) = some (max (max (vdist m [k.1] (corners m t)) (vdist m [k.2] (corners m t))) (vdist m [k.1] [k.2])) := by
      rw [he]
      rcases orient_cases m (m.mid t) k.1 k.2 with h | h <;>
        simp only [bEdge, h, iptsA, iptsB, mkIPt, List.cons_append, List.nil_append, List.map_cons, List.map_nil, pyMax, List.foldl_cons, List.foldl_nil,
          (nc k.1 (Or.inl rfl)).1, (nc k.2 (Or.inr rfl)).1, (nc k.1 (Or.inl rfl)).2, (nc k.2 (Or.inr rfl)).2, nn.1, nn.2]
      rw [max_comm (vdist m [k.2] (corners m t))]
    rw [hL, h]
    dsimp only
    simp only [show sides [[k.1], corners m t, [k.2]] = [([k.1], corners m t), (corners m t, [k.2]), ([k.2], [k.1])] from rfl, List.map_cons, List.map_nil,
      List.cons_append, List.nil_append, List.foldr_cons, List.foldr_nil, vdist_comm m (corners m t) [k.2], vdist_comm m [k.2] [k.1], max_eq_left (vdist_nonneg _ _ _),
      max_self, max_assoc]

theorem edgeIMaxl_eq {m : Mesh} (hb : ∀ i ∈ m.nids, (m.node i).cp (m.node i).xyz = (m.node i).xyz)
    (hz : ∀ i ∈ m.nids, ∀ j ∈ m.nids, (m.node i).xyz.z = (m.node j).xyz.z) {k : Key} {t1 t2 o1 o2 : ℕ} (he : m.edge k = iEdge m k t1 t2 o1 o2)
    (hs1 : Side m t1 k o1) (hs2 : Side m t2 k o2) (fa : Bool) : edgeIMaxl m (m.edge k) |sarea m (dom m k)| fa = .ok (edgeCharLen m fa k) := by
  have htr : (m.edge k).trias = [t1, t2] := by rw [he]; rfl
  unfold edgeIMaxl edgeCharLen
  cases fa with
  | true => rfl
  | false =>
    simp only [Bool.false_eq_true, if_false]
    have z1 := hz _ hs1.ina _ hs1.inb
    have nc : ∀ (t o : ℕ) (_ : Side m t k o) (i : ℕ), i = k.1 ∨ i = k.2 → ((m.node i).xyz.sub (m.mid t)).norm = vdist m [i] (corners m t) ∧
        ((m.mid t).sub (m.node i).xyz).norm = vdist m [i] (corners m t) := by
      intro t o hs i hi
      obtain ⟨-, -, m3⟩ := mid_eq hb hs
      have z2 := hz _ hs.ina _ hs.ino
      have zi : (m.node i).xyz.z = (m.mid t).z := by rw [m3]; rcases hi with rfl | rfl <;> linarith
      unfold Vec3.norm Vec3.sub vdist
      simp only [mean_single, (mid_mean hb hs).1, (mid_mean hb hs).2, nx, ny]
      constructor <;> congr 1 <;> rw [zi] <;> ring
    have nc1 := nc t1 o1 hs1
    have nc2 := nc t2 o2 hs2
    have nn : ((m.node k.1).xyz.sub (m.node k.2).xyz).norm = vdist m [k.1] [k.2] := by
      unfold Vec3.norm Vec3.sub vdist
      simp only [mean_single, nx, ny]
      congr 1; rw [z1]; ring
    have h := dom_i htr
    have hL : pyMax ((m.edge k).ipts.map (·.le)) = some (max (max (max (vdist m [k.1] (corners m t1)) (vdist m [k.2] (corners m t1))) (vdist m [k.2] (corners m t2)))
        (vdist m [k.1] (corners m t2))) := by
      rw [he]
      rcases orient_cases m (m.mid t1) k.1 k.2 with h | h <;>
        simp only [iEdge, h, iptsA, iptsI, mkIPt, List.cons_append, List.nil_append, List.map_cons, List.map_nil, pyMax, List.foldl_cons, List.foldl_nil,
          (nc1 k.1 (Or.inl rfl)).1, (nc1 k.2 (Or.inr rfl)).1, (nc1 k.1 (Or.inl rfl)).2, (nc1 k.2 (Or.inr rfl)).2,
          (nc2 k.1 (Or.inl rfl)).1, (nc2 k.2 (Or.inr rfl)).1, (nc2 k.1 (Or.inl rfl)).2, (nc2 k.2 (Or.inr rfl)).2]
      rw [max_comm (vdist m [k.2] (corners m t1)), max_assoc, max_comm (vdist m [k.1] (corners m t2)), ← max_assoc]
    rw [hL, h]
    dsimp only
    rw [show (m.edge k).n1 = k.1 by rw [he]; rfl, show (m.edge k).n2 = k.2 by rw [he]; rfl, nn]
    simp only [show sides [[k.1], corners m t1, [k.2], corners m t2] = [([k.1], corners m t1), (corners m t1, [k.2]), ([k.2], corners m t2), (corners m t2, [k.1])] from rfl,
      List.map_cons, List.map_nil, List.cons_append, List.nil_append, List.foldr_cons, List.foldr_nil, vdist_comm m (corners m t1) [k.2],
      vdist_comm m (corners m t2) [k.1], max_eq_left (vdist_nonneg _ _ _), max_assoc]

theorem bndMod_comm (m : Mesh) (pn : Bool) (al : ℝ) (fa : Bool) (k : Key) : bndMod m pn al fa k 1 0 = bndMod m pn al fa k 0 1 := by simp [bndMod]
theorem intMod_comm (m : Mesh) (pn : Bool) (al : ℝ) (fa : Bool) (k : Key) : intMod m pn al fa k 1 0 = intMod m pn al fa k 0 1 := by simp [intMod]

/-- one edge of `add_k0s` (edge based): the increments and their form -/
theorem edgeSG_form {m : Mesh} (w : WF m) (hp : Proper m) (hg : Planar m) (hq : Prepared m) {pn : Bool} (hh : HasProps m pn) (ht : EdgeThick m pn) (al : ℝ) (fa : Bool)
    {k : Key} (hk : k ∈ m.ekeys) : ∃ es, edgeSG m pn al fa k = .ok es ∧ EntriesOk (5 * m.nids.length) es ∧
      ∀ v u, bil (5 * m.nids.length) (entrySum (5 * m.nids.length) es) v u =
        edgeEnergy m k (edgeMod m pn al fa k) (fun z r => edgeGamma m k z r + devGamma m k z r) v u + edgeResid m k (edgeMod m pn al fa k) v u := by
  have hi : Indexed m := hq.index
  rcases prepared_shape w hp hq hk with ⟨t, o, he, hs⟩ | ⟨t1, t2, o1, o2, he, hs1, hs2, ho, _⟩
  · have htr : (m.edge k).trias = [t] := by rw [he]; rfl
    have hA := triArea_side hs
    have hA0 : triArea m t ≠ 0 := abs_ne_zero.2 (hg.nondeg t hs.mem)
    have hS0 : sarea m [[k.1], [k.2], corners m t] ≠ 0 := by intro h; rw [h, abs_zero] at hA; exact hA0 (by linarith)
    have hdomA : |sarea m (dom m k)| = triArea m t / 3 := by
      rw [dom_b htr, ← hA, ← abs_neg]; congr 1; rw [sarea3, sarea3]; ring
    have hM : edgeMod m pn al fa k = bndMod m pn al fa k := by funext r s; unfold edgeMod; rw [htr, if_pos (by simp)]
    have hor := edgeOrient_ends hg.basic hs (by rw [he]; rfl) (by rw [he]; rfl)
    obtain ⟨e1, e2, e3, -⟩ := ends_spec hs hS0
    unfold edgeSG
    rw [htr]
    dsimp only
    rw [hor, hM]
    have hends : ends m k t = ((ends m k t).1, (ends m k t).2) := rfl
    generalize (ends m k t).1 = a at *
    generalize (ends m k t).2 = b at *
    have hdom : |sarea m (dom m k)| = |sarea m [corners m t, [a], [b]]| := by
      rw [hdomA, ← hA, abs_of_pos e2]
      rcases e3 with rfl | rfl
      · rw [show sarea m [[(a, b).1], [(a, b).2], corners m t] = sarea m [corners m t, [a], [b]] by rw [sarea3, sarea3]; ring, abs_of_pos e2]
      · rw [show sarea m [[(b, a).1], [(b, a).2], corners m t] = -sarea m [corners m t, [a], [b]] by rw [sarea3, sarea3]; ring, abs_neg, abs_of_pos e2]
    have hAc : (m.edge k).Ac = some |sarea m (dom m k)| := by
      have hd := edgeData_boundary (pn := pn) hq hh he hs
      rw [hd.hAc, (geo_boundary hg.basic hg.flat he hs (by intro h0; rw [h0, abs_zero] at hdomA; exact hA0 (by linarith)) hd.hAc).hAc]
    have henv : edgeBEnv m pn al fa (m.edge k) t a b = .ok (edgeBVal m t a b o (bndMod m pn al fa k)) := by
      obtain ⟨q1, q2⟩ := mid_mean hg.basic hs
      unfold edgeBEnv
      rw [show (m.edge k).other1 = some o by rw [he]; rfl, hAc]
      dsimp only [bind, Except.bind]
      rw [edgeBShear_eq hh e1 e3 htr hA0]; dsimp only
      rw [edgeBMaxl_eq hg.basic hg.flat he hs]; dsimp only
      rw [hi.index e1.ina, hi.index e1.inb, hi.index e1.ino]
      dsimp only
      refine congrArg Except.ok ?_
      simp only [edgeBVal, edgeBModuli, bndMod, edgeStab, eShear, stab_eq (ht k hk), q1, q2, nx, ny, ← hdom, if_true, one_ne_zero,
        zero_ne_one, if_false, mul_zero]
    rw [henv]
    exact ⟨_, rfl, entriesOk_edgeB e1 e2, bil_edgeB (bndMod_comm _ _ _ _ _) e1 e2 htr hends e3 hdom⟩
  · have htr : (m.edge k).trias = [t1, t2] := by rw [he]; rfl
    have hop := hg.opposite k hk t1 t2 htr
    have hA1 := triArea_side hs1
    have hA2 := triArea_side hs2
    have p1 : 0 < triArea m t1 := abs_pos.2 (hg.nondeg t1 hs1.mem)
    have p2 : 0 < triArea m t2 := abs_pos.2 (hg.nondeg t2 hs2.mem)
    have hS0 : sarea m [[k.1], [k.2], corners m t1] ≠ 0 := by intro h; rw [h, abs_zero] at hA1; linarith
    have hAc0 : (m.edge k).Ac = some (polyArea [(m.node (orient m (m.mid t1) k.1 k.2).1).xyz, m.mid t1,
      (m.node (orient m (m.mid t1) k.1 k.2).2).xyz, m.mid t2, (m.node (orient m (m.mid t1) k.1 k.2).1).xyz]) := by rw [he]; rfl
    obtain ⟨hgeo, hsum⟩ := geo_interior hg.basic hg.flat he hs1 hs2 hop hAc0
    have hAc : (m.edge k).Ac = some |sarea m (dom m k)| := by rw [hAc0, hgeo.hAc]
    have hAs : |sarea m (dom m k)| = triArea m t1 / 3 + triArea m t2 / 3 := by rw [← hgeo.hAc, ← hsum, hA1, hA2]
    have hM : edgeMod m pn al fa k = intMod m pn al fa k := by funext r s; unfold edgeMod; rw [htr, if_neg (by simp)]
    have hor := edgeOrient_ends hg.basic hs1 (by rw [he]; rfl) (by rw [he]; rfl)
    obtain ⟨e1, e2, e3, e4⟩ := ends_spec hs1 hS0
    replace e4 := e4 _ hop
    unfold edgeSG
    rw [htr]
    dsimp only
    rw [hor, hM]
    have hends : ends m k t1 = ((ends m k t1).1, (ends m k t1).2) := rfl
    generalize (ends m k t1).1 = a at *
    generalize (ends m k t1).2 = b at *
    have hs2' : Side m t2 (a, b) o2 := by rcases e3 with rfl | rfl; exacts [hs2, hs2.swap]
    have hB1 : |sarea m [corners m t1, [a], [b]]| = triArea m t1 / 3 := by
      rw [← hA1]
      rcases e3 with rfl | rfl
      · congr 1; rw [sarea3, sarea3]; ring
      · rw [← abs_neg]; congr 1; rw [sarea3, sarea3]; ring
    have hB2 : |sarea m [[a], corners m t2, [b]]| = triArea m t2 / 3 := by
      rw [← hA2]
      rcases e3 with rfl | rfl
      · rw [← abs_neg]; congr 1; rw [sarea3, sarea3]; ring
      · congr 1; rw [sarea3, sarea3]; ring
    have h0 : sarea m (dom m k) ≠ 0 := by intro h; rw [h, abs_zero] at hAs; linarith
    have henv : edgeIEnv m pn al fa (m.edge k) t1 t2 a b = .ok (edgeIVal m k t1 t2 a b o1 o2 (intMod m pn al fa k)) := by
      obtain ⟨q1, q2⟩ := mid_mean hg.basic hs1
      obtain ⟨r1, r2⟩ := mid_mean hg.basic hs2
      unfold edgeIEnv
      rw [show (m.edge k).other1 = some o1 by rw [he]; rfl, show (m.edge k).other2 = some o2 by rw [he]; rfl, hAc]
      dsimp only [bind, Except.bind]
      have hpa1 : polyArea [m.mid t1, (m.node a).xyz, (m.node b).xyz] = triArea m t1 / 3 := by
        rw [polyArea3, ← hB1, sarea3, abs_div, abs_two]
        simp only [mean_single, q1, q2, nx, ny]
      have hpa2 : polyArea [(m.node a).xyz, m.mid t2, (m.node b).xyz] = triArea m t2 / 3 := by
        rw [polyArea3, ← hB2, sarea3, abs_div, abs_two]
        simp only [mean_single, r1, r2, nx, ny]
      have hmx := edgeIMaxl_eq hg.basic hg.flat he hs1 hs2 fa
      rw [hAs] at hmx ⊢
      rw [hpa1, hpa2, edgeIShear_eq hh e1 hs2' e3 htr]; dsimp only
      rw [hmx]; dsimp only
      rw [hi.index e1.ina, hi.index e1.inb, hi.index e1.ino, hi.index hs2.ino]
      dsimp only
      refine congrArg Except.ok ?_
      simp only [edgeIVal, edgeIModuli, intMod, edgeStab, eShear, q1, q2, r1, r2, nx, ny, hB1, hB2, hAs, if_true, one_ne_zero,
        zero_ne_one, if_false]
    rw [henv]
    exact ⟨_, rfl, entriesOk_edgeI e1 hs2', bil_edgeI (intMod_comm _ _ _ _ _) e1 hs2' e2 e4 htr hends e3 h0⟩

/-- `add_k0s` (edge based): outcome and form -/
theorem edge_form {m : Mesh} (w : WF m) (hp : Proper m) (hg : Planar m) (hq : Prepared m) {pn : Bool} (hh : HasProps m pn) (ht : EdgeThick m pn) (al : ℝ) (fa : Bool)
    {K : Mat} (hK : K.dim = 5 * m.nids.length) :
    ∃ K', addK0s K m pn "edge-based" al fa = (K', none) ∧ K'.dim = K.dim ∧ (∀ i j, (K.dim ≤ i ∨ K.dim ≤ j) → K'.get i j = K.get i j) ∧
      ∀ v u, form K.dim (fun i j => K'.get i j - K.get i j) v u = (m.ekeys.map fun k =>
        edgeEnergy m k (edgeMod m pn al fa k) (fun z r => edgeGamma m k z r + devGamma m k z r) v u + edgeResid m k (edgeMod m pn al fa k) v u).sum := by
  rw [addK0s_eq, k0sIncr, if_neg (by decide), if_neg (by decide), if_pos rfl]
  apply applyAll_form
  intro k hk
  rw [hK]
  exact edgeSG_form w hp hg hq hh ht al fa hk

end Meshless
