import Verif.Lemmas.K0sCell
import Verif.Lemmas.KGForm

/-! The forms added by the two cell-based shear methods. -/

set_option autoImplicit false

namespace Meshless
open Spec Finset

theorem vAt_indexed {m : Mesh} (z : ℕ → ℝ) {i : ℕ} (hi : i ∈ m.nids) {r : ℕ} (hr : r < 5) :
    vAt (5 * m.nids.length) z (((m.nids.idxOf i : ℕ) : ℤ) * 5 + r) = disp m z r i := by
  have hlt := List.idxOf_lt_length_iff.2 hi
  have : ((m.nids.idxOf i : ℤ) * 5 + r) = ((5 * m.nids.idxOf i + r : ℕ) : ℤ) := by push_cast; ring
  unfold vAt disp
  rw [this, pyIdx_nonneg (by omega)]

theorem pyIdx_indexed {m : Mesh} {i : ℕ} (hi : i ∈ m.nids) {r : ℕ} (hr : r < 5) :
    pyIdx (5 * m.nids.length) (((m.nids.idxOf i : ℕ) : ℤ) * 5 + r) = some (5 * m.nids.idxOf i + r) := by
  have hlt := List.idxOf_lt_length_iff.2 hi
  have : ((m.nids.idxOf i : ℤ) * 5 + r) = ((5 * m.nids.idxOf i + r : ℕ) : ℤ) := by push_cast; ring
  rw [this, pyIdx_nonneg (by omega)]

/-! ### cell-based -/

/-- the columns with the areas cancelled -/
theorem cellS_cols (e : CellSEnv ℝ) (h1 : e.Ac1 ≠ 0) (h2 : e.Ac2 ≠ 0) (h3 : e.Ac3 ≠ 0) (t : ℝ) (ht : (0.166666666666667 : ℝ) = t) :
    cellSDofs e = [
      (e.i1 * 5 + 2, v2 (e.d1 / 2 - e.b3 / 2 + t * (e.b1 - e.d1 + (e.b2 - e.d2) + (e.b3 - e.d3)))
        (-e.c1 / 2 + e.a3 / 2 + t * (-e.a1 + e.c1 + (-e.a2 + e.c2) + (-e.a3 + e.c3)))),
      (e.i1 * 5 + 3, v2 (e.a1 * e.d1 / 4 - e.b3 * e.c3 / 4 + t * (e.Ac1 + e.Ac2 + e.Ac3)) (-e.a1 * e.c1 / 4 + e.a3 * e.c3 / 4)),
      (e.i1 * 5 + 4, v2 (e.b1 * e.d1 / 4 - e.b3 * e.d3 / 4) (-e.b1 * e.c1 / 4 + e.a3 * e.d3 / 4 + t * (e.Ac1 + e.Ac2 + e.Ac3))),
      (e.i2 * 5 + 2, v2 (-e.b1 / 2 + e.d2 / 2 + t * (e.b1 - e.d1 + (e.b2 - e.d2) + (e.b3 - e.d3)))
        (e.a1 / 2 - e.c2 / 2 + t * (-e.a1 + e.c1 + (-e.a2 + e.c2) + (-e.a3 + e.c3)))),
      (e.i2 * 5 + 3, v2 (-e.b1 * e.c1 / 4 + e.a2 * e.d2 / 4 + t * (e.Ac1 + e.Ac2 + e.Ac3)) (e.a1 * e.c1 / 4 - e.a2 * e.c2 / 4)),
      (e.i2 * 5 + 4, v2 (-e.b1 * e.d1 / 4 + e.b2 * e.d2 / 4) (e.a1 * e.d1 / 4 - e.b2 * e.c2 / 4 + t * (e.Ac1 + e.Ac2 + e.Ac3))),
      (e.i3 * 5 + 2, v2 (-e.b2 / 2 + e.d3 / 2 + t * (e.b1 - e.d1 + (e.b2 - e.d2) + (e.b3 - e.d3)))
        (e.a2 / 2 - e.c3 / 2 + t * (-e.a1 + e.c1 + (-e.a2 + e.c2) + (-e.a3 + e.c3)))),
      (e.i3 * 5 + 3, v2 (-e.b2 * e.c2 / 4 + e.a3 * e.d3 / 4 + t * (e.Ac1 + e.Ac2 + e.Ac3)) (e.a2 * e.c2 / 4 - e.a3 * e.c3 / 4)),
      (e.i3 * 5 + 4, v2 (-e.b2 * e.d2 / 4 + e.b3 * e.d3 / 4) (e.a2 * e.d2 / 4 - e.b3 * e.c3 / 4 + t * (e.Ac1 + e.Ac2 + e.Ac3)))] := by
  unfold cellSDofs
  simp only [CellSEnv.gx_i1_2, CellSEnv.gx_i1_3, CellSEnv.gx_i1_4, CellSEnv.gx_i2_2, CellSEnv.gx_i2_3, CellSEnv.gx_i2_4, CellSEnv.gx_i3_2,
    CellSEnv.gx_i3_3, CellSEnv.gx_i3_4, CellSEnv.gy_i1_2, CellSEnv.gy_i1_3, CellSEnv.gy_i1_4, CellSEnv.gy_i2_2, CellSEnv.gy_i2_3,
    CellSEnv.gy_i2_4, CellSEnv.gy_i3_2, CellSEnv.gy_i3_3, CellSEnv.gy_i3_4, ht]
  refine congrArg₂ List.cons ?_ (congrArg₂ List.cons ?_ (congrArg₂ List.cons ?_ (congrArg₂ List.cons ?_ (congrArg₂ List.cons ?_
    (congrArg₂ List.cons ?_ (congrArg₂ List.cons ?_ (congrArg₂ List.cons ?_ (congrArg₂ List.cons ?_ rfl)))))))) <;>
  refine Prod.ext rfl (congrArg₂ v2 ?_ ?_) <;> (try rfl) <;> (try field_simp) <;> (try ring)

/-- the local variables of a triangle with counter-clockwise corners `a b c` in terms of the specification -/
noncomputable def cellSVal (m : Mesh) (pn : Bool) (al : ℝ) (fa : Bool) (e a b c : ℕ) : CellSEnv ℝ :=
  let X := mean (nx m) (corners m e); let Y := mean (ny m) (corners m e)
  { i1 := (m.nids.idxOf a : ℕ), i2 := (m.nids.idxOf b : ℕ), i3 := (m.nids.idxOf c : ℕ), Ac := triArea m e,
    a1 := nx m a - X, b1 := ny m a - Y, c1 := nx m b - X, d1 := ny m b - Y, Ac1 := triArea m e / 3,
    a2 := nx m b - X, b2 := ny m b - Y, c2 := nx m c - X, d2 := ny m c - Y, Ac2 := triArea m e / 3,
    a3 := nx m c - X, b3 := ny m c - Y, c3 := nx m a - X, d3 := ny m a - Y, Ac3 := triArea m e / 3,
    E44 := shearMod m pn al fa e 0, E45 := 0, E55 := shearMod m pn al fa e 1 }

theorem cellSEnv_eq {m : Mesh} (w : WF m) (hi : Indexed m) (hf : FlatMesh m) {pn : Bool} (hh : HasProps m pn) (ht : Thick m pn) (al : ℝ) (fa : Bool)
    {e : ℕ} (he : e ∈ m.eids) : ∃ a b c, Ccw m e a b c ∧ cellSEnv m pn al fa e = .ok (cellSVal m pn al fa e a b c) := by
  have hc := cellOrient_ccw w hf he
  refine ⟨_, _, _, hc, ?_⟩
  unfold cellSEnv
  dsimp only
  revert hc
  rcases cellOrient m e with ⟨a, b, c⟩
  intro hc
  dsimp only at hc ⊢
  obtain ⟨ha, hb, hc'⟩ := hc.mem w he
  obtain ⟨hx, hy⟩ := mid_flat w hf he
  have sub : ∀ p q r, [p, q, r].Perm [a, b, c] → sarea m [[p], [q], [r]] = triArea m e →
      polyArea [m.mid e, (m.node p).xyz, (m.node q).xyz] = triArea m e / 3 := by
    intro p q r hp hs
    have hpos : 0 < triArea m e := by rw [← hc.area]; exact hc.pos
    have hm : ∀ f, mean f (corners m e) = (f p + f q + f r) / 3 := by
      intro f
      rw [hc.mean]
      have := (hp.map f).sum_eq
      simp only [List.map_cons, List.map_nil, List.sum_cons, List.sum_nil, add_zero] at this
      rw [show f a + f b + f c = f p + f q + f r by linarith]
    rw [polyArea3, hx, hy, hm, hm]
    rw [sarea3] at hs
    simp only [mean_single] at hs
    rw [show ((m.node p).xyz.x - (nx m p + nx m q + nx m r) / 3) * ((m.node q).xyz.y - (ny m p + ny m q + ny m r) / 3) -
      ((m.node q).xyz.x - (nx m p + nx m q + nx m r) / 3) * ((m.node p).xyz.y - (ny m p + ny m q + ny m r) / 3) = 2 / 3 * triArea m e by
        rw [← hs]; simp only [nx, ny]; ring]
    rw [abs_of_pos (by linarith)]
    ring
  have r1 : sarea m [[b], [c], [a]] = triArea m e := by rw [← hc.area, sarea3, sarea3]; ring
  have r2 : sarea m [[c], [a], [b]] = triArea m e := by rw [← hc.area, sarea3, sarea3]; ring
  rw [cellShear_eq hh he hc.perm, cellMaxl_eq w hf he, sub a b c (List.Perm.refl _) hc.area,
    sub b c a (List.perm_append_comm (l₁ := [b, c]) (l₂ := [a])) r1, sub c a b (List.perm_append_comm (l₁ := [c]) (l₂ := [a, b])) r2]
  simp only [bind, Except.bind, hi.index ha, hi.index hb, hi.index hc', triaArea_eq w hf he, hx, hy]
  refine congrArg Except.ok ?_
  simp only [cellSVal, shearMod, cShear, stab_eq (ht e he), nx, ny, if_true, one_ne_zero, if_false]

theorem dsg_swap (m : Mesh) (z : ℕ → ℝ) (P Q R : List ℕ) (r : Fin 2) : dsg m z P Q R r = dsg m z P R Q r := by
  have hs : sarea m [P, R, Q] = - sarea m [P, Q, R] := by rw [sarea3, sarea3]; ring
  unfold dsg
  rw [hs]
  fin_cases r
  · simp only [Fin.zero_eta, Matrix.cons_val_zero]
    rw [mul_neg, div_neg, ← neg_div]; congr 1; ring
  · simp only [Fin.mk_one, Matrix.cons_val_one, Matrix.cons_val_zero]
    rw [mul_neg, div_neg, ← neg_div]; congr 1; ring

/-- the sub-triangles in the order of the code -/
theorem cellGamma_ccw {m : Mesh} {e a b c : ℕ} (hc : Ccw m e a b c) (z : ℕ → ℝ) (r : Fin 2) :
    cellGamma m e z r = (dsg m z (corners m e) [a] [b] r + dsg m z (corners m e) [b] [c] r + dsg m z (corners m e) [c] [a] r) / 3 ∧
    sarea m [corners m e, [a], [b]] = triArea m e / 3 ∧ sarea m [corners m e, [b], [c]] = triArea m e / 3 ∧
    sarea m [corners m e, [c], [a]] = triArea m e / 3 := by
  have hpos : 0 < triArea m e := by rw [← hc.area]; exact hc.pos
  have sab : sarea m [corners m e, [a], [b]] = triArea m e / 3 := by
    rw [← hc.area, sarea3, sarea3, hc.mean, hc.mean]; simp only [mean_single]; ring
  have sbc : sarea m [corners m e, [b], [c]] = triArea m e / 3 := by
    rw [← hc.area, sarea3, sarea3, hc.mean, hc.mean]; simp only [mean_single]; ring
  have sca : sarea m [corners m e, [c], [a]] = triArea m e / 3 := by
    rw [← hc.area, sarea3, sarea3, hc.mean, hc.mean]; simp only [mean_single]; ring
  refine ⟨?_, sab, sbc, sca⟩
  set T : ℕ → ℕ → ℝ := fun i j => |sarea m [corners m e, [i], [j]]| * dsg m z (corners m e) [i] [j] r with hT
  have Tsymm : ∀ i j, T i j = T j i := by
    intro i j
    simp only [hT]
    rw [dsg_swap]
    congr 1
    rw [show sarea m [corners m e, [i], [j]] = - sarea m [corners m e, [j], [i]] by rw [sarea3, sarea3]; ring, abs_neg]
  have hsum : cellGamma m e z r = (T (m.tria e).n1 (m.tria e).n2 + T (m.tria e).n2 (m.tria e).n3 + T (m.tria e).n3 (m.tria e).n1) / triArea m e := by
    unfold cellGamma tpoly
    simp only [show sides [[(m.tria e).n1], [(m.tria e).n2], [(m.tria e).n3]] = [([(m.tria e).n1], [(m.tria e).n2]), ([(m.tria e).n2], [(m.tria e).n3]),
      ([(m.tria e).n3], [(m.tria e).n1])] from rfl, List.map_cons, List.map_nil, List.sum_cons, List.sum_nil, hT]
    congr 1; ring
  have habc : T (m.tria e).n1 (m.tria e).n2 + T (m.tria e).n2 (m.tria e).n3 + T (m.tria e).n3 (m.tria e).n1 = T a b + T b c + T c a := by
    have hp := hc.perm
    unfold corners at hp
    rcases perm3_cases hp with ⟨h1, h2, h3⟩ | ⟨h1, h2, h3⟩ | ⟨h1, h2, h3⟩ | ⟨h1, h2, h3⟩ | ⟨h1, h2, h3⟩ | ⟨h1, h2, h3⟩ <;>
      rw [h1, h2, h3] <;> linarith [Tsymm a b, Tsymm b c, Tsymm c a]
  rw [hsum, habc]
  simp only [hT]
  rw [sab, sbc, sca, abs_of_pos (by positivity)]
  field_simp

/-- strain of a displacement vector from the columns of the code: area times the smoothed strain, plus the error of the literal -/
theorem strain_cellS {m : Mesh} {pn : Bool} {al : ℝ} {fa : Bool} {e a b c : ℕ} (w : WF m) (he : e ∈ m.eids) (hc : Ccw m e a b c)
    (z : ℕ → ℝ) (r : Fin 2) : strainOf (5 * m.nids.length) (cellSDofs (cellSVal m pn al fa e a b c)) z r =
      triArea m e * (cellGamma m e z r + sixthErr * rotSum m e z r) := by
  have hpos : 0 < triArea m e := by rw [← hc.area]; exact hc.pos
  obtain ⟨ha, hb, hc'⟩ := hc.mem w he
  have hne : triArea m e / 3 ≠ 0 := by positivity
  rw [cellS_cols (cellSVal m pn al fa e a b c) hne hne hne (1 / 6 + sixthErr) (by unfold sixthErr; ring)]
  have va : ∀ r : ℕ, r < 5 → ∀ i ∈ m.nids, vAt (5 * m.nids.length) z (((m.nids.idxOf i : ℕ) : ℤ) * 5 + r) = disp m z r i :=
    fun r hr i hi => vAt_indexed z hi hr
  have va2 := va 2 (by norm_num)
  have va3 := va 3 (by norm_num)
  have va4 := va 4 (by norm_num)
  push_cast at va2 va3 va4
  have rot : rotSum m e z r = disp m z (3 + r.val) a + disp m z (3 + r.val) b + disp m z (3 + r.val) c := by
    unfold rotSum
    rw [← (hc.perm.map _).sum_eq]
    simp only [List.map_cons, List.map_nil, List.sum_cons, List.sum_nil]; ring
  obtain ⟨gam, sab, sbc, sca⟩ := cellGamma_ccw hc z r
  have hA : triArea m e = ((nx m b - nx m a) * (ny m c - ny m a) - (nx m c - nx m a) * (ny m b - ny m a)) / 2 := by
    rw [← hc.area, sarea3]; simp only [mean_single]
  have hsim : ∀ x : ℝ, triArea m e * (x / (2 * (triArea m e / 3))) = 3 / 2 * x := by
    intro x; have := hpos.ne'; field_simp
  have step : triArea m e * cellGamma m e z r = triArea m e * dsg m z (corners m e) [a] [b] r / 3 + triArea m e * dsg m z (corners m e) [b] [c] r / 3 +
      triArea m e * dsg m z (corners m e) [c] [a] r / 3 := by rw [gam]; ring
  rw [mul_add (triArea m e), step, rot]
  fin_cases r
  · simp only [Fin.zero_eta, dsg, Matrix.cons_val_zero, sab, sbc, sca, hsim, gap, mean_single, hc.mean, strainOf, cellSVal, List.map_cons, List.map_nil,
      List.sum_cons, List.sum_nil, v2_0, va2 a ha, va2 b hb, va2 c hc', va3 a ha, va3 b hb, va3 c hc', va4 a ha, va4 b hb, va4 c hc']
    rw [hA]
    ring
  · simp only [Fin.mk_one, dsg, Matrix.cons_val_one, Matrix.cons_val_zero, sab, sbc, sca, hsim, gap, mean_single, hc.mean, strainOf, cellSVal, List.map_cons,
      List.map_nil, List.sum_cons, List.sum_nil, v2_1, va2 a ha, va2 b hb, va2 c hc', va3 a ha, va3 b hb, va3 c hc', va4 a ha, va4 b hb, va4 c hc']
    rw [hA]
    ring

theorem bil_cellS {m : Mesh} {pn : Bool} {al : ℝ} {fa : Bool} {e a b c : ℕ} (w : WF m) (he : e ∈ m.eids) (hc : Ccw m e a b c) (v u : ℕ → ℝ) :
    bil (5 * m.nids.length) (entrySum (5 * m.nids.length) (cellSEntries (cellSVal m pn al fa e a b c))) v u = triArea m e *
      ((cellGamma m e v 0 + sixthErr * rotSum m e v 0) * shearMod m pn al fa e 0 * (cellGamma m e u 0 + sixthErr * rotSum m e u 0) +
       (cellGamma m e v 1 + sixthErr * rotSum m e v 1) * shearMod m pn al fa e 1 * (cellGamma m e u 1 + sixthErr * rotSum m e u 1)) := by
  have hpos : 0 < triArea m e := by rw [← hc.area]; exact hc.pos
  rw [cellSEntries_eq, bil_outer]
  simp only [Fin.sum_univ_two, strain_cellS w he hc, m2_00, m2_01, m2_10, m2_11]
  simp only [cellSVal]
  have := hpos.ne'
  field_simp
  ring

theorem idx_ok {m : Mesh} {a : ℕ} (ha : a ∈ m.nids) : ∀ r ∈ [(2 : ℤ), 3, 4], (pyIdx (5 * m.nids.length) (((m.nids.idxOf a : ℕ) : ℤ) * 5 + r)).isSome := by
  intro r hr
  simp only [List.mem_cons, List.not_mem_nil, or_false] at hr
  rcases hr with rfl | rfl | rfl
  · have := pyIdx_indexed ha (r := 2) (by norm_num); push_cast at this; rw [this]; rfl
  · have := pyIdx_indexed ha (r := 3) (by norm_num); push_cast at this; rw [this]; rfl
  · have := pyIdx_indexed ha (r := 4) (by norm_num); push_cast at this; rw [this]; rfl

theorem entriesOk_cellS {m : Mesh} {pn : Bool} {al : ℝ} {fa : Bool} {e a b c : ℕ} (w : WF m) (he : e ∈ m.eids) (hc : Ccw m e a b c) :
    EntriesOk (5 * m.nids.length) (cellSEntries (cellSVal m pn al fa e a b c)) := by
  obtain ⟨ha, hb, hc'⟩ := hc.mem w he
  rw [cellSEntries_eq]
  apply entriesOk_outer
  intro x hx
  simp only [cellSDofs, List.mem_cons, List.not_mem_nil, or_false] at hx
  rcases hx with rfl | rfl | rfl | rfl | rfl | rfl | rfl | rfl | rfl
  · exact idx_ok ha 2 (by simp)
  · exact idx_ok ha 3 (by simp)
  · exact idx_ok ha 4 (by simp)
  · exact idx_ok hb 2 (by simp)
  · exact idx_ok hb 3 (by simp)
  · exact idx_ok hb 4 (by simp)
  · exact idx_ok hc' 2 (by simp)
  · exact idx_ok hc' 3 (by simp)
  · exact idx_ok hc' 4 (by simp)

/-! ### no smoothing -/

/-- the local variables of a triangle with counter-clockwise corners `a b c` in terms of the specification -/
noncomputable def cellNSVal (m : Mesh) (pn : Bool) (al : ℝ) (fa : Bool) (e a b c : ℕ) : CellNSEnv ℝ :=
  { i1 := (m.nids.idxOf a : ℕ), i2 := (m.nids.idxOf b : ℕ), i3 := (m.nids.idxOf c : ℕ), Ac := triArea m e,
    a1 := nx m b - nx m a, b1 := ny m b - ny m a, c1 := nx m c - nx m a, d1 := ny m c - ny m a,
    E44 := shearMod m pn al fa e 0, E45 := 0, E55 := shearMod m pn al fa e 1 }

theorem wholeGamma_ccw {m : Mesh} (hf : FlatMesh m) {e : ℕ} (he : e ∈ m.eids) (z : ℕ → ℝ) :
    wholeGamma m e z = dsg m z [(cellNSOrient m e).1] [(cellNSOrient m e).2.1] [(cellNSOrient m e).2.2] := by
  rw [cellNSOrient_eq]
  unfold wholeGamma
  dsimp only
  rcases lt_or_gt_of_ne (hf.nondeg e he) with h | h
  · rw [if_neg (by unfold tpoly; linarith), if_pos (by unfold tpoly; exact h)]
  · rw [if_pos (by unfold tpoly; exact h), if_neg (by unfold tpoly; linarith)]

theorem cellNSEnv_eq {m : Mesh} (w : WF m) (hi : Indexed m) (hf : FlatMesh m) {pn : Bool} (hh : HasProps m pn) (ht : Thick m pn) (al : ℝ) (fa : Bool)
    {e : ℕ} (he : e ∈ m.eids) : ∃ a b c, Ccw m e a b c ∧ (∀ z, wholeGamma m e z = dsg m z [a] [b] [c]) ∧
      cellNSEnv m pn al fa e = .ok (cellNSVal m pn al fa e a b c) := by
  have hc := cellNSOrient_ccw hf he
  refine ⟨_, _, _, hc, wholeGamma_ccw hf he, ?_⟩
  unfold cellNSEnv
  dsimp only
  revert hc
  rcases cellNSOrient m e with ⟨a, b, c⟩
  intro hc
  dsimp only at hc ⊢
  obtain ⟨ha, hb, hc'⟩ := hc.mem w he
  rw [cellShear_eq hh he hc.perm, cellMaxl_eq w hf he]
  simp only [bind, Except.bind, hi.index ha, hi.index hb, hi.index hc', triaArea_eq w hf he]
  refine congrArg Except.ok ?_
  simp only [cellNSVal, shearMod, cShear, stab_eq (ht e he), nx, ny, if_true, one_ne_zero, if_false]

theorem strain_cellNS {m : Mesh} {pn : Bool} {al : ℝ} {fa : Bool} {e a b c : ℕ} (w : WF m) (he : e ∈ m.eids) (hc : Ccw m e a b c)
    (z : ℕ → ℝ) (r : Fin 2) : strainOf (5 * m.nids.length) (cellNSDofs (cellNSVal m pn al fa e a b c)) z r = dsg m z [a] [b] [c] r := by
  have hpos : 0 < triArea m e := by rw [← hc.area]; exact hc.pos
  obtain ⟨ha, hb, hc'⟩ := hc.mem w he
  have va : ∀ r : ℕ, r < 5 → ∀ i ∈ m.nids, vAt (5 * m.nids.length) z (((m.nids.idxOf i : ℕ) : ℤ) * 5 + r) = disp m z r i :=
    fun r hr i hi => vAt_indexed z hi hr
  have va2 := va 2 (by norm_num)
  have va3 := va 3 (by norm_num)
  have va4 := va 4 (by norm_num)
  push_cast at va2 va3 va4
  have hA : triArea m e = ((nx m b - nx m a) * (ny m c - ny m a) - (nx m c - nx m a) * (ny m b - ny m a)) / 2 := by
    rw [← hc.area, sarea3]; simp only [mean_single]
  apply mul_left_cancel₀ hpos.ne'
  have hsim : ∀ x : ℝ, triArea m e * (x / (2 * triArea m e)) = x / 2 := by intro x; have := hpos.ne'; field_simp
  have h2 : ∀ x y : ℝ, triArea m e * (y * (x / (2 * triArea m e))) = y * x / 2 := by intro x y; have := hpos.ne'; field_simp
  have h4 : ∀ x y : ℝ, triArea m e * (y * (x / (4 * triArea m e))) = y * x / 4 := by intro x y; have := hpos.ne'; field_simp
  fin_cases r
  · simp only [Fin.zero_eta, dsg, Matrix.cons_val_zero, hc.area, gap, mean_single, strainOf, cellNSVal, cellNSDofs, List.map_cons, List.map_nil,
      List.sum_cons, List.sum_nil, v2_0, va2 a ha, va2 b hb, va2 c hc', va3 a ha, va3 b hb, va3 c hc', va4 a ha, va4 b hb, va4 c hc', mul_add (triArea m e),
      h2, h4, hsim]
    rw [hA]
    ring
  · simp only [Fin.mk_one, dsg, Matrix.cons_val_one, Matrix.cons_val_zero, hc.area, gap, mean_single, strainOf, cellNSVal, cellNSDofs, List.map_cons, List.map_nil,
      List.sum_cons, List.sum_nil, v2_1, va2 a ha, va2 b hb, va2 c hc', va3 a ha, va3 b hb, va3 c hc', va4 a ha, va4 b hb, va4 c hc', mul_add (triArea m e),
      h2, h4, hsim]
    rw [hA]
    ring

theorem bil_cellNS {m : Mesh} {pn : Bool} {al : ℝ} {fa : Bool} {e a b c : ℕ} (w : WF m) (he : e ∈ m.eids) (hc : Ccw m e a b c) (v u : ℕ → ℝ) :
    bil (5 * m.nids.length) (entrySum (5 * m.nids.length) (cellNSEntries (cellNSVal m pn al fa e a b c))) v u = triArea m e *
      (dsg m v [a] [b] [c] 0 * shearMod m pn al fa e 0 * dsg m u [a] [b] [c] 0 + dsg m v [a] [b] [c] 1 * shearMod m pn al fa e 1 * dsg m u [a] [b] [c] 1) := by
  have hpos : 0 < triArea m e := by rw [← hc.area]; exact hc.pos
  rw [cellNSEntries_eq _ hpos.ne', bil_outer]
  simp only [Fin.sum_univ_two, strain_cellNS w he hc, m2_00, m2_01, m2_10, m2_11]
  simp only [cellNSVal]
  ring

theorem entriesOk_cellNS {m : Mesh} {pn : Bool} {al : ℝ} {fa : Bool} {e a b c : ℕ} (w : WF m) (he : e ∈ m.eids) (hc : Ccw m e a b c) :
    EntriesOk (5 * m.nids.length) (cellNSEntries (cellNSVal m pn al fa e a b c)) := by
  have hpos : 0 < triArea m e := by rw [← hc.area]; exact hc.pos
  obtain ⟨ha, hb, hc'⟩ := hc.mem w he
  rw [cellNSEntries_eq _ hpos.ne']
  apply entriesOk_outer
  intro x hx
  simp only [cellNSDofs, List.mem_cons, List.not_mem_nil, or_false] at hx
  rcases hx with rfl | rfl | rfl | rfl | rfl | rfl | rfl | rfl | rfl
  · exact idx_ok ha 2 (by simp)
  · exact idx_ok ha 3 (by simp)
  · exact idx_ok ha 4 (by simp)
  · exact idx_ok hb 2 (by simp)
  · exact idx_ok hb 3 (by simp)
  · exact idx_ok hb 4 (by simp)
  · exact idx_ok hc' 2 (by simp)
  · exact idx_ok hc' 3 (by simp)
  · exact idx_ok hc' 4 (by simp)

/-! ### the whole call -/

/-- success and form of a call whose increments are all known -/
theorem applyAll_form {α : Type} {l : List α} {g : α → Except Err (List (ℤ × ℤ × ℝ))} {E : α → (ℕ → ℝ) → (ℕ → ℝ) → ℝ} {K : Mat}
    (h : ∀ a ∈ l, ∃ es, g a = .ok es ∧ EntriesOk K.dim es ∧ ∀ v u, bil K.dim (entrySum K.dim es) v u = E a v u) :
    ∃ K', applyAll K (l.map g) = (K', none) ∧ K'.dim = K.dim ∧ (∀ i j, (K.dim ≤ i ∨ K.dim ≤ j) → K'.get i j = K.get i j) ∧
      ∀ v u, form K.dim (fun i j => K'.get i j - K.get i j) v u = (l.map fun a => E a v u).sum := by
  have hn : (applyAll K (l.map g)).2 = none := by
    apply applyAll_ok
    intro x hx
    obtain ⟨a, ha, rfl⟩ := List.mem_map.1 hx
    obtain ⟨es, h1, h2, _⟩ := h a ha
    exact ⟨es, h1, h2⟩
  obtain ⟨_, hs⟩ := applyAll_sum hn
  refine ⟨(applyAll K (l.map g)).1, Prod.ext rfl hn, applyAll_dim _ _, fun i j hij => ?_, fun v u => ?_⟩
  · rw [hs, List.sum_eq_zero, add_zero]
    intro x hx
    obtain ⟨a, _, rfl⟩ := List.mem_map.1 hx
    exact entrySum_out hij
  · have : (fun i j => (applyAll K (l.map g)).1.get i j - K.get i j) = fun i j => (l.map fun a => entrySum K.dim (okEntries (g a)) i j).sum := by
      funext i j; rw [hs, List.map_map]; simp only [Function.comp_def]; ring
    rw [this]
    refine (bil_sum _ _ _ _ _).trans ?_
    congr 1
    refine List.map_congr_left fun a ha => ?_
    obtain ⟨es, h1, _, h3⟩ := h a ha
    rw [h1]
    exact h3 v u

theorem cell_form {m : Mesh} (w : WF m) (hi : Indexed m) (hf : FlatMesh m) {pn : Bool} (hh : HasProps m pn) (ht : Thick m pn) (al : ℝ) (fa : Bool) {K : Mat}
    (hK : K.dim = 5 * m.nids.length) :
    ∃ K', addK0s K m pn "cell-based" al fa = (K', none) ∧ K'.dim = K.dim ∧ (∀ i j, (K.dim ≤ i ∨ K.dim ≤ j) → K'.get i j = K.get i j) ∧
      ∀ v u, form K.dim (fun i j => K'.get i j - K.get i j) v u =
        shearEnergy m pn al fa (fun e z r => cellGamma m e z r + sixthErr * rotSum m e z r) v u := by
  rw [addK0s_eq, k0sIncr, if_pos rfl]
  apply applyAll_form
  intro e he
  obtain ⟨a, b, c, h1, h2⟩ := cellSEnv_eq w hi hf hh ht al fa he
  rw [h2, hK]
  exact ⟨_, rfl, entriesOk_cellS w he h1, bil_cellS w he h1⟩

theorem cellNS_form {m : Mesh} (w : WF m) (hi : Indexed m) (hf : FlatMesh m) {pn : Bool} (hh : HasProps m pn) (ht : Thick m pn) (al : ℝ) (fa : Bool) {K : Mat}
    (hK : K.dim = 5 * m.nids.length) :
    ∃ K', addK0s K m pn "cell-based-no-smoothing" al fa = (K', none) ∧ K'.dim = K.dim ∧ (∀ i j, (K.dim ≤ i ∨ K.dim ≤ j) → K'.get i j = K.get i j) ∧
      ∀ v u, form K.dim (fun i j => K'.get i j - K.get i j) v u = shearEnergy m pn al fa (wholeGamma m) v u := by
  rw [addK0s_eq, k0sIncr, if_neg (by decide), if_pos rfl]
  apply applyAll_form
  intro e he
  obtain ⟨a, b, c, h1, h3, h2⟩ := cellNSEnv_eq w hi hf hh ht al fa he
  rw [h2, hK]
  refine ⟨_, rfl, entriesOk_cellNS w he h1, fun v u => ?_⟩
  rw [bil_cellNS w he h1, h3, h3]

end Meshless
