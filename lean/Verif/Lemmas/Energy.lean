import Verif.Lemmas.Geom

set_option autoImplicit false

namespace Meshless
open Spec

section static
variable {m m' : Mesh} (h : SameStatic m m')
include h

theorem SameStatic.snx : nx m' = nx m := by funext i; simp [nx, h.xyz]
theorem SameStatic.sny : ny m' = ny m := by funext i; simp [ny, h.xyz]
theorem SameStatic.scorners : corners m' = corners m := by funext i; simp [corners, h.tria]
theorem SameStatic.sdom : dom m' = dom m := by funext k; unfold dom; rw [h.trias, h.scorners]
theorem SameStatic.ssarea : sarea m' = sarea m := by funext P; simp only [sarea, h.snx, h.sny]
theorem SameStatic.sgradX : gradX m' = gradX m := by funext P f; simp only [gradX, circDy, h.ssarea, h.sny]
theorem SameStatic.sgradY : gradY m' = gradY m := by funext P f; simp only [gradY, circDx, h.ssarea, h.snx]
theorem SameStatic.sdisp : disp m' = disp m := by funext v r i; simp only [disp, h.nids]
theorem SameStatic.seps : eps m' = eps m := by funext k v; simp only [eps, h.sgradX, h.sgradY, h.sdom, h.sdisp]
theorem SameStatic.striArea : triArea m' = triArea m := by funext e; simp only [triArea, h.ssarea, h.tria]
theorem SameStatic.savg : avg m' = avg m := by
  funext pn k s; simp only [avg, h.sdom, h.trias, h.striArea, h.tria, h.prop]
theorem SameStatic.senergy : energy m' = energy m := by
  funext pn v u; simp only [energy, h.ekeys, h.ssarea, h.sdom, h.seps, h.savg]

theorem SameStatic.planar (hp : Planar m) : Planar m' := by
  refine ⟨?_, ?_, ?_, ?_⟩
  · intro i hi; rw [h.cp, h.xyz]; exact hp.basic i (h.nids ▸ hi)
  · intro i hi j hj; rw [h.xyz, h.xyz]; exact hp.flat i (h.nids ▸ hi) j (h.nids ▸ hj)
  · intro e he; rw [h.ssarea, h.tria]; exact hp.nondeg e (h.eids ▸ he)
  · intro k hk t1 t2 ht; rw [h.ssarea, h.scorners]; exact hp.opposite k (h.ekeys ▸ hk) t1 t2 (h.trias k ▸ ht)

end static

/-- everything about an edge of a proper planar mesh after `calc_k0` -/
theorem edgeGeoP {m : Mesh} (w : WF m) (hp : Proper m) (hg : Planar m) (hq : Prepared m) {pn : Bool} (hh : HasProps m pn) {k : Key}
    (hk : k ∈ m.ekeys) : ∃ ns Ac pm, EdgeData m pn k ns Ac pm ∧ (∀ i, i ∈ ns ↔ edgeNodes m k i) ∧ GeoOk m k Ac ∧
      (∀ s, pm s = avg m pn k s) ∧ Ac = ((m.edge k).trias.map fun t => triArea m t / 3).sum ∧
      (∀ sel : Lam → Fin 3 → Fin 3 → ℝ, edgeProp m pn (m.edge k) sel = .ok fun i j => pm fun l => sel l i j) := by
  rcases prepared_shape w hp hq hk with ⟨t, o, he, hs⟩ | ⟨t1, t2, o1, o2, he, hs1, hs2, ho, _⟩
  · have htr : (m.edge k).trias = [t] := by rw [he]; rfl
    have hdom : dom m k = [[k.1], corners m t, [k.2]] := by simp [dom, htr]
    have hS : sarea m [[k.1], corners m t, [k.2]] = -sarea m [[k.1], [k.2], corners m t] := by
      rw [sarea3, sarea3]; ring
    have hA : |sarea m (dom m k)| = triArea m t / 3 := by rw [hdom, hS, abs_neg]; exact triArea_side hs
    have hA0 : triArea m t ≠ 0 := abs_ne_zero.2 (hg.nondeg t hs.mem)
    have hd := edgeData_boundary (pn := pn) hq hh he hs
    have hgeo := geo_boundary hg.basic hg.flat he hs (by
      intro h0; rw [h0, abs_zero] at hA; exact hA0 (by linarith)) hd.hAc
    refine ⟨_, _, _, hd, fun i => ?_, hgeo, ?_, ?_, ?_⟩
    · simp [edgeNodes, htr, hs.corner_iff]
    · intro s
      unfold avg bAvg
      cases pn with
      | true =>
        rw [if_pos rfl, if_pos rfl, hdom]
        simp only [List.map_cons, List.map_nil, List.sum_cons, List.sum_nil, mean_single, mean_corners hs, List.length_cons, List.length_nil]
        push_cast; ring
      | false =>
        simp only [Bool.false_eq_true, if_false, htr, List.map_cons, List.map_nil, List.sum_cons, List.sum_nil, add_zero]
        rw [mul_div_cancel_left₀ _ hA0]
    · rw [hgeo.hAc, hA, htr]; simp
    · intro sel; rw [he]; exact edgeProp_boundary hh hs sel
  · have htr : (m.edge k).trias = [t1, t2] := by rw [he]; rfl
    have hdom : dom m k = [[k.1], corners m t1, [k.2], corners m t2] := by simp [dom, htr]
    have hop := hg.opposite k hk t1 t2 htr
    have hAc0 : (m.edge k).Ac = some (polyArea [(m.node (orient m (m.mid t1) k.1 k.2).1).xyz, m.mid t1,
      (m.node (orient m (m.mid t1) k.1 k.2).2).xyz, m.mid t2, (m.node (orient m (m.mid t1) k.1 k.2).1).xyz]) := by rw [he]; rfl
    have hd := edgeData_interior (pn := pn) hq hh he hs1 hs2 ho hAc0
    obtain ⟨hgeo, hsum⟩ := geo_interior hg.basic hg.flat he hs1 hs2 hop hAc0
    have hA1 := triArea_side hs1
    have hA2 := triArea_side hs2
    have p1 : 0 < triArea m t1 := abs_pos.2 (hg.nondeg t1 hs1.mem)
    have p2 : 0 < triArea m t2 := abs_pos.2 (hg.nondeg t2 hs2.mem)
    refine ⟨_, _, _, hd, fun i => ?_, hgeo, ?_, ?_, ?_⟩
    · simp [edgeNodes, htr, hs1.corner_iff, hs2.corner_iff]; tauto
    · intro s
      unfold avg iAvg
      cases pn with
      | true =>
        rw [if_pos rfl, if_pos rfl, hdom]
        simp only [List.map_cons, List.map_nil, List.sum_cons, List.sum_nil, mean_single, mean_corners hs1, mean_corners hs2,
          List.length_cons, List.length_nil]
        push_cast; ring
      | false =>
        simp only [Bool.false_eq_true, if_false, htr, List.map_cons, List.map_nil, List.sum_cons, List.sum_nil, add_zero]
        rw [← hsum, hA1, hA2]
        have e1 : subArea1 m k t1 = triArea m t1 / 3 := by
          rw [← hA1]
          unfold subArea1
          obtain ⟨q1, q2, _⟩ := mid_eq hg.basic hs1
          rw [polyArea3, sarea3, mean_corners hs1, mean_corners hs1, ← q1, ← q2, abs_div, abs_two]
          simp only [mean_single, nx, ny]
          rw [← abs_neg]; congr 2; ring
        have e2 : subArea2 m k t2 = triArea m t2 / 3 := by
          rw [← hA2]
          unfold subArea2
          obtain ⟨q1, q2, _⟩ := mid_eq hg.basic hs2
          rw [polyArea3, sarea3, mean_corners hs2, mean_corners hs2, ← q1, ← q2, abs_div, abs_two]
          simp only [mean_single, nx, ny]
          congr 2; ring
        rw [e1, e2]
        field_simp
    · rw [← hsum, hA1, hA2, htr]; simp
    · intro sel; rw [he] at hAc0 ⊢; exact edgeProp_interior hh hs1 hs2 hAc0 sel

theorem edgeGeo {m : Mesh} (w : WF m) (hp : Proper m) (hg : Planar m) (hq : Prepared m) {pn : Bool} (hh : HasProps m pn) {k : Key}
    (hk : k ∈ m.ekeys) : ∃ ns Ac pm, EdgeData m pn k ns Ac pm ∧ (∀ i, i ∈ ns ↔ edgeNodes m k i) ∧ GeoOk m k Ac ∧
      (∀ s, pm s = avg m pn k s) ∧ Ac = ((m.edge k).trias.map fun t => triArea m t / 3).sum := by
  obtain ⟨ns, Ac, pm, h1, h2, h3, h4, h5, _⟩ := edgeGeoP w hp hg hq hh hk
  exact ⟨ns, Ac, pm, h1, h2, h3, h4, h5⟩

theorem gStrain_eps {m : Mesh} {k : Key} {Ac : ℝ} (hg : GeoOk m k Ac) (v : ℕ → ℝ) : gStrain m k Ac v = eps m k v := by
  unfold gStrain eps v6
  simp only [hg.X, hg.Y]

/-- the energy form of `calc_k0` -/
theorem calcK0_energy {m : Mesh} (w : WF m) (hp : Proper m) (hg : Planar m) {pn : Bool} (hh : HasProps m pn) (hne : m.nids ≠ []) {K : Mat}
    (hK : (calcK0 m pn).2 = .ok K) (v u : ℕ → ℝ) : form (m.nids.length * 5) K.get v u = energy m pn v u := by
  obtain ⟨K', h1, h2, hs, hq, h3⟩ := calcK0_proper w hp hh hne
  rw [hK] at h1
  have : K = K' := by injection h1
  subst this
  set m2 := (calcK0 m pn).1 with hm2
  have hget : K.get = fun i j => (m.ekeys.map fun k => entrySum (m.nids.length * 5)
        (okEntries ((k0Env m2 pn (m2.edge k)).map k0Entries)) i j).sum := by funext i j; exact h3 i j
  have e1 : form (m.nids.length * 5) K.get v u = (m.ekeys.map fun k => bil (m.nids.length * 5) (entrySum (m.nids.length * 5)
        (okEntries ((k0Env m2 pn (m2.edge k)).map k0Entries))) v u).sum := by
    rw [hget]
    exact bil_sum _ _ _ _ _
  rw [e1, ← hs.senergy]
  unfold energy
  rw [hs.ekeys]
  congr 1
  refine List.map_congr_left fun k hk => ?_
  obtain ⟨ns, Ac, pm, hd, _, hgeo, hpm, _⟩ := edgeGeo (hs.wf w) (hs.proper hp) (hs.planar hg) hq (hs.hasProps hh) (hs.ekeys.symm ▸ hk)
  rw [← hs.nids, bil_edge hq hd, gStrain_eps hgeo, gStrain_eps hgeo, hgeo.hAc]
  simp only [hpm]

end Meshless
