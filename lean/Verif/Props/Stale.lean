import Verif.Spec.Stale
import Verif.Props.K0s
import Verif.Props.History
import Verif.Props.K0Inv

/-! Nodes moved after `calc_k0`: what `calc_kG` and `add_k0s` then use. -/

set_option autoImplicit false

namespace Meshless
open Spec Finset

/-- a mesh that differs from another in node positions only -/
structure OnlyMoved (m n : Mesh) : Prop where
  nids : n.nids = m.nids
  eids : n.eids = m.eids
  ekeys : n.ekeys = m.ekeys
  tria : n.tria = m.tria
  edge : n.edge = m.edge
  index : ∀ i, (n.node i).index = (m.node i).index
  prop : ∀ i, (n.node i).prop = (m.node i).prop
  cp : ∀ i, (n.node i).cp = (m.node i).cp

theorem moves_only : ∀ (mv : List (ℕ × Vec3)) (m : Mesh), OnlyMoved m (run m (moves mv)) := by
  intro mv
  induction mv with
  | nil => intro m; exact ⟨rfl, rfl, rfl, rfl, rfl, fun _ => rfl, fun _ => rfl, fun _ => rfl⟩
  | cons p mv ih =>
    intro m
    have hrun : run m (moves (p :: mv)) = run (step m (.moveNode p.1 p.2)) (moves mv) := rfl
    rw [hrun]
    obtain ⟨a1, a2, a3, a4, a5, a6, a7, a8⟩ := ih (step m (.moveNode p.1 p.2))
    have hs : OnlyMoved m (step m (.moveNode p.1 p.2)) := by
      unfold step
      dsimp only
      split_ifs
      · refine ⟨rfl, rfl, rfl, rfl, rfl, fun i => ?_, fun i => ?_, fun i => ?_⟩ <;>
        · unfold Mesh.updNode
          by_cases h : i = p.1
          · subst h; simp
          · simp [Function.update_of_ne h]
      · exact ⟨rfl, rfl, rfl, rfl, rfl, fun _ => rfl, fun _ => rfl, fun _ => rfl⟩
    obtain ⟨b1, b2, b3, b4, b5, b6, b7, b8⟩ := hs
    exact ⟨a1.trans b1, a2.trans b2, a3.trans b3, a4.trans b4, a5.trans b5, fun i => (a6 i).trans (b6 i), fun i => (a7 i).trans (b7 i), fun i => (a8 i).trans (b8 i)⟩

section
variable {m n : Mesh} (h : OnlyMoved m n)
include h

theorem OnlyMoved.nodeIdx : nodeIdx n = nodeIdx m := by
  funext i; unfold Meshless.nodeIdx; rw [h.index]

theorem OnlyMoved.indexed (l : List IPt) : iptsIndexed n l = iptsIndexed m l := by
  unfold iptsIndexed; simp only [h.index]

/-- with properties from nodes positions are not read -/
theorem OnlyMoved.edgeProp (ed : Edge) (sel : Lam → Fin 3 → Fin 3 → ℝ) : edgeProp n true ed sel = edgeProp m true ed sel := by
  unfold Meshless.edgeProp
  simp only [h.prop, if_true]

end

/-- C130: with properties from nodes, moving nodes after `calc_k0` (or any other time) does not change what `calc_kG` returns -/
theorem C130_nodes (m : Mesh) (mv : List (ℕ × Vec3)) (d : List ℝ) : calcKG (run m (moves mv)) d true = calcKG m d true := by
  have h := moves_only mv m
  have he : ∀ M k, kGEdge (run m (moves mv)) d true M k = kGEdge m d true M k := by
    intro M k
    unfold kGEdge kGEnv
    simp only [h.nodeIdx, h.indexed, h.edgeProp, h.edge]
  unfold calcKG
  rw [h.ekeys, matLoop_congr m.ekeys _ fun k _ M => he M k]

theorem OnlyMoved.proper {m n : Mesh} (h : OnlyMoved m n) (hp : Proper m) : Proper n := by
  obtain ⟨h1, h2, h3⟩ := hp
  refine ⟨?_, ?_, ?_⟩
  · rw [h.eids, h.tria]; exact h1
  · rw [h.ekeys, h.edge]; exact h2
  · have : IsCorner n = IsCorner m := by funext e i; unfold IsCorner; rw [h.tria]
    rw [h.eids, this]; exact h3

theorem OnlyMoved.hasProps {m n : Mesh} (h : OnlyMoved m n) {pn : Bool} (hh : HasProps m pn) : HasProps n pn := by
  have : IsCorner n = IsCorner m := by funext e i; unfold IsCorner; rw [h.tria]
  unfold HasProps at hh ⊢
  simp only [h.eids, h.tria, h.prop, this]
  exact hh

section elements
variable {m n : Mesh} (h : OnlyMoved m n)
include h

theorem OnlyMoved.side {t o : ℕ} {k : Key} (hs : Side m t k o) : Side n t k o :=
  ⟨h.eids.symm ▸ hs.mem, by unfold Mesh.triaNodes; rw [h.tria]; exact hs.perm, hs.hab, hs.hao, hs.hbo, h.nids.symm ▸ hs.ina, h.nids.symm ▸ hs.inb, h.nids.symm ▸ hs.ino⟩

theorem OnlyMoved.kgOk {ns : List ℕ} {ed : Edge} {d : List ℝ} {A B : Fin 3 → Fin 3 → ℝ} {e : KGEnv ℝ} (hk : KGOk n ns ed d A B e) : KGOk m ns ed d A B e := by
  obtain ⟨h1, h2, h3, h4, h5⟩ := hk
  unfold kgN at h5
  rw [h.nodeIdx] at h1 h2 h4
  simp only [h.nodeIdx] at h5
  exact ⟨h1, h2, h3, h4, h5⟩

/-- the local variables of `calc_kG` for an edge of the moved mesh -/
theorem OnlyMoved.kgData (w : WF m) (hp : Proper m) (hq : Prepared m) {pn : Bool} {d : List ℝ} (hd : 5 * m.nids.length ≤ d.length)
    {k : Key} (hk : k ∈ m.ekeys) {ns : List ℕ} {Ac : ℝ} {pm : (Lam → ℝ) → ℝ} (hdat : EdgeData m pn k ns Ac pm) {A B : Fin 3 → Fin 3 → ℝ}
    (hA : Meshless.edgeProp n pn (m.edge k) Lam.A = .ok A) (hB : Meshless.edgeProp n pn (m.edge k) Lam.B = .ok B)
    (hns : ∀ i, i ∈ ns ↔ edgeNodes m k i) :
    ∃ e, kGEnv n d pn (m.edge k) = .ok e ∧ KGOk m ns (m.edge k) d A B e := by
  suffices hn : ∃ e, kGEnv n d pn (m.edge k) = .ok e ∧ KGOk n ns (m.edge k) d A B e by
    obtain ⟨e, h1, h2⟩ := hn; exact ⟨e, h1, h.kgOk h2⟩
  have hdl : ∀ i ∈ ns, (dSlice d (Meshless.nodeIdx n i)).length = 5 := by
    intro i hi
    rw [h.nodeIdx, hq.nodeIdx' (hdat.ns_nids i hi)]
    have := List.idxOf_lt_length_iff.2 (hdat.ns_nids i hi)
    exact dSlice_length (by omega)
  have hinj : ∀ i ∈ ns, ∀ j ∈ ns, Meshless.nodeIdx n i = Meshless.nodeIdx n j → i = j := by
    rw [h.nodeIdx]; exact fun i hi j hj h => nodeIdx_inj hq (hdat.ns_nids i hi) (hdat.ns_nids j hj) h
  have hix : ∀ i ∈ ns, (n.node i).index.isSome := fun i hi => by rw [h.index, hq.nodeIdx (hdat.ns_nids i hi)]; rfl
  rcases prepared_shape w hp hq hk with ⟨t, o, he, hs⟩ | ⟨t1, t2, o1, o2, he, hs1, hs2, ho, _⟩
  · have hd0 : (dSlice d 0).length = 5 := by
      have := List.length_pos_of_mem hs.ina
      exact dSlice_length (i := 0) (by omega)
    have hperm : ns.Perm [k.1, k.2, o] := (List.perm_ext_iff_of_nodup hdat.ns_nodup (by simp [hs.hab, hs.hao, hs.hbo])).2 fun i => by
      rw [hns]
      have : (m.edge k).trias = [t] := by rw [he]; rfl
      simp [edgeNodes, this, hs.corner_iff]
    have hip : (m.edge k).ipts = iptsA m t (orient m (m.mid t) k.1 k.2).1 (orient m (m.mid t) k.1 k.2).2 o
      ++ iptsB m t (orient m (m.mid t) k.1 k.2).1 (orient m (m.mid t) k.1 k.2).2 o := by rw [he]; rfl
    have hab : ((orient m (m.mid t) k.1 k.2).1 = k.1 ∧ (orient m (m.mid t) k.1 k.2).2 = k.2) ∨
      ((orient m (m.mid t) k.1 k.2).1 = k.2 ∧ (orient m (m.mid t) k.1 k.2).2 = k.1) := by
      rcases orient_cases m (m.mid t) k.1 k.2 with h | h <;> rw [h] <;> simp
    have hN := hdat.ipts
    rw [hip] at hN
    refine kgEnv3 hinj hdat.ns_nodup (by rw [hperm.length_eq]; rfl) hix (by rw [he]; simp [bEdge]) (by rw [he]; simp [bEdge]) hip
      (hN _ (by simp [iptsA])) (hN _ (by simp [iptsA])) (hN _ (by simp [iptsB])) ?_ hdat.hAc hA hB hd0 hdl
    intro i hi
    rw [hperm.mem_iff] at hi
    simp only [mkIPt, List.mem_cons, List.not_mem_nil, or_false] at hi ⊢
    rcases hab with ⟨q1, q2⟩ | ⟨q1, q2⟩ <;> rw [q1, q2] <;> tauto
  · have hperm : ns.Perm [k.1, k.2, o1, o2] := (List.perm_ext_iff_of_nodup hdat.ns_nodup
        (by simp [hs1.hab, hs1.hao, hs1.hbo, hs2.hao, hs2.hbo, ho])).2 fun i => by
      rw [hns]
      have : (m.edge k).trias = [t1, t2] := by rw [he]; rfl
      simp [edgeNodes, this, hs1.corner_iff, hs2.corner_iff]; tauto
    have hip : (m.edge k).ipts = iptsA m t1 (orient m (m.mid t1) k.1 k.2).1 (orient m (m.mid t1) k.1 k.2).2 o1
      ++ iptsI m t2 (orient m (m.mid t1) k.1 k.2).1 (orient m (m.mid t1) k.1 k.2).2 o2 := by rw [he]; rfl
    have hab : ((orient m (m.mid t1) k.1 k.2).1 = k.1 ∧ (orient m (m.mid t1) k.1 k.2).2 = k.2) ∨
      ((orient m (m.mid t1) k.1 k.2).1 = k.2 ∧ (orient m (m.mid t1) k.1 k.2).2 = k.1) := by
      rcases orient_cases m (m.mid t1) k.1 k.2 with h | h <;> rw [h] <;> simp
    have hN := hdat.ipts
    rw [hip] at hN
    refine kgEnv4 hinj hdat.ns_nodup (by rw [hperm.length_eq]; rfl) hix (by rw [he]; simp [iEdge]) (by rw [he]; simp [iEdge]) hip
      (hN _ (by simp [iptsA])) (hN _ (by simp [iptsA])) (hN _ (by simp [iptsI])) (hN _ (by simp [iptsI])) ?_ hdat.hAc hA hB hdl
    intro i hi
    rw [hperm.mem_iff] at hi
    simp only [mkIPt, List.mem_cons, List.not_mem_nil, or_false] at hi ⊢
    rcases hab with ⟨q1, q2⟩ | ⟨q1, q2⟩ <;> rw [q1, q2] <;> tauto

/-- the averaged laminate matrices of the moved mesh -/
theorem OnlyMoved.stale (w : WF m) (hp : Proper m) (hg : Planar m) (hq : Prepared m) (hh : HasProps m false) (hb : ∀ i ∈ m.nids, (n.node i).cp (n.node i).xyz = (n.node i).xyz)
    {k : Key} (hk : k ∈ m.ekeys) (sel : Lam → Fin 3 → Fin 3 → ℝ) : Meshless.edgeProp n false (m.edge k) sel = .ok fun i j => staleAvg m n k fun l => sel l i j := by
  obtain ⟨ns, Ac, pm, h1, _, h3, h4, h5, h6⟩ := edgeGeoP w hp hg hq hh hk
  rcases prepared_shape w hp hq hk with ⟨t, o, he, hs⟩ | ⟨t1, t2, o1, o2, he, hs1, hs2, ho, _⟩
  · have htr : (m.edge k).trias = [t] := by rw [he]; rfl
    obtain ⟨p, hpp⟩ := hasProps_tria hh hs.mem
    unfold Meshless.edgeProp staleAvg
    simp only [htr, h.tria, hpp, Bool.false_eq_true, if_false, List.getD_cons_zero, List.getElem?_cons_succ, List.getElem?_nil, ofProp]
  · have htr : (m.edge k).trias = [t1, t2] := by rw [he]; rfl
    obtain ⟨p1, hp1⟩ := hasProps_tria hh hs1.mem
    obtain ⟨p2, hp2⟩ := hasProps_tria hh hs2.mem
    have hn1 := h.side hs1
    have hn2 := h.side hs2
    have hb' : ∀ i ∈ n.nids, (n.node i).cp (n.node i).xyz = (n.node i).xyz := by rw [h.nids]; exact hb
    have hkn : (m.edge k).n1 = k.1 ∧ (m.edge k).n2 = k.2 := w.en k hk
    have e1 : polyArea [n.mid t1, (n.node k.2).xyz, (n.node k.1).xyz] = triArea n t1 / 3 := by
      rw [← triArea_side hn1]
      obtain ⟨q1, q2, _⟩ := mid_eq hb' hn1
      rw [polyArea3, sarea3, mean_corners hn1, mean_corners hn1, ← q1, ← q2, abs_div, abs_two]
      simp only [mean_single, nx, ny]
      rw [← abs_neg]; congr 2; ring
    have e2 : polyArea [n.mid t2, (n.node k.1).xyz, (n.node k.2).xyz] = triArea n t2 / 3 := by
      rw [← triArea_side hn2]
      obtain ⟨q1, q2, _⟩ := mid_eq hb' hn2
      rw [polyArea3, sarea3, mean_corners hn2, mean_corners hn2, ← q1, ← q2, abs_div, abs_two]
      simp only [mean_single, nx, ny]
      congr 2; ring
    have a1 : 0 < triArea m t1 := abs_pos.2 (hg.nondeg t1 hs1.mem)
    have a2 : 0 < triArea m t2 := abs_pos.2 (hg.nondeg t2 hs2.mem)
    unfold Meshless.edgeProp staleAvg
    simp only [htr, h.tria, hp1, hp2, Bool.false_eq_true, if_false, List.getD_cons_zero, List.getElem?_cons_succ, List.getElem?_cons_zero, ofProp, h1.hAc, hkn, e1, e2,
      List.map_cons, List.map_nil, List.sum_cons, List.sum_nil, add_zero]
    congr 1
    funext i j
    unfold mixA
    rw [h5, htr]
    simp only [List.map_cons, List.map_nil, List.sum_cons, List.sum_nil, add_zero]
    field_simp

end elements

/-- C130: with properties from elements, `calc_kG` on a mesh whose nodes were moved after `calc_k0` uses the areas, gradients and strains from before the move, but
averages the laminates of the two triangles of an interior edge with their areas after the move, over the areas before it -/
theorem C130_elements {m : Mesh} (ha : AfterK0 m) (hp : Proper m) (hg : Planar m) (hh : HasProps m false) (mv : List (ℕ × Vec3))
    (hb : ∀ i ∈ m.nids, ((run m (moves mv)).node i).cp ((run m (moves mv)).node i).xyz = ((run m (moves mv)).node i).xyz) {d : List ℝ} (hd : d.length = 5 * m.nids.length) :
    ∃ G, calcKG (run m (moves mv)) d false = .ok G ∧ G.dim = 5 * m.nids.length ∧ ∀ v u, form G.dim G.get v u = staleGeometric m (run m (moves mv)) (vec d) v u := by
  have h := moves_only mv m
  generalize run m (moves mv) = n at h hb ⊢
  have w := ha.wf
  have hq := ha.prepared
  have data : ∀ k ∈ m.ekeys, ∃ ns Ac e, EdgeData m false k ns Ac (avg m false k) ∧ GeoOk m k Ac ∧ kGEnv n d false (n.edge k) = .ok e ∧
      KGOk m ns (m.edge k) d (fun i j => staleAvg m n k fun l => l.A i j) (fun i j => staleAvg m n k fun l => l.B i j) e := by
    intro k hk
    obtain ⟨ns, Ac, pm, h1, h2, h3, h4, _, _⟩ := edgeGeoP w hp hg hq hh hk
    obtain ⟨e, h6, h7⟩ := h.kgData w hp hq (d := d) (by omega) hk h1 (h.stale w hp hg hq hh hb hk _) (h.stale w hp hg hq hh hb hk _) h2
    have hpm : pm = avg m false k := funext h4
    subst hpm
    exact ⟨ns, Ac, e, h1, h3, by rw [h.edge]; exact h6, h7⟩
  have good : ∀ k ∈ n.ekeys, GoodE (d.length / 5 * 5) ((kGEnv n d false (n.edge k)).map kGEntries) := by
    intro k hk
    obtain ⟨ns, Ac, e, h1, _, h2, h3⟩ := data k (h.ekeys ▸ hk)
    exact ⟨kGEntries e, by rw [h2]; rfl, entriesOk_kG hq (by omega) ha.nids_ne h1 h3⟩
  obtain ⟨G, e1, _, _⟩ := matLoop_ok (fun k => (kGEnv n d false (n.edge k)).map kGEntries) n.ekeys (Mat.zeros (d.length / 5 * 5)) good
  have hG : calcKG n d false = .ok G := by
    unfold calcKG
    rw [kGEdge_eq, e1]
  obtain ⟨h1, _, h2⟩ := calcKG_sum hG
  refine ⟨G, hG, by rw [h1]; omega, fun v u => ?_⟩
  have hget : G.get = fun i j => (n.ekeys.map fun k => entrySum (d.length / 5 * 5) (okEntries ((kGEnv n d false (n.edge k)).map kGEntries)) i j).sum := by
    funext i j; exact h2 i j
  have e1 : form (d.length / 5 * 5) G.get v u = (n.ekeys.map fun k => bil (d.length / 5 * 5) (entrySum (d.length / 5 * 5)
        (okEntries ((kGEnv n d false (n.edge k)).map kGEntries))) v u).sum := by
    rw [hget]; exact bil_sum _ _ _ _ _
  rw [h1, e1, h.ekeys]
  unfold staleGeometric
  congr 1
  refine List.map_congr_left fun k hk => ?_
  obtain ⟨ns, Ac, e, g1, g2, g3, g4⟩ := data k hk
  rw [g3]
  simp only [Except.map, okEntries]
  rw [bil_kG hq (by omega) g1 g4, ← g2.hAc]
  simp only [kgN_eq hq g1, gStrain_eps g2, g2.X, g2.Y, staleMembrane]

/-- C130: for a uniform laminate, a uniformly strained pre-buckling state and uniform slopes the energy counts every triangle three times by a third, once for each of
its sides: with its area before the move at a boundary edge and with its area after the move at an interior edge -/
theorem C130_uniform {m : Mesh} (ha : AfterK0 m) (hp : Proper m) (hg : Planar m) (hh : HasProps m false) {l : Lam} (hl : Homog m false l) (mv : List (ℕ × Vec3))
    (hb : ∀ i ∈ m.nids, ((run m (moves mv)).node i).cp ((run m (moves mv)).node i).xyz = ((run m (moves mv)).node i).xyz) {d : List ℝ} (hd : d.length = 5 * m.nids.length)
    {G : Mat} (hG : calcKG (run m (moves mv)) d false = .ok G) {c p q : ℕ → ℝ} (hdl : ∀ r ∈ [0, 1, 3, 4], ∀ i ∈ m.nids, disp m (vec d) r i = c r + p r * nx m i + q r * ny m i)
    {z : ℕ → ℝ} {cz px py : ℝ} (hz : ∀ i ∈ m.nids, disp m z 2 i = cz + px * nx m i + py * ny m i) :
    let e : Fin 3 → ℝ := ![p 0, q 1, q 0 + p 1]
    let κ : Fin 3 → ℝ := ![p 3, q 4, q 3 + p 4]
    let N : Fin 3 → ℝ := fun i => ∑ j, (l.A i j * e j + l.B i j * κ j)
    form G.dim G.get z z = (m.ekeys.map fun k => ((m.edge k).trias.map fun t => (if (m.edge k).trias.length = 1 then triArea m t else triArea (run m (moves mv)) t) / 3).sum).sum
      * (N 0 * px ^ 2 + 2 * N 2 * px * py + N 1 * py ^ 2) := by
  intro e κ N
  obtain ⟨G', hG', _, hf⟩ := C130_elements ha hp hg hh mv hb hd
  obtain rfl : G' = G := by rw [hG'] at hG; exact Except.ok.inj hG
  have h := moves_only mv m
  rw [hf]
  generalize run m (moves mv) = n at h ⊢
  unfold staleGeometric
  rw [← List.sum_map_mul_right]
  congr 1
  refine List.map_congr_left fun k hk => ?_
  obtain ⟨gx, gy⟩ := grad_linear ha.wf hp hg hk hz
  have he := eps_linear ha.wf hp hg hk hdl
  have hlt : ∀ t ∈ m.eids, (m.tria t).prop = some l := hl
  obtain ⟨ns, Ac, pm, _, _, h3, _, h5, _⟩ := edgeGeoP ha.wf hp hg ha.prepared hh hk
  obtain ⟨a, hav⟩ : ∃ a : ℝ, (∀ s : Lam → ℝ, staleAvg m n k s = a * s l) ∧
      |sarea m (dom m k)| * a = ((m.edge k).trias.map fun t => (if (m.edge k).trias.length = 1 then triArea m t else triArea n t) / 3).sum := by
    have hA : |sarea m (dom m k)| = ((m.edge k).trias.map fun t => triArea m t / 3).sum := by rw [← h3.hAc, h5]
    rcases prepared_shape ha.wf hp ha.prepared hk with ⟨t, o, he, hs⟩ | ⟨t1, t2, o1, o2, he, hs1, hs2, ho, _⟩
    · have htr : (m.edge k).trias = [t] := by rw [he]; rfl
      refine ⟨1, fun s => ?_, ?_⟩
      · unfold staleAvg; simp only [htr, hlt t hs.mem, ofProp, one_mul]
      · rw [hA, htr]; simp
    · have htr : (m.edge k).trias = [t1, t2] := by rw [he]; rfl
      have a1 : 0 < triArea m t1 := abs_pos.2 (hg.nondeg t1 hs1.mem)
      have a2 : 0 < triArea m t2 := abs_pos.2 (hg.nondeg t2 hs2.mem)
      refine ⟨(triArea n t1 + triArea n t2) / (triArea m t1 + triArea m t2), fun s => ?_, ?_⟩
      · unfold staleAvg; simp only [htr, hlt t1 hs1.mem, hlt t2 hs2.mem, ofProp, List.map_cons, List.map_nil, List.sum_cons, List.sum_nil, add_zero]; ring
      · rw [hA, htr]
        simp only [List.map_cons, List.map_nil, List.sum_cons, List.sum_nil, add_zero, List.length_cons, List.length_nil]
        norm_num
        field_simp
  obtain ⟨hav, hsum⟩ := hav
  have hN : ∀ i, staleMembrane m n k (vec d) i = a * N i := by
    intro i
    unfold staleMembrane
    rw [he, Finset.mul_sum]
    refine Finset.sum_congr rfl fun j _ => ?_
    simp only [hav]
    fin_cases j <;> simp [e, κ] <;> ring
  simp only [hN, gx, gy]
  rw [← hsum]
  ring

/-! ### `add_k0s` -/

theorem moves_static {m m' : Mesh} (hs : SameStatic m m') (mv : List (ℕ × Vec3)) : SameStatic (run m (moves mv)) (run m' (moves mv)) := by
  induction mv generalizing m m' with
  | nil => exact hs
  | cons p mv ih => exact ih (m := step m (.moveNode p.1 p.2)) (m' := step m' (.moveNode p.1 p.2)) (step_assign hs rfl)

section cells
variable {a b : Mesh} (h : SameStatic a b) {e : ℕ} (h1 : (b.node (a.tria e).n1).index = (a.node (a.tria e).n1).index)
  (h2 : (b.node (a.tria e).n2).index = (a.node (a.tria e).n2).index) (h3 : (b.node (a.tria e).n3).index = (a.node (a.tria e).n3).index)
include h h1 h2 h3

theorem cellSEnv_view (pn : Bool) (al : ℝ) (fa : Bool) : cellSEnv b pn al fa e = cellSEnv a pn al fa e := by
  have hm : b.mid e = a.mid e := h.mid e
  have ho : cellOrient b e = cellOrient a e := by unfold cellOrient; simp only [h.tria, h.xyz, hm]
  have hA : b.triaArea e = a.triaArea e := by unfold Mesh.triaArea Mesh.pos; simp only [h.tria, h.xyz, h.cp]
  have hS : ∀ n1 n2 n3, cellShear b pn e n1 n2 n3 = cellShear a pn e n1 n2 n3 := by intro n1 n2 n3; unfold cellShear; simp only [h.tria, h.prop]
  have hM : ∀ A, cellMaxl b e A fa = cellMaxl a e A fa := by
    intro A; unfold cellMaxl
    have : edgeLen b = edgeLen a := by funext k; unfold edgeLen; simp only [h.n1, h.n2, h.xyz]
    simp only [h.tria, this]
  have hc : cellOrient a e = ((a.tria e).n2, (a.tria e).n1, (a.tria e).n3) ∨ cellOrient a e = ((a.tria e).n1, (a.tria e).n2, (a.tria e).n3) := by
    unfold cellOrient; dsimp only; split_ifs <;> simp
  unfold cellSEnv
  rcases hc with hc | hc <;> simp only [ho, hc, hA, hS, hM, hm, h.xyz, h1, h2, h3]

theorem cellNSEnv_view (pn : Bool) (al : ℝ) (fa : Bool) : cellNSEnv b pn al fa e = cellNSEnv a pn al fa e := by
  have ho : cellNSOrient b e = cellNSOrient a e := by unfold cellNSOrient; simp only [h.tria, h.xyz]
  have hA : b.triaArea e = a.triaArea e := by unfold Mesh.triaArea Mesh.pos; simp only [h.tria, h.xyz, h.cp]
  have hS : ∀ n1 n2 n3, cellShear b pn e n1 n2 n3 = cellShear a pn e n1 n2 n3 := by intro n1 n2 n3; unfold cellShear; simp only [h.tria, h.prop]
  have hM : ∀ A, cellMaxl b e A fa = cellMaxl a e A fa := by
    intro A; unfold cellMaxl
    have : edgeLen b = edgeLen a := by funext k; unfold edgeLen; simp only [h.n1, h.n2, h.xyz]
    simp only [h.tria, this]
  have hc : cellNSOrient a e = ((a.tria e).n2, (a.tria e).n1, (a.tria e).n3) ∨ cellNSOrient a e = ((a.tria e).n1, (a.tria e).n2, (a.tria e).n3) := by
    unfold cellNSOrient; dsimp only; split_ifs <;> simp
  unfold cellNSEnv
  rcases hc with hc | hc <;> simp only [ho, hc, hA, hS, hM, h.xyz, h1, h2, h3]

end cells

/-- C130: `add_k0s` with the cell methods uses the positions at the time of the call: on a mesh whose nodes were moved after `calc_k0` it does what it does on the mesh
whose nodes were moved before -/
theorem C130_shear {m : Mesh} (hr : Reachable m) (hp : Proper m) {pn pn' : Bool} {K0 K0' : Mat} (mv : List (ℕ × Vec3)) (h0 : (calcK0 m pn).2 = .ok K0)
    (h0' : (calcK0 (run m (moves mv)) pn).2 = .ok K0') (K : Mat) {method : String} (hmeth : method = "cell-based" ∨ method = "cell-based-no-smoothing") (al : ℝ) (fa : Bool) :
    addK0s K (run (calcK0 m pn).1 (moves mv)) pn' method al fa = addK0s K (calcK0 (run m (moves mv)) pn).1 pn' method al fa := by
  have w := hr.wf
  have hs := calcK0_static m pn w
  have w' : WF (run m (moves mv)) := wf_run _ m w
  have hs' := calcK0_static (run m (moves mv)) pn w'
  obtain ⟨_, hq, _, _⟩ := calcK0_ok w h0
  obtain ⟨_, hq', _, _⟩ := calcK0_ok w' h0'
  have h1 := moves_only mv (calcK0 m pn).1
  have h2 := moves_only mv m
  have hst := moves_static hs mv
  have hv : SameStatic (calcK0 (run m (moves mv)) pn).1 (run (calcK0 m pn).1 (moves mv)) := hs'.symm.trans hst
  have hix : ∀ i ∈ m.nids, ((calcK0 (run m (moves mv)) pn).1.node i).index = ((run (calcK0 m pn).1 (moves mv)).node i).index := by
    intro i hi
    rw [h1.index, hq.nodeIdx (hs.nids.symm ▸ hi), hq'.nodeIdx (by rw [hs'.nids, h2.nids]; exact hi), hs.nids, hs'.nids, h2.nids]
  have hcor : ∀ t ∈ m.eids, (m.tria t).n1 ∈ m.nids ∧ (m.tria t).n2 ∈ m.nids ∧ (m.tria t).n3 ∈ m.nids := fun t ht =>
    ⟨corner_mem w hp.distinct ht (Or.inl rfl), corner_mem w hp.distinct ht (Or.inr (Or.inl rfl)), corner_mem w hp.distinct ht (Or.inr (Or.inr rfl))⟩
  generalize (calcK0 (run m (moves mv)) pn).1 = a at hv hix hs'
  generalize run (calcK0 m pn).1 (moves mv) = b at hv hix
  have ht : a.tria = m.tria := hs'.tria.trans h2.tria
  have hei : a.eids = m.eids := hs'.eids.trans h2.eids
  have hS : ∀ e ∈ a.eids, ∀ M, cellSTria b pn' al fa M e = cellSTria a pn' al fa M e := by
    intro e he M
    obtain ⟨c1, c2, c3⟩ := hcor e (hei ▸ he)
    rw [← ht] at c1 c2 c3
    unfold cellSTria
    rw [cellSEnv_view hv (hix _ c1).symm (hix _ c2).symm (hix _ c3).symm]
  have hN : ∀ e ∈ a.eids, ∀ M, cellNSTria b pn' al fa M e = cellNSTria a pn' al fa M e := by
    intro e he M
    obtain ⟨c1, c2, c3⟩ := hcor e (hei ▸ he)
    rw [← ht] at c1 c2 c3
    unfold cellNSTria
    rw [cellNSEnv_view hv (hix _ c1).symm (hix _ c2).symm (hix _ c3).symm]
  unfold addK0s addK0sCell addK0sCellNS
  rcases hmeth with rfl | rfl
  · rw [if_pos rfl, if_pos rfl, hv.eids]; exact matLoop_congr _ _ hS
  · rw [if_neg (by decide), if_pos rfl, if_neg (by decide), if_pos rfl, hv.eids]; exact matLoop_congr _ _ hN

/-! ### concrete cases -/

/-- the unit square blown up to twice its size -/
noncomputable def exBlow : List (ℕ × Vec3) := [(1, ⟨0, 0, 0⟩), (2, ⟨2, 0, 0⟩), (3, ⟨2, 2, 0⟩), (4, ⟨0, 2, 0⟩)]

section
variable (p1 p2 p3 p4 q1 q2 : Lam)

theorem exBlow_xyz : ((run (exMesh p1 p2 p3 p4 q1 q2) (moves exBlow)).node 1).xyz = ⟨0, 0, 0⟩ ∧ ((run (exMesh p1 p2 p3 p4 q1 q2) (moves exBlow)).node 2).xyz = ⟨2, 0, 0⟩ ∧
    ((run (exMesh p1 p2 p3 p4 q1 q2) (moves exBlow)).node 3).xyz = ⟨2, 2, 0⟩ ∧ ((run (exMesh p1 p2 p3 p4 q1 q2) (moves exBlow)).node 4).xyz = ⟨0, 2, 0⟩ := ⟨rfl, rfl, rfl, rfl⟩

theorem exBlow_basic : ∀ i ∈ (exAfter p1 p2 p3 p4 q1 q2).nids, ((run (exAfter p1 p2 p3 p4 q1 q2) (moves exBlow)).node i).cp
    ((run (exAfter p1 p2 p3 p4 q1 q2) (moves exBlow)).node i).xyz = ((run (exAfter p1 p2 p3 p4 q1 q2) (moves exBlow)).node i).xyz := by
  intro i hi
  have hs := moves_static (exAfter_static p1 p2 p3 p4 q1 q2) exBlow
  rw [hs.cp, (moves_only exBlow (exMesh p1 p2 p3 p4 q1 q2)).cp]
  rw [exAfter_nids] at hi
  simp only [List.mem_cons, List.not_mem_nil, or_false] at hi
  have hc : ((exMesh p1 p2 p3 p4 q1 q2).node i).cp = id := by rcases hi with rfl | rfl | rfl | rfl <;> rfl
  rw [hc, id]

theorem exBlow_area : triArea (run (exAfter p1 p2 p3 p4 q1 q2) (moves exBlow)) 1 = 2 ∧ triArea (run (exAfter p1 p2 p3 p4 q1 q2) (moves exBlow)) 2 = 2 := by
  have hs := moves_static (exAfter_static p1 p2 p3 p4 q1 q2) exBlow
  obtain ⟨x1, x2, x3, x4⟩ := exBlow_xyz p1 p2 p3 p4 q1 q2
  have ht := (moves_only exBlow (exMesh p1 p2 p3 p4 q1 q2)).tria
  rw [hs.striArea]
  unfold triArea
  simp only [ht, exMesh_tria1, exMesh_tria2, sarea3, mean_single, nx, ny, x1, x2, x3, x4]
  constructor <;> norm_num

end

/-- concrete case: a unit square stretched to N = (2, 0, 0), with w = x. The geometric energy is 2; when the square is blown up to twice its size after `calc_k0`,
`calc_kG` with element properties returns a matrix of energy 4 (with node properties it remains 2) -/
example : ∃ G, calcKG (run (exAfter exIso exIso exIso exIso exIso exIso) (moves exBlow)) [0, 0, 0, 0, 0, 2, 0, 0, 0, 0, 2, 0, 0, 0, 0, 0, 0, 0, 0, 0] false = .ok G ∧
    form 20 G.get (fun j => if j = 7 ∨ j = 12 then 1 else 0) (fun j => if j = 7 ∨ j = 12 then 1 else 0) = 4 := by
  have hs := exAfter_static exIso exIso exIso exIso exIso exIso
  have hl : ([0, 0, 0, 0, 0, 2, 0, 0, 0, 0, 2, 0, 0, 0, 0, 0, 0, 0, 0, 0] : List ℝ).length = 5 * (exAfter exIso exIso exIso exIso exIso exIso).nids.length := by
    rw [exAfter_nids]; rfl
  obtain ⟨G, hG, hdim, _⟩ := C130_elements (exAfter_after exIso exIso exIso exIso exIso exIso) (exAfter_proper ..) (exAfter_planar ..) (exAfter_props _ _ _ _ _ _ false)
    exBlow (exBlow_basic exIso exIso exIso exIso exIso exIso) hl
  rw [exAfter_nids] at hdim
  refine ⟨G, hG, ?_⟩
  have h := C130_uniform (exAfter_after exIso exIso exIso exIso exIso exIso) (exAfter_proper ..) (exAfter_planar ..) (exAfter_props _ _ _ _ _ _ false)
    (exAfter_Homog exIso false) exBlow (exBlow_basic exIso exIso exIso exIso exIso exIso) hl hG
    (c := fun _ => 0) (p := fun r => if r = 0 then 2 else 0) (q := fun _ => 0) (by
      intro r hr i hi
      rw [exAfter_nids] at hi
      simp only [List.mem_cons, List.not_mem_nil, or_false] at hr hi
      rcases hr with rfl | rfl | rfl | rfl <;> rcases hi with rfl | rfl | rfl | rfl <;>
        simp only [disp, vec, exAfter_nids, nx, ny, hs.xyz, exMesh_node1, exMesh_node2, exMesh_node3, exMesh_node4] <;>
        norm_num [List.idxOf_cons])
    (z := fun j => if j = 7 ∨ j = 12 then 1 else 0) (cz := 0) (px := 1) (py := 0) (by
      intro i hi
      rw [exAfter_nids] at hi
      simp only [List.mem_cons, List.not_mem_nil, or_false] at hi
      rcases hi with rfl | rfl | rfl | rfl <;>
        simp only [disp, exAfter_nids, nx, ny, hs.xyz, exMesh_node1, exMesh_node2, exMesh_node3, exMesh_node4] <;>
        norm_num [List.idxOf_cons])
  obtain ⟨b1, b2⟩ := exBlow_area exIso exIso exIso exIso exIso exIso
  have a1 : triArea (exMesh exIso exIso exIso exIso exIso exIso) 1 = 1 / 2 := by
    simp only [triArea, sarea3, exMesh_tria1, mean_single, nx, ny, exMesh_node1, exMesh_node2, exMesh_node3]; norm_num
  have a2 : triArea (exMesh exIso exIso exIso exIso exIso exIso) 2 = 1 / 2 := by
    simp only [triArea, sarea3, exMesh_tria2, mean_single, nx, ny, exMesh_node1, exMesh_node3, exMesh_node4]; norm_num
  rw [hdim, hs.ekeys, exMesh_ekeys, hs.striArea] at h
  simp only [hs.trias, List.map_cons, List.map_nil, exMesh_e12, exMesh_e23, exMesh_e13, exMesh_e34, exMesh_e14, List.length_cons, List.length_nil, List.sum_cons, List.sum_nil,
    a1, a2, b1, b2] at h
  rw [show (20 : ℕ) = 5 * [1, 2, 3, 4].length from rfl]
  refine h.trans ?_
  simp [exIso, exLam]
  norm_num

/-- concrete case of `C130_shear`: `calc_k0` succeeds before and after blowing the square up -/
example : (∃ K, (calcK0 (exMesh exIso exIso exIso exIso exIso exIso) true).2 = .ok K) ∧
    ∃ K', (calcK0 (run (exMesh exIso exIso exIso exIso exIso exIso) (moves exBlow)) true).2 = .ok K' := by
  obtain ⟨K, hK, _⟩ := exMesh_k0 exIso exIso exIso exIso exIso exIso true
  refine ⟨⟨K, hK⟩, ?_⟩
  have h := moves_only exBlow (exMesh exIso exIso exIso exIso exIso exIso)
  have hr : Reachable (run (exMesh exIso exIso exIso exIso exIso exIso) (moves exBlow)) := (exMesh_reachable ..).run _
  have hp := exMesh_proper exIso exIso exIso exIso exIso exIso
  have hh := exMesh_props exIso exIso exIso exIso exIso exIso true
  have hne := exMesh_ne exIso exIso exIso exIso exIso exIso
  generalize run (exMesh exIso exIso exIso exIso exIso exIso) (moves exBlow) = n at h hr
  generalize exMesh exIso exIso exIso exIso exIso exIso = m at *
  have hp' : Proper n := h.proper hp
  obtain ⟨K', hK', _⟩ := C11_success hr hp' (by rw [h.nids]; exact hne) (h.hasProps hh)
  exact ⟨K', hK'⟩

end Meshless
