import Verif.Model.KG
import Verif.Lemmas.GenKG
import Verif.Lemmas.K0Edge

set_option autoImplicit false

namespace Meshless
open Spec

/-- component `r` of the slice of `d` for the node with index `j` -/
noncomputable def dAt (d : List ℝ) (r : ℕ) (j : ℤ) : ℝ := (dSlice d j).getD r 0

theorem dSlice_length {d : List ℝ} {i : ℕ} (h : 5 * i + 5 ≤ d.length) : (dSlice d (i : ℤ)).length = 5 := by
  simp only [dSlice, Int.toNat_natCast, List.length_take, List.length_drop]; omega

theorem dAt_eq (d : List ℝ) {i r : ℕ} (hr : r < 5) : dAt d r (i : ℤ) = d.getD (5 * i + r) 0 := by
  simp only [dAt, dSlice, Int.toNat_natCast, List.getD_eq_getElem?_getD, List.getElem?_take, List.getElem?_drop, if_pos hr]
  rw [mul_comm i 5]

/-- membrane strains of the pre-buckling state as the code forms them -/
noncomputable def kgEm (nx ny : ℕ → ℝ) (Ac : ℝ) (a b : ℕ) : Fin 3 → ℝ := ![1 / Ac * nx a, 1 / Ac * ny b, 1 / Ac * (ny a + nx b)]

/-- stress resultants as the code forms them -/
noncomputable def kgN (m : Mesh) (ed : Edge) (A B : Fin 3 → Fin 3 → ℝ) (d : List ℝ) (Ac : ℝ) : Fin 3 → ℝ := fun i =>
  dot3 A (kgEm (fun r => wsum IPt.nx (fun i => dAt d r (nodeIdx m i)) ed.ipts) (fun r => wsum IPt.ny (fun i => dAt d r (nodeIdx m i)) ed.ipts) Ac 0 1) i
  + dot3 B (kgEm (fun r => wsum IPt.nx (fun i => dAt d r (nodeIdx m i)) ed.ipts) (fun r => wsum IPt.ny (fun i => dAt d r (nodeIdx m i)) ed.ipts) Ac 3 4) i

/-- connection between the environment of one iteration of `calc_kG` and the integration points -/
structure KGOk (m : Mesh) (ns : List ℕ) (ed : Edge) (d : List ℝ) (A B : Fin 3 → Fin 3 → ℝ) (e : KGEnv ℝ) : Prop where
  X : ∀ g : ℤ → ℝ, e.X 0 * g e.i1 + e.X 1 * g e.i2 + e.X 2 * g e.i3 + e.X 3 * g e.i4 = wsum IPt.nx (fun i => g (nodeIdx m i)) ed.ipts
  Y : ∀ g : ℤ → ℝ, e.Y 0 * g e.i1 + e.Y 1 * g e.i2 + e.Y 2 * g e.i3 + e.Y 3 * g e.i4 = wsum IPt.ny (fun i => g (nodeIdx m i)) ed.ipts
  Ac : ed.Ac = some e.Ac
  idx : ∀ j ∈ [e.i1, e.i2, e.i3, e.i4], j = 0 ∨ ∃ i ∈ ns, j = nodeIdx m i
  N : e.Nxx = kgN m ed A B d e.Ac 0 ∧ e.Nyy = kgN m ed A B d e.Ac 1 ∧ e.Nxy = kgN m ed A B d e.Ac 2

theorem kgEnv3 {m : Mesh} {pn : Bool} {ed : Edge} {ns : List ℕ} (hinj : ∀ i ∈ ns, ∀ j ∈ ns, nodeIdx m i = nodeIdx m j → i = j)
    (hnd : ns.Nodup) (hlen : ns.length = 3) (hix : ∀ i ∈ ns, (m.node i).index.isSome)
    (htr : ed.trias ≠ []) (htl : ed.trias.length ≤ 2) {p1 p2 p3 : IPt} (hip : ed.ipts = [p1, p2, p3])
    (h1 : NodesIn ns p1) (h2 : NodesIn ns p2) (h3 : NodesIn ns p3) (hall : ∀ i ∈ ns, i = p1.n1 ∨ i = p1.n2 ∨ i = p1.n3)
    {Ac : ℝ} (hAc : ed.Ac = some Ac) {A B : Fin 3 → Fin 3 → ℝ} (hA : edgeProp m pn ed Lam.A = .ok A)
    (hB : edgeProp m pn ed Lam.B = .ok B) {d : List ℝ} (hd0 : (dSlice d 0).length = 5) (hdl : ∀ i ∈ ns, (dSlice d (nodeIdx m i)).length = 5) :
    ∃ e, kGEnv m d pn ed = .ok e ∧ KGOk m ns ed d A B e := by
  obtain ⟨hl, hm⟩ := iptIndices_spec (idx := nodeIdx m) (l := ed.ipts) hinj hnd
    (by intro p hp; rw [hip] at hp; simp at hp; rcases hp with rfl | rfl | rfl
        · exact ⟨h1.1, h1.2.1, h1.2.2.1⟩
        · exact ⟨h2.1, h2.2.1, h2.2.2.1⟩
        · exact ⟨h3.1, h3.2.1, h3.2.2.1⟩)
    (fun i hi => ⟨p1, by simp [hip], hall i hi⟩)
  rw [hlen] at hl
  obtain ⟨j1, j2, j3, hj⟩ := List.length_eq_three.1 hl
  have hidx : iptsIndexed m ed.ipts = true := by
    simp [iptsIndexed, hip, hix _ h1.1, hix _ h1.2.1, hix _ h1.2.2.1, hix _ h2.1, hix _ h2.2.1, hix _ h2.2.2.1, hix _ h3.1,
      hix _ h3.2.1, hix _ h3.2.2.1]
  have hix4 : (if ed.ipts.length = 3 then iptIndices (nodeIdx m) ed.ipts ++ [0] else iptIndices (nodeIdx m) ed.ipts) = [j1, j2, j3, 0] := by
    rw [if_pos (by simp [hip]), hj]; rfl
  have hmem : ∀ i ∈ ns, nodeIdx m i ∈ [j1, j2, j3, (0 : ℤ)] := by
    intro i hi
    have := (hm (nodeIdx m i)).2 ⟨i, hi, rfl⟩
    rw [hj] at this
    simp at this
    simp; tauto
  have hfrom : ∀ j ∈ [j1, j2, j3], ∃ i ∈ ns, j = nodeIdx m i := by
    intro j hjm
    obtain ⟨i, hi, he⟩ := (hm j).1 (by rw [hj]; exact hjm); exact ⟨i, hi, he.symm⟩
  have hl5 : (dSlice d j1).length = 5 ∧ (dSlice d j2).length = 5 ∧ (dSlice d j3).length = 5 ∧ (dSlice d 0).length = 5 := by
    obtain ⟨a, ha, rfl⟩ := hfrom j1 (by simp)
    obtain ⟨b, hb, rfl⟩ := hfrom j2 (by simp)
    obtain ⟨c, hc, rfl⟩ := hfrom j3 (by simp)
    exact ⟨hdl a ha, hdl b hb, hdl c hc, hd0⟩
  refine ⟨?_, ?_, ?_⟩
  rotate_left
  · unfold kGEnv
    rw [if_neg htr, if_neg (by omega), hidx]
    dsimp only
    rw [hix4, hip, hAc, hA, hB]
    simp only [Bool.not_true, Bool.false_eq_true, if_false, if_pos hl5]
    rfl
  · have r1 := fun g => weightRow_sum hinj g hmem h1
    have r2 := fun g => weightRow_sum hinj g hmem h2
    have r3 := fun g => weightRow_sum hinj g hmem h3
    constructor
    · intro g
      simp only [KGEnv.X, hip, wsum, List.map_cons, List.map_nil, List.sum_cons, List.sum_nil]
      simp only [Matrix.cons_val_zero, Matrix.cons_val_one, Matrix.cons_val]
      rw [← r1 g, ← r2 g, ← r3 g]
      ring
    · intro g
      simp only [KGEnv.Y, hip, wsum, List.map_cons, List.map_nil, List.sum_cons, List.sum_nil]
      simp only [Matrix.cons_val_zero, Matrix.cons_val_one, Matrix.cons_val]
      rw [← r1 g, ← r2 g, ← r3 g]
      ring
    · rw [hAc]
    · intro j hjm
      simp only [List.mem_cons, List.not_mem_nil, or_false] at hjm
      rcases hjm with h | h | h | h
      · right; exact hfrom j (by simp [h])
      · right; exact hfrom j (by simp [h])
      · right; exact hfrom j (by simp [h])
      · left; exact h
    · have c1 : ∀ r, dcAt (weightRow (nodeIdx m) [j1, j2, j3, 0] p1) (dSlice d j1) (dSlice d j2) (dSlice d j3) (dSlice d 0) r =
          p1.f1 * dAt d r (nodeIdx m p1.n1) + p1.f2 * dAt d r (nodeIdx m p1.n2) + p1.f3 * dAt d r (nodeIdx m p1.n3) := fun r => r1 (dAt d r)
      have c2 : ∀ r, dcAt (weightRow (nodeIdx m) [j1, j2, j3, 0] p2) (dSlice d j1) (dSlice d j2) (dSlice d j3) (dSlice d 0) r =
          p2.f1 * dAt d r (nodeIdx m p2.n1) + p2.f2 * dAt d r (nodeIdx m p2.n2) + p2.f3 * dAt d r (nodeIdx m p2.n3) := fun r => r2 (dAt d r)
      have c3 : ∀ r, dcAt (weightRow (nodeIdx m) [j1, j2, j3, 0] p3) (dSlice d j1) (dSlice d j2) (dSlice d j3) (dSlice d 0) r =
          p3.f1 * dAt d r (nodeIdx m p3.n1) + p3.f2 * dAt d r (nodeIdx m p3.n2) + p3.f3 * dAt d r (nodeIdx m p3.n3) := fun r => r3 (dAt d r)
      refine ⟨?_, ?_, ?_⟩ <;>
      · simp only [kgN, dot3, kgEm, wsum, hip, c1, c2, c3, List.map_cons, List.map_nil, List.sum_cons, List.sum_nil, Matrix.cons_val_zero,
          Matrix.cons_val_one, Matrix.cons_val]
        ring

theorem kgEnv4 {m : Mesh} {pn : Bool} {ed : Edge} {ns : List ℕ} (hinj : ∀ i ∈ ns, ∀ j ∈ ns, nodeIdx m i = nodeIdx m j → i = j)
    (hnd : ns.Nodup) (hlen : ns.length = 4) (hix : ∀ i ∈ ns, (m.node i).index.isSome)
    (htr : ed.trias ≠ []) (htl : ed.trias.length ≤ 2) {p1 p2 p3 p4 : IPt} (hip : ed.ipts = [p1, p2, p3, p4])
    (h1 : NodesIn ns p1) (h2 : NodesIn ns p2) (h3 : NodesIn ns p3) (h4 : NodesIn ns p4)
    (hall : ∀ i ∈ ns, (i = p1.n1 ∨ i = p1.n2 ∨ i = p1.n3) ∨ (i = p3.n1 ∨ i = p3.n2 ∨ i = p3.n3))
    {Ac : ℝ} (hAc : ed.Ac = some Ac) {A B : Fin 3 → Fin 3 → ℝ} (hA : edgeProp m pn ed Lam.A = .ok A)
    (hB : edgeProp m pn ed Lam.B = .ok B) {d : List ℝ} (hdl : ∀ i ∈ ns, (dSlice d (nodeIdx m i)).length = 5) :
    ∃ e, kGEnv m d pn ed = .ok e ∧ KGOk m ns ed d A B e := by
  obtain ⟨hl, hm⟩ := iptIndices_spec (idx := nodeIdx m) (l := ed.ipts) hinj hnd
    (by intro p hp; rw [hip] at hp; simp at hp; rcases hp with rfl | rfl | rfl | rfl
        · exact ⟨h1.1, h1.2.1, h1.2.2.1⟩
        · exact ⟨h2.1, h2.2.1, h2.2.2.1⟩
        · exact ⟨h3.1, h3.2.1, h3.2.2.1⟩
        · exact ⟨h4.1, h4.2.1, h4.2.2.1⟩)
    (fun i hi => by
      rcases hall i hi with h | h
      · exact ⟨p1, by simp [hip], h⟩
      · exact ⟨p3, by simp [hip], h⟩)
  rw [hlen] at hl
  obtain ⟨j1, j2, j3, j4, hj⟩ : ∃ a b c d, iptIndices (nodeIdx m) ed.ipts = [a, b, c, d] := by
    generalize iptIndices (nodeIdx m) ed.ipts = l at hl
    rcases l with _ | ⟨a, _ | ⟨b, _ | ⟨c, _ | ⟨d, _ | ⟨e, l⟩⟩⟩⟩⟩ <;> simp at hl
    exact ⟨a, b, c, d, rfl⟩
  have hidx : iptsIndexed m ed.ipts = true := by
    simp [iptsIndexed, hip, hix _ h1.1, hix _ h1.2.1, hix _ h1.2.2.1, hix _ h2.1, hix _ h2.2.1, hix _ h2.2.2.1, hix _ h3.1,
      hix _ h3.2.1, hix _ h3.2.2.1, hix _ h4.1, hix _ h4.2.1, hix _ h4.2.2.1]
  have hix4 : (if ed.ipts.length = 3 then iptIndices (nodeIdx m) ed.ipts ++ [0] else iptIndices (nodeIdx m) ed.ipts) = [j1, j2, j3, j4] := by
    rw [if_neg (by simp [hip]), hj]
  have hmem : ∀ i ∈ ns, nodeIdx m i ∈ [j1, j2, j3, j4] := by
    intro i hi
    have := (hm (nodeIdx m i)).2 ⟨i, hi, rfl⟩
    rwa [hj] at this
  have hfrom : ∀ j ∈ [j1, j2, j3, j4], ∃ i ∈ ns, j = nodeIdx m i := by
    intro j hjm
    obtain ⟨i, hi, he⟩ := (hm j).1 (by rw [hj]; exact hjm); exact ⟨i, hi, he.symm⟩
  have hl5 : (dSlice d j1).length = 5 ∧ (dSlice d j2).length = 5 ∧ (dSlice d j3).length = 5 ∧ (dSlice d j4).length = 5 := by
    obtain ⟨a, ha, rfl⟩ := hfrom j1 (by simp)
    obtain ⟨b, hb, rfl⟩ := hfrom j2 (by simp)
    obtain ⟨c, hc, rfl⟩ := hfrom j3 (by simp)
    obtain ⟨c', hc', rfl⟩ := hfrom j4 (by simp)
    exact ⟨hdl a ha, hdl b hb, hdl c hc, hdl c' hc'⟩
  refine ⟨?_, ?_, ?_⟩
  rotate_left
  · unfold kGEnv
    rw [if_neg htr, if_neg (by omega), hidx]
    dsimp only
    rw [hix4, hip, hAc, hA, hB]
    simp only [Bool.not_true, Bool.false_eq_true, if_false, if_pos hl5]
    rfl
  · have r1 := fun g => weightRow_sum hinj g hmem h1
    have r2 := fun g => weightRow_sum hinj g hmem h2
    have r3 := fun g => weightRow_sum hinj g hmem h3
    have r4 := fun g => weightRow_sum hinj g hmem h4
    constructor
    · intro g
      simp only [KGEnv.X, hip, wsum, List.map_cons, List.map_nil, List.sum_cons, List.sum_nil]
      simp only [Matrix.cons_val_zero, Matrix.cons_val_one, Matrix.cons_val]
      rw [← r1 g, ← r2 g, ← r3 g, ← r4 g]
      ring
    · intro g
      simp only [KGEnv.Y, hip, wsum, List.map_cons, List.map_nil, List.sum_cons, List.sum_nil]
      simp only [Matrix.cons_val_zero, Matrix.cons_val_one, Matrix.cons_val]
      rw [← r1 g, ← r2 g, ← r3 g, ← r4 g]
      ring
    · rw [hAc]
    · intro j hjm
      exact Or.inr (hfrom j hjm)
    · have c1 : ∀ r, dcAt (weightRow (nodeIdx m) [j1, j2, j3, j4] p1) (dSlice d j1) (dSlice d j2) (dSlice d j3) (dSlice d j4) r =
          p1.f1 * dAt d r (nodeIdx m p1.n1) + p1.f2 * dAt d r (nodeIdx m p1.n2) + p1.f3 * dAt d r (nodeIdx m p1.n3) := fun r => r1 (dAt d r)
      have c2 : ∀ r, dcAt (weightRow (nodeIdx m) [j1, j2, j3, j4] p2) (dSlice d j1) (dSlice d j2) (dSlice d j3) (dSlice d j4) r =
          p2.f1 * dAt d r (nodeIdx m p2.n1) + p2.f2 * dAt d r (nodeIdx m p2.n2) + p2.f3 * dAt d r (nodeIdx m p2.n3) := fun r => r2 (dAt d r)
      have c3 : ∀ r, dcAt (weightRow (nodeIdx m) [j1, j2, j3, j4] p3) (dSlice d j1) (dSlice d j2) (dSlice d j3) (dSlice d j4) r =
          p3.f1 * dAt d r (nodeIdx m p3.n1) + p3.f2 * dAt d r (nodeIdx m p3.n2) + p3.f3 * dAt d r (nodeIdx m p3.n3) := fun r => r3 (dAt d r)
      have c4 : ∀ r, dcAt (weightRow (nodeIdx m) [j1, j2, j3, j4] p4) (dSlice d j1) (dSlice d j2) (dSlice d j3) (dSlice d j4) r =
          p4.f1 * dAt d r (nodeIdx m p4.n1) + p4.f2 * dAt d r (nodeIdx m p4.n2) + p4.f3 * dAt d r (nodeIdx m p4.n3) := fun r => r4 (dAt d r)
      refine ⟨?_, ?_, ?_⟩ <;>
      · simp only [kgN, dot3, kgEm, wsum, hip, c1, c2, c3, c4, List.map_cons, List.map_nil, List.sum_cons, List.sum_nil, Matrix.cons_val_zero,
          Matrix.cons_val_one, Matrix.cons_val]
        ring

/-- what one iteration of `calc_kG` works with -/
theorem kgData {m : Mesh} (w : WF m) (hp : Proper m) (hq : Prepared m) {pn : Bool} {d : List ℝ} (hd : 5 * m.nids.length ≤ d.length)
    {k : Key} (hk : k ∈ m.ekeys) {ns : List ℕ} {Ac : ℝ} {pm : (Lam → ℝ) → ℝ} (hdat : EdgeData m pn k ns Ac pm)
    (hpm : ∀ sel : Lam → Fin 3 → Fin 3 → ℝ, edgeProp m pn (m.edge k) sel = .ok fun i j => pm fun l => sel l i j)
    (hns : ∀ i, i ∈ ns ↔ edgeNodes m k i) :
    ∃ e, kGEnv m d pn (m.edge k) = .ok e ∧ KGOk m ns (m.edge k) d (fun i j => pm fun l => l.A i j) (fun i j => pm fun l => l.B i j) e := by
  have hdl : ∀ i ∈ ns, (dSlice d (nodeIdx m i)).length = 5 := by
    intro i hi
    rw [hq.nodeIdx' (hdat.ns_nids i hi)]
    have := List.idxOf_lt_length_iff.2 (hdat.ns_nids i hi)
    exact dSlice_length (by omega)
  have hinj := fun i hi j hj h => nodeIdx_inj hq (hdat.ns_nids i hi) (hdat.ns_nids j hj) h
  have hix : ∀ i ∈ ns, (m.node i).index.isSome := fun i hi => by rw [hq.nodeIdx (hdat.ns_nids i hi)]; rfl
  rcases prepared_shape w hp hq hk with ⟨t, o, he, hs⟩ | ⟨t1, t2, o1, o2, he, hs1, hs2, ho, _⟩
  · have hd0 : (dSlice d 0).length = 5 := by
      have := List.length_pos_of_mem hs.ina
      exact dSlice_length (i := 0) (by omega)
    have hperm : ns.Perm [k.1, k.2, o] := (List.perm_ext_iff_of_nodup hdat.ns_nodup (by simp [hs.hab, hs.hao, hs.hbo])).2 fun i => by
      rw [hns]
      have : (m.edge k).trias = [t] := by rw [he]; rfl
      simp [edgeNodes, this, hs.corner_iff]
    have hip : (m.edge k).ipts = iptsA m t (orient m (m.mid t) k.1 k.2).1 (orient m (m.mid t) k.1 k.2).2 o
      ++ iptsB m t (orient m (m.mid t) k.1 k.2).1 (orient m (m.mid t) k.1 k.2).2 o := by rw [he]; rfl
    have hab : ((orient m (m.mid t) k.1 k.2).1 = k.1 ∧ (orient m (m.mid t) k.1 k.2).2 = k.2) ∨
      ((orient m (m.mid t) k.1 k.2).1 = k.2 ∧ (orient m (m.mid t) k.1 k.2).2 = k.1) := by
      rcases orient_cases m (m.mid t) k.1 k.2 with h | h <;> rw [h] <;> simp
    have hN := hdat.ipts
    rw [hip] at hN
    refine kgEnv3 hinj hdat.ns_nodup (by rw [hperm.length_eq]; rfl) hix (by rw [he]; simp [bEdge]) (by rw [he]; simp [bEdge]) hip
      (hN _ (by simp [iptsA])) (hN _ (by simp [iptsA])) (hN _ (by simp [iptsB])) ?_ hdat.hAc (hpm _) (hpm _) hd0 hdl
    intro i hi
    rw [hperm.mem_iff] at hi
    simp only [mkIPt, List.mem_cons, List.not_mem_nil, or_false] at hi ⊢
    rcases hab with ⟨q1, q2⟩ | ⟨q1, q2⟩ <;> rw [q1, q2] <;> tauto
  · have hperm : ns.Perm [k.1, k.2, o1, o2] := (List.perm_ext_iff_of_nodup hdat.ns_nodup
        (by simp [hs1.hab, hs1.hao, hs1.hbo, hs2.hao, hs2.hbo, ho])).2 fun i => by
      rw [hns]
      have : (m.edge k).trias = [t1, t2] := by rw [he]; rfl
      simp [edgeNodes, this, hs1.corner_iff, hs2.corner_iff]; tauto
    have hip : (m.edge k).ipts = iptsA m t1 (orient m (m.mid t1) k.1 k.2).1 (orient m (m.mid t1) k.1 k.2).2 o1
      ++ iptsI m t2 (orient m (m.mid t1) k.1 k.2).1 (orient m (m.mid t1) k.1 k.2).2 o2 := by rw [he]; rfl
    have hab : ((orient m (m.mid t1) k.1 k.2).1 = k.1 ∧ (orient m (m.mid t1) k.1 k.2).2 = k.2) ∨
      ((orient m (m.mid t1) k.1 k.2).1 = k.2 ∧ (orient m (m.mid t1) k.1 k.2).2 = k.1) := by
      rcases orient_cases m (m.mid t1) k.1 k.2 with h | h <;> rw [h] <;> simp
    have hN := hdat.ipts
    rw [hip] at hN
    refine kgEnv4 hinj hdat.ns_nodup (by rw [hperm.length_eq]; rfl) hix (by rw [he]; simp [iEdge]) (by rw [he]; simp [iEdge]) hip
      (hN _ (by simp [iptsA])) (hN _ (by simp [iptsA])) (hN _ (by simp [iptsI])) (hN _ (by simp [iptsI])) ?_ hdat.hAc (hpm _) (hpm _) hdl
    intro i hi
    rw [hperm.mem_iff] at hi
    simp only [mkIPt, List.mem_cons, List.not_mem_nil, or_false] at hi ⊢
    rcases hab with ⟨q1, q2⟩ | ⟨q1, q2⟩ <;> rw [q1, q2] <;> tauto

end Meshless
