import Verif.Lemmas.EdgeShape
import Verif.Lemmas.GenK0
import Mathlib.Tactic.IntervalCases
import Mathlib.Data.List.GetD

set_option autoImplicit false

namespace Meshless
open Spec

theorem indexPos_spec {ix : List ℤ} {j : ℤ} (h : j ∈ ix) : indexPos ix j < ix.length ∧ ix.getD (indexPos ix j) 0 = j := by
  have hl : ix.reverse.idxOf j < ix.reverse.length := List.idxOf_lt_length_iff.2 (List.mem_reverse.2 h)
  have hg : ix.reverse[ix.reverse.idxOf j] = j := List.getElem_idxOf hl
  rw [List.getElem_reverse] at hg
  have hlen : ix.length ≠ 0 := by intro h0; simp [List.length_eq_zero_iff.1 h0] at h
  have hlt : indexPos ix j < ix.length := by unfold indexPos; omega
  refine ⟨hlt, ?_⟩
  rw [List.getD_eq_getElem _ _ hlt]
  exact hg

/-- value of the weighted row: whatever the positions, the weights reach the right nodes -/
theorem row_sum (g : ℤ → ℝ) {i1 i2 i3 i4 a b c : ℤ} (f1 f2 f3 : ℝ) (ha : a ∈ [i1, i2, i3, i4]) (hb : b ∈ [i1, i2, i3, i4])
    (hc : c ∈ [i1, i2, i3, i4]) (hab : a ≠ b) (hac : a ≠ c) (hbc : b ≠ c) (r : List ℝ)
    (hr : r = (((List.replicate 4 (0:ℝ)).set (indexPos [i1, i2, i3, i4] a) f1).set (indexPos [i1, i2, i3, i4] b) f2).set
      (indexPos [i1, i2, i3, i4] c) f3) :
    wAt r 0 * g i1 + wAt r 1 * g i2 + wAt r 2 * g i3 + wAt r 3 * g i4 = f1 * g a + f2 * g b + f3 * g c := by
  obtain ⟨la, va⟩ := indexPos_spec ha
  obtain ⟨lb, vb⟩ := indexPos_spec hb
  obtain ⟨lc, vc⟩ := indexPos_spec hc
  generalize indexPos [i1, i2, i3, i4] a = pa at *
  generalize indexPos [i1, i2, i3, i4] b = pb at *
  generalize indexPos [i1, i2, i3, i4] c = pc at *
  simp only [List.length_cons, List.length_nil] at la lb lc
  clear ha hb hc
  subst hr
  interval_cases pa <;> interval_cases pb <;>
    first
    | (exfalso; apply hab; rw [← va, ← vb]; done)
    | (interval_cases pc <;>
        first
        | (exfalso; apply hac; rw [← va, ← vc]; done)
        | (exfalso; apply hbc; rw [← vb, ← vc]; done)
        | (simp only [List.getD_cons_zero, List.getD_cons_succ] at va vb vc
           subst va vb vc
           simp only [wAt, List.replicate, List.set, List.getD_cons_zero, List.getD_cons_succ]
           ring))

/-- weighted sum of nodal values over integration points -/
noncomputable def wsum (c : IPt → ℝ) (h : ℕ → ℝ) (l : List IPt) : ℝ :=
  (l.map fun p => p.le * c p * (p.f1 * h p.n1 + p.f2 * h p.n2 + p.f3 * h p.n3)).sum

/-- integration points use three different nodes, all among `ns` -/
def NodesIn (ns : List ℕ) (p : IPt) : Prop := p.n1 ∈ ns ∧ p.n2 ∈ ns ∧ p.n3 ∈ ns ∧ p.n1 ≠ p.n2 ∧ p.n1 ≠ p.n3 ∧ p.n2 ≠ p.n3

theorem weightRow_sum {idx : ℕ → ℤ} {ns : List ℕ} (hinj : ∀ i ∈ ns, ∀ j ∈ ns, idx i = idx j → i = j) (g : ℤ → ℝ)
    {i1 i2 i3 i4 : ℤ} (hmem : ∀ i ∈ ns, idx i ∈ [i1, i2, i3, i4]) {p : IPt} (hp : NodesIn ns p) :
    wAt (weightRow idx [i1, i2, i3, i4] p) 0 * g i1 + wAt (weightRow idx [i1, i2, i3, i4] p) 1 * g i2
      + wAt (weightRow idx [i1, i2, i3, i4] p) 2 * g i3 + wAt (weightRow idx [i1, i2, i3, i4] p) 3 * g i4
      = p.f1 * g (idx p.n1) + p.f2 * g (idx p.n2) + p.f3 * g (idx p.n3) := by
  obtain ⟨h1, h2, h3, h4, h5, h6⟩ := hp
  exact row_sum g p.f1 p.f2 p.f3 (hmem _ h1) (hmem _ h2) (hmem _ h3) (fun h => h4 (hinj _ h1 _ h2 h))
    (fun h => h5 (hinj _ h1 _ h3 h)) (fun h => h6 (hinj _ h2 _ h3 h)) _ rfl

/-- the sorted index list has the length of the set of nodes -/
theorem iptIndices_spec {idx : ℕ → ℤ} {ns : List ℕ} (hinj : ∀ i ∈ ns, ∀ j ∈ ns, idx i = idx j → i = j) (hnd : ns.Nodup)
    {l : List IPt} (hin : ∀ p ∈ l, p.n1 ∈ ns ∧ p.n2 ∈ ns ∧ p.n3 ∈ ns)
    (hall : ∀ i ∈ ns, ∃ p ∈ l, i = p.n1 ∨ i = p.n2 ∨ i = p.n3) :
    (iptIndices idx l).length = ns.length ∧ ∀ j, j ∈ iptIndices idx l ↔ ∃ i ∈ ns, idx i = j := by
  have hmem : ∀ j, j ∈ iptIndices idx l ↔ ∃ i ∈ ns, idx i = j := by
    intro j
    unfold iptIndices
    rw [(List.perm_insertionSort _ _).mem_iff, List.mem_dedup, List.mem_flatMap]
    constructor
    · rintro ⟨p, hp, hj⟩
      obtain ⟨a, b, c⟩ := hin p hp
      simp only [List.mem_cons, List.not_mem_nil, or_false] at hj
      rcases hj with rfl | rfl | rfl
      · exact ⟨_, a, rfl⟩
      · exact ⟨_, b, rfl⟩
      · exact ⟨_, c, rfl⟩
    · rintro ⟨i, hi, rfl⟩
      obtain ⟨p, hp, h⟩ := hall i hi
      refine ⟨p, hp, ?_⟩
      rcases h with rfl | rfl | rfl <;> simp
  refine ⟨?_, hmem⟩
  have hnd1 : (iptIndices idx l).Nodup := by
    unfold iptIndices
    exact (List.perm_insertionSort _ _).nodup_iff.2 (List.nodup_dedup _)
  have hnd2 : (ns.map idx).Nodup := hnd.map_on hinj
  have : (iptIndices idx l).Perm (ns.map idx) := by
    rw [List.perm_ext_iff_of_nodup hnd1 hnd2]
    intro j; rw [hmem, List.mem_map]
  rw [this.length_eq, List.length_map]

/-- data computed for an edge: connection between the env of the assembly and the integration points -/
structure EnvOk (m : Mesh) (ns : List ℕ) (ed : Edge) (A B D : Fin 3 → Fin 3 → ℝ) (e : K0Env ℝ) : Prop where
  X : ∀ g : ℤ → ℝ, e.X 0 * g e.i1 + e.X 1 * g e.i2 + e.X 2 * g e.i3 + e.X 3 * g e.i4 = wsum IPt.nx (fun i => g (nodeIdx m i)) ed.ipts
  Y : ∀ g : ℤ → ℝ, e.Y 0 * g e.i1 + e.Y 1 * g e.i2 + e.Y 2 * g e.i3 + e.Y 3 * g e.i4 = wsum IPt.ny (fun i => g (nodeIdx m i)) ed.ipts
  Ac : ed.Ac = some e.Ac
  idx : ∀ j ∈ [e.i1, e.i2, e.i3, e.i4], j = -1 ∨ ∃ i ∈ ns, j = nodeIdx m i
  hA : (e.A11 = A 0 0 ∧ e.A12 = A 0 1 ∧ e.A16 = A 0 2 ∧ e.A22 = A 1 1 ∧ e.A26 = A 1 2 ∧ e.A66 = A 2 2)
  hB : (e.B11 = B 0 0 ∧ e.B12 = B 0 1 ∧ e.B16 = B 0 2 ∧ e.B22 = B 1 1 ∧ e.B26 = B 1 2 ∧ e.B66 = B 2 2)
  hD : (e.D11 = D 0 0 ∧ e.D12 = D 0 1 ∧ e.D16 = D 0 2 ∧ e.D22 = D 1 1 ∧ e.D26 = D 1 2 ∧ e.D66 = D 2 2)

theorem env3 {m : Mesh} {pn : Bool} {ed : Edge} {ns : List ℕ} (hinj : ∀ i ∈ ns, ∀ j ∈ ns, nodeIdx m i = nodeIdx m j → i = j)
    (hnd : ns.Nodup) (hlen : ns.length = 3) (hix : ∀ i ∈ ns, (m.node i).index.isSome)
    (htr : ed.trias ≠ []) (htl : ed.trias.length ≤ 2) {p1 p2 p3 : IPt} (hip : ed.ipts = [p1, p2, p3])
    (h1 : NodesIn ns p1) (h2 : NodesIn ns p2) (h3 : NodesIn ns p3) (hall : ∀ i ∈ ns, i = p1.n1 ∨ i = p1.n2 ∨ i = p1.n3)
    {Ac : ℝ} (hAc : ed.Ac = some Ac) {A B D : Fin 3 → Fin 3 → ℝ} (hA : edgeProp m pn ed Lam.A = .ok A)
    (hB : edgeProp m pn ed Lam.B = .ok B) (hD : edgeProp m pn ed Lam.D = .ok D) :
    ∃ e, k0Env m pn ed = .ok e ∧ EnvOk m ns ed A B D e := by
  obtain ⟨hl, hm⟩ := iptIndices_spec (idx := nodeIdx m) (l := ed.ipts) hinj hnd
    (by intro p hp; rw [hip] at hp; simp at hp; rcases hp with rfl | rfl | rfl
        · exact ⟨h1.1, h1.2.1, h1.2.2.1⟩
        · exact ⟨h2.1, h2.2.1, h2.2.2.1⟩
        · exact ⟨h3.1, h3.2.1, h3.2.2.1⟩)
    (fun i hi => ⟨p1, by simp [hip], hall i hi⟩)
  rw [hlen] at hl
  obtain ⟨j1, j2, j3, hj⟩ := List.length_eq_three.1 hl
  have hidx : iptsIndexed m ed.ipts = true := by
    simp [iptsIndexed, hip, hix _ h1.1, hix _ h1.2.1, hix _ h1.2.2.1, hix _ h2.1, hix _ h2.2.1, hix _ h2.2.2.1, hix _ h3.1,
      hix _ h3.2.1, hix _ h3.2.2.1]
  have hix4 : (if ed.ipts.length = 3 then iptIndices (nodeIdx m) ed.ipts ++ [-1] else iptIndices (nodeIdx m) ed.ipts) = [j1, j2, j3, -1] := by
    rw [if_pos (by simp [hip]), hj]; rfl
  have hmem : ∀ i ∈ ns, nodeIdx m i ∈ [j1, j2, j3, (-1 : ℤ)] := by
    intro i hi
    have := (hm (nodeIdx m i)).2 ⟨i, hi, rfl⟩
    rw [hj] at this
    simp at this
    simp; tauto
  refine ⟨?_, ?_, ?_⟩
  rotate_left
  · unfold k0Env
    rw [if_neg htr, if_neg (by omega), hidx]
    dsimp only
    rw [hix4, hip, hAc, hA, hB, hD]
    rfl
  · have r1 := fun g => weightRow_sum hinj g hmem h1
    have r2 := fun g => weightRow_sum hinj g hmem h2
    have r3 := fun g => weightRow_sum hinj g hmem h3
    constructor
    · intro g
      simp only [K0Env.X, hip, wsum, List.map_cons, List.map_nil, List.sum_cons, List.sum_nil]
      simp only [Matrix.cons_val_zero, Matrix.cons_val_one, Matrix.cons_val]
      rw [← r1 g, ← r2 g, ← r3 g]
      ring
    · intro g
      simp only [K0Env.Y, hip, wsum, List.map_cons, List.map_nil, List.sum_cons, List.sum_nil]
      simp only [Matrix.cons_val_zero, Matrix.cons_val_one, Matrix.cons_val]
      rw [← r1 g, ← r2 g, ← r3 g]
      ring
    · rw [hAc]
    · intro j hjm
      simp only [List.mem_cons, List.not_mem_nil, or_false] at hjm
      rcases hjm with h | h | h | h
      · right; obtain ⟨i, hi, he⟩ := (hm j).1 (by rw [hj]; simp [h]); exact ⟨i, hi, he.symm⟩
      · right; obtain ⟨i, hi, he⟩ := (hm j).1 (by rw [hj]; simp [h]); exact ⟨i, hi, he.symm⟩
      · right; obtain ⟨i, hi, he⟩ := (hm j).1 (by rw [hj]; simp [h]); exact ⟨i, hi, he.symm⟩
      · left; exact h
    · exact ⟨rfl, rfl, rfl, rfl, rfl, rfl⟩
    · exact ⟨rfl, rfl, rfl, rfl, rfl, rfl⟩
    · exact ⟨rfl, rfl, rfl, rfl, rfl, rfl⟩

theorem env4 {m : Mesh} {pn : Bool} {ed : Edge} {ns : List ℕ} (hinj : ∀ i ∈ ns, ∀ j ∈ ns, nodeIdx m i = nodeIdx m j → i = j)
    (hnd : ns.Nodup) (hlen : ns.length = 4) (hix : ∀ i ∈ ns, (m.node i).index.isSome)
    (htr : ed.trias ≠ []) (htl : ed.trias.length ≤ 2) {p1 p2 p3 p4 : IPt} (hip : ed.ipts = [p1, p2, p3, p4])
    (h1 : NodesIn ns p1) (h2 : NodesIn ns p2) (h3 : NodesIn ns p3) (h4 : NodesIn ns p4)
    (hall : ∀ i ∈ ns, (i = p1.n1 ∨ i = p1.n2 ∨ i = p1.n3) ∨ (i = p3.n1 ∨ i = p3.n2 ∨ i = p3.n3))
    {Ac : ℝ} (hAc : ed.Ac = some Ac) {A B D : Fin 3 → Fin 3 → ℝ} (hA : edgeProp m pn ed Lam.A = .ok A)
    (hB : edgeProp m pn ed Lam.B = .ok B) (hD : edgeProp m pn ed Lam.D = .ok D) :
    ∃ e, k0Env m pn ed = .ok e ∧ EnvOk m ns ed A B D e := by
  obtain ⟨hl, hm⟩ := iptIndices_spec (idx := nodeIdx m) (l := ed.ipts) hinj hnd
    (by intro p hp; rw [hip] at hp; simp at hp; rcases hp with rfl | rfl | rfl | rfl
        · exact ⟨h1.1, h1.2.1, h1.2.2.1⟩
        · exact ⟨h2.1, h2.2.1, h2.2.2.1⟩
        · exact ⟨h3.1, h3.2.1, h3.2.2.1⟩
        · exact ⟨h4.1, h4.2.1, h4.2.2.1⟩)
    (fun i hi => by
      rcases hall i hi with h | h
      · exact ⟨p1, by simp [hip], h⟩
      · exact ⟨p3, by simp [hip], h⟩)
  rw [hlen] at hl
  obtain ⟨j1, j2, j3, j4, hj⟩ : ∃ a b c d, iptIndices (nodeIdx m) ed.ipts = [a, b, c, d] := by
    generalize iptIndices (nodeIdx m) ed.ipts = l at hl
    rcases l with _ | ⟨a, _ | ⟨b, _ | ⟨c, _ | ⟨d, _ | ⟨e, l⟩⟩⟩⟩⟩ <;> simp at hl
    exact ⟨a, b, c, d, rfl⟩
  have hidx : iptsIndexed m ed.ipts = true := by
    simp [iptsIndexed, hip, hix _ h1.1, hix _ h1.2.1, hix _ h1.2.2.1, hix _ h2.1, hix _ h2.2.1, hix _ h2.2.2.1, hix _ h3.1,
      hix _ h3.2.1, hix _ h3.2.2.1, hix _ h4.1, hix _ h4.2.1, hix _ h4.2.2.1]
  have hix4 : (if ed.ipts.length = 3 then iptIndices (nodeIdx m) ed.ipts ++ [-1] else iptIndices (nodeIdx m) ed.ipts) = [j1, j2, j3, j4] := by
    rw [if_neg (by simp [hip]), hj]
  have hmem : ∀ i ∈ ns, nodeIdx m i ∈ [j1, j2, j3, j4] := by
    intro i hi
    have := (hm (nodeIdx m i)).2 ⟨i, hi, rfl⟩
    rwa [hj] at this
  refine ⟨?_, ?_, ?_⟩
  rotate_left
  · unfold k0Env
    rw [if_neg htr, if_neg (by omega), hidx]
    dsimp only
    rw [hix4, hip, hAc, hA, hB, hD]
    rfl
  · have r1 := fun g => weightRow_sum hinj g hmem h1
    have r2 := fun g => weightRow_sum hinj g hmem h2
    have r3 := fun g => weightRow_sum hinj g hmem h3
    have r4 := fun g => weightRow_sum hinj g hmem h4
    constructor
    · intro g
      simp only [K0Env.X, hip, wsum, List.map_cons, List.map_nil, List.sum_cons, List.sum_nil]
      simp only [Matrix.cons_val_zero, Matrix.cons_val_one, Matrix.cons_val]
      rw [← r1 g, ← r2 g, ← r3 g, ← r4 g]
      ring
    · intro g
      simp only [K0Env.Y, hip, wsum, List.map_cons, List.map_nil, List.sum_cons, List.sum_nil]
      simp only [Matrix.cons_val_zero, Matrix.cons_val_one, Matrix.cons_val]
      rw [← r1 g, ← r2 g, ← r3 g, ← r4 g]
      ring
    · rw [hAc]
    · intro j hjm
      right
      obtain ⟨i, hi, he⟩ := (hm j).1 (by rw [hj]; exact hjm)
      exact ⟨i, hi, he.symm⟩
    · exact ⟨rfl, rfl, rfl, rfl, rfl, rfl⟩
    · exact ⟨rfl, rfl, rfl, rfl, rfl, rfl⟩
    · exact ⟨rfl, rfl, rfl, rfl, rfl, rfl⟩

end Meshless
