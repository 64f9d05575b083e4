import Verif.Spec.Condition
import Verif.Props.Guided

/-! Sums over nodes and over triangles on meshes of even size, and the largest values of the energies (C144). -/

set_option autoImplicit false

namespace Meshless
open Spec Finset MeasureTheory

section
variable {m : Mesh} (w : WF m) (hp : Proper m)
include w hp

/-- sum over the corners of a triangle as a sum over all nodes -/
theorem corner_sum {e : ℕ} (he : e ∈ m.eids) (g : ℕ → ℝ) [DecidablePred (IsCorner m e)] :
    ∑ i ∈ m.nids.toFinset, (if IsCorner m e i then g i else 0) = g (m.tria e).n1 + g (m.tria e).n2 + g (m.tria e).n3 := by
  obtain ⟨d1, d2, d3⟩ := hp.distinct e he
  rw [← sum_filter]
  have : m.nids.toFinset.filter (IsCorner m e) = {(m.tria e).n1, (m.tria e).n2, (m.tria e).n3} := by
    ext i
    simp only [mem_filter, List.mem_toFinset, mem_insert, mem_singleton]
    exact ⟨fun h => h.2, fun h => ⟨corner_mem w hp.distinct he h, h⟩⟩
  rw [this]
  have n1 : (m.tria e).n1 ∉ ({(m.tria e).n2, (m.tria e).n3} : Finset ℕ) := by simp; tauto
  have n2 : (m.tria e).n2 ∉ ({(m.tria e).n3} : Finset ℕ) := by simp; tauto
  rw [sum_insert n1, sum_insert n2, sum_singleton]; ring

open Classical in
/-- sum over triangles and their corners as a sum over the nodes -/
theorem sum_corners (a g : ℕ → ℝ) :
    (m.eids.map fun e => a e * (g (m.tria e).n1 + g (m.tria e).n2 + g (m.tria e).n3)).sum = ∑ i ∈ m.nids.toFinset, (m.eids.map fun e => if IsCorner m e i then a e else 0).sum * g i := by
  rw [← List.sum_toFinset _ w.eids_nodup]
  have : ∀ i, (m.eids.map fun e => if IsCorner m e i then a e else 0).sum = ∑ e ∈ m.eids.toFinset, if IsCorner m e i then a e else 0 := fun i => (List.sum_toFinset _ w.eids_nodup).symm
  simp only [this, sum_mul]
  rw [sum_comm]
  refine sum_congr rfl fun e he => ?_
  rw [← corner_sum w hp (List.mem_toFinset.1 he) g, mul_sum]
  refine sum_congr rfl fun i _ => ?_
  split_ifs <;> simp
end

open Classical in
/-- the triangles at a node fit into a square around it -/
theorem around_area {m : Mesh} {Om : Set (ℝ × ℝ)} (ht : Tiles m Om) {h : ℝ} (hh : Size m h) (h0 : 0 ≤ h) (i : ℕ) :
    (m.eids.map fun e => if IsCorner m e i then triArea m e else 0).sum ≤ 4 * h ^ 2 := by
  set es := m.eids.filter fun e => decide (IsCorner m e i) with hes
  set rs := m.eids.filter fun e => !decide (IsCorner m e i) with hrs
  have hperm : (es ++ rs).Perm m.eids := List.filter_append_perm _ _
  have s1 : (m.eids.map fun e => if IsCorner m e i then triArea m e else 0).sum = (es.map (triArea m)).sum := by
    rw [hes]
    generalize m.eids = L
    induction L with
    | nil => simp
    | cons e L ih =>
      by_cases hc : IsCorner m e i
      · simp [hc, ih]
      · simp [hc, ih]
  have s2 : totalArea m = (es.map (triArea m)).sum + (rs.map (triArea m)).sum := by
    unfold totalArea
    rw [← (hperm.map (triArea m)).sum_eq, List.map_append, List.sum_append]
  have s3 : Om = filled m es ∪ filled m rs := by
    rw [ht.eq]
    ext x
    simp only [filled, Set.mem_union, Set.mem_ofPred_eq]
    constructor
    · rintro ⟨e, he, hx⟩
      rcases List.mem_append.1 (hperm.mem_iff.2 he) with h | h
      · exact Or.inl ⟨e, h, hx⟩
      · exact Or.inr ⟨e, h, hx⟩
    · rintro (⟨e, he, hx⟩ | ⟨e, he, hx⟩)
      · exact ⟨e, hperm.mem_iff.1 (List.mem_append_left _ he), hx⟩
      · exact ⟨e, hperm.mem_iff.1 (List.mem_append_right _ he), hx⟩
  have s4 : (es.map (triArea m)).sum ≤ volume.real (filled m es) := by
    have a1 := ht.area
    have a2 := measureReal_union_le (μ := volume) (filled m es) (filled m rs)
    have a3 := filled_le m rs
    rw [s3] at a1
    linarith
  rw [s1]
  refine s4.trans ?_
  have sub : filled m es ⊆ Metric.closedBall (pt m i) h := by
    rintro x ⟨e, he, hx⟩
    obtain ⟨he, hc⟩ := List.mem_filter.1 he
    exact (hull_dist hx (pt_mem_hull (of_decide_eq_true hc))).trans (hh e he)
  have hball : Metric.closedBall (pt m i) h = Metric.closedBall (pt m i).1 h ×ˢ Metric.closedBall (pt m i).2 h := (closedBall_prod_same _ _ _).symm
  have v1 : volume.real (Metric.closedBall (pt m i) h) = 4 * h ^ 2 := by
    rw [hball, Measure.volume_eq_prod, measureReal_prod_prod]
    simp only [Measure.real, Real.volume_closedBall]
    rw [ENNReal.toReal_ofReal (by linarith)]; ring
  rw [← v1]
  exact measureReal_mono sub (isCompact_closedBall _ _).measure_lt_top.ne

section
variable {m : Mesh} (w : WF m) (hp : Proper m)

/-- squared values of the five degrees of freedom of a node -/
noncomputable def nodeSq (m : Mesh) (v : ℕ → ℝ) (i : ℕ) : ℝ := ∑ r ∈ range 5, disp m v r i ^ 2

theorem nodeSq_nonneg (v : ℕ → ℝ) (i : ℕ) : 0 ≤ nodeSq m v i := sum_nonneg fun _ _ => sq_nonneg _

include w in
theorem sqLen_nodes (v : ℕ → ℝ) : sqLen (5 * m.nids.length) v = ∑ i ∈ m.nids.toFinset, nodeSq m v i := by
  have := sum_dofs w.nids_nodup v v
  unfold sqLen
  simp only [pow_two]
  rw [this, ← List.sum_toFinset _ w.nids_nodup]
  refine sum_congr rfl fun i _ => ?_
  simp [nodeSq, sum_range_succ, pow_two]

include w hp in
open Classical in
theorem dispSize_nodes (v : ℕ → ℝ) : dispSize m v = ∑ i ∈ m.nids.toFinset, (m.eids.map fun e => if IsCorner m e i then triArea m e else 0).sum * nodeSq m v i := by
  rw [← sum_corners w hp]
  unfold dispSize nodeSq
  simp only [sum_add_distrib]

include w hp in
/-- every node belongs to a triangle, so no displacement is missed in the mean square -/
theorem sqLen_dispSize {h q : ℝ} (hq : 0 ≤ q) (he : EvenSized m h q) (hu : ∀ i ∈ m.nids, ∃ e ∈ m.eids, IsCorner m e i) (v : ℕ → ℝ) : h ^ 2 * sqLen (5 * m.nids.length) v ≤ q * dispSize m v := by
  classical
  rw [sqLen_nodes w, dispSize_nodes w hp, mul_sum, mul_sum]
  refine sum_le_sum fun i hi => ?_
  obtain ⟨e, hE, hc⟩ := hu i (List.mem_toFinset.1 hi)
  have h1 := List.single_le_sum (l := m.eids.map fun e => if IsCorner m e i then triArea m e else 0) (fun y hy => by
    obtain ⟨e, _, rfl⟩ := List.mem_map.1 hy
    split_ifs
    · exact abs_nonneg _
    · exact le_rfl) _ (List.mem_map.2 ⟨e, hE, rfl⟩)
  rw [if_pos hc] at h1
  have h2 := (he.area e hE).trans (mul_le_mul_of_nonneg_left h1 hq)
  rw [← mul_assoc]
  exact mul_le_mul_of_nonneg_right h2 (nodeSq_nonneg v i)

include w hp in
/-- sum over triangles and corners: each node is counted a bounded number of times -/
theorem corners_sqLen {Om : Set (ℝ × ℝ)} (ht : Tiles m Om) {h q : ℝ} (hq : 0 ≤ q) (hh : 0 < h) (he : EvenSized m h q) (v : ℕ → ℝ) :
    (m.eids.map fun e => nodeSq m v (m.tria e).n1 + nodeSq m v (m.tria e).n2 + nodeSq m v (m.tria e).n3).sum ≤ 4 * q * sqLen (5 * m.nids.length) v := by
  classical
  have := sum_corners w hp (fun _ => 1) (nodeSq m v)
  simp only [one_mul] at this
  rw [this, sqLen_nodes w, mul_sum]
  refine sum_le_sum fun i _ => mul_le_mul_of_nonneg_right ?_ (nodeSq_nonneg v i)
  have h1 := around_area ht he.size hh.le i
  have h2 : h ^ 2 * (m.eids.map fun e => if IsCorner m e i then (1:ℝ) else 0).sum ≤ q * (m.eids.map fun e => if IsCorner m e i then triArea m e else 0).sum := by
    rw [← List.sum_map_mul_left, ← List.sum_map_mul_left]
    refine List.sum_le_sum fun e hE => ?_
    split_ifs
    · rw [mul_one]; exact he.area e hE
    · simp
  have h3 := h2.trans (mul_le_mul_of_nonneg_left h1 hq)
  refine le_of_mul_le_mul_left ?_ (pow_pos hh 2)
  linarith
end

section
variable {m : Mesh} (w : WF m) (hp : Proper m) (hg : Planar m)

theorem area_le (m : Mesh) (e : ℕ) : triArea m e ≤ charLen m false e ^ 2 := by
  have d2 := coord_le (corner_dist (m := m) (e := e) (i := (m.tria e).n2) (j := (m.tria e).n1) (Or.inr (Or.inl rfl)) (Or.inl rfl))
  have d3 := coord_le (corner_dist (m := m) (e := e) (i := (m.tria e).n3) (j := (m.tria e).n1) (Or.inr (Or.inr rfl)) (Or.inl rfl))
  have hl := charLen_nonneg m e
  simp only [pt] at d2 d3
  have e1 : triArea m e = |((nx m (m.tria e).n2 - nx m (m.tria e).n1) * (ny m (m.tria e).n3 - ny m (m.tria e).n1) -
      (nx m (m.tria e).n3 - nx m (m.tria e).n1) * (ny m (m.tria e).n2 - ny m (m.tria e).n1)) / 2| := by
    unfold triArea
    rw [sarea3]; simp only [mean_single]
  rw [e1, abs_div, abs_of_pos (by norm_num : (0:ℝ) < 2), div_le_iff₀ (by norm_num)]
  refine (abs_sub _ _).trans ?_
  rw [abs_mul, abs_mul]
  have a1 := mul_le_mul d2.1 d3.2 (abs_nonneg _) hl
  have a2 := mul_le_mul d3.1 d2.2 (abs_nonneg _) hl
  linarith

include w hp hg in
/-- gradients of the linear interpolation against the values at the corners -/
theorem grad_most {e : ℕ} (he : e ∈ m.eids) {s : ℝ} (hs : Shape m s) (f : ℕ → ℝ) :
    triArea m e * (gradX m (tpoly m e) f ^ 2 + gradY m (tpoly m e) f ^ 2) ≤ 4 * s * (f (m.tria e).n1 ^ 2 + f (m.tria e).n2 ^ 2 + f (m.tria e).n3 ^ 2) := by
  obtain ⟨c, p, q, haff⟩ := aff_exists w hp hg he f
  obtain ⟨e1, e2⟩ := tri_grad hg he haff
  rw [e1, e2]
  have hA := triArea_pos hg he
  have hl := charLen_nonneg m e
  have c1 : IsCorner m e (m.tria e).n1 := Or.inl rfl
  have c2 : IsCorner m e (m.tria e).n2 := Or.inr (Or.inl rfl)
  have c3 : IsCorner m e (m.tria e).n3 := Or.inr (Or.inr rfl)
  have d2 := coord_le (corner_dist c2 c1)
  have d3 := coord_le (corner_dist c3 c1)
  simp only [pt] at d2 d3
  set x := f (m.tria e).n1 ^ 2 + f (m.tria e).n2 ^ 2 + f (m.tria e).n3 ^ 2 with hx
  have b : ∀ a b : ℝ, a ^ 2 + b ^ 2 ≤ x → |b - a| ≤ Real.sqrt (2 * x) := fun a b h => Real.abs_le_sqrt (by nlinarith [sq_nonneg (a + b)])
  have b2 := b (f (m.tria e).n1) (f (m.tria e).n2) (by rw [hx]; linarith [sq_nonneg (f (m.tria e).n3)])
  have b3 := b (f (m.tria e).n1) (f (m.tria e).n3) (by rw [hx]; linarith [sq_nonneg (f (m.tria e).n2)])
  have hD : |(nx m (m.tria e).n2 - nx m (m.tria e).n1) * (ny m (m.tria e).n3 - ny m (m.tria e).n1) -
      (nx m (m.tria e).n3 - nx m (m.tria e).n1) * (ny m (m.tria e).n2 - ny m (m.tria e).n1)| = 2 * triArea m e := by
    have : (nx m (m.tria e).n2 - nx m (m.tria e).n1) * (ny m (m.tria e).n3 - ny m (m.tria e).n1) -
      (nx m (m.tria e).n3 - nx m (m.tria e).n1) * (ny m (m.tria e).n2 - ny m (m.tria e).n1) = 2 * sarea m [[(m.tria e).n1], [(m.tria e).n2], [(m.tria e).n3]] := by
      rw [sarea3]; simp only [mean_single]; ring
    rw [this, abs_mul, abs_of_pos (by norm_num : (0:ℝ) < 2)]; rfl
  obtain ⟨g1, g2⟩ := solve_small (p := p) (q := q) (r1 := f (m.tria e).n2 - f (m.tria e).n1) (r2 := f (m.tria e).n3 - f (m.tria e).n1)
    (by rw [haff _ c1, haff _ c2]; ring) (by rw [haff _ c1, haff _ c3]; ring) hA hD d2.1 d2.2 d3.1 d3.2 b2 b3
  have hx0 : 0 ≤ x := by positivity
  have fin : ∀ g, |g| ≤ Real.sqrt (2 * x) * charLen m false e / triArea m e → triArea m e * g ^ 2 ≤ 2 * s * x := fun g h => by
    have h1 := pow_le_pow_left₀ (abs_nonneg g) h 2
    rw [sq_abs, div_pow, mul_pow, Real.sq_sqrt (by positivity), le_div_iff₀ (by positivity)] at h1
    have h2 := mul_le_mul_of_nonneg_left (hs e he) (by positivity : 0 ≤ 2 * x)
    have h3 : triArea m e * (triArea m e * g ^ 2) ≤ triArea m e * (2 * s * x) := by linarith
    exact le_of_mul_le_mul_left h3 hA
  linarith [fin p g1, fin q g2]

/-- a weighted average is at most the weighted mean square -/
theorem mean_sq_le {α : Type} (L : List α) (A x : α → ℝ) (hA : ∀ t ∈ L, 0 ≤ A t) : (L.map fun t => A t * x t).sum ^ 2 ≤ (L.map A).sum * (L.map fun t => A t * x t ^ 2).sum := by
  induction L with
  | nil => simp
  | cons t L ih =>
    simp only [List.map_cons, List.sum_cons]
    have h1 := ih fun s hs => hA s (by simp [hs])
    have h2 := hA t (by simp)
    have h3 : 0 ≤ (L.map A).sum := List.sum_nonneg fun y hy => by
      obtain ⟨s, hs, rfl⟩ := List.mem_map.1 hy
      exact hA s (by simp [hs])
    have h4 : 0 ≤ (L.map fun t => A t * x t ^ 2).sum := List.sum_nonneg fun y hy => by
      obtain ⟨s, hs, rfl⟩ := List.mem_map.1 hy
      exact mul_nonneg (hA s (by simp [hs])) (sq_nonneg _)
    generalize (L.map fun t => A t * x t).sum = P at *
    generalize (L.map fun t => A t * x t ^ 2).sum = Q at *
    generalize (L.map A).sum = W at *
    rcases h3.eq_or_lt with h | h
    · have hP : P = 0 := by
        rw [← h, zero_mul] at h1
        exact pow_eq_zero_iff (n := 2) (by norm_num) |>.1 (le_antisymm h1 (sq_nonneg _))
      rw [hP, ← h]
      have := mul_nonneg h2 h4
      nlinarith
    · have key : 2 * x t * P ≤ W * x t ^ 2 + Q := by
        have h5 : 0 ≤ W * (W * x t ^ 2 + Q - 2 * x t * P) := by nlinarith [sq_nonneg (W * x t - P)]
        have := nonneg_of_mul_nonneg_right h5 h
        linarith
      have := mul_le_mul_of_nonneg_left key h2
      nlinarith

include w hp hg in
theorem eps_most {k : Key} (hk : k ∈ m.ekeys) (v : ℕ → ℝ) : |sarea m (dom m k)| * ∑ p, eps m k v p ^ 2 ≤ ((m.edge k).trias.map fun t => triArea m t / 3 * ∑ p, triEps m t v p ^ 2).sum := by
  rw [dom_area w hp hg hk]
  have hA : ∀ t ∈ (m.edge k).trias, 0 < triArea m t := fun t ht => triArea_pos hg (edge_tria w hp hk ht).1
  have hW : 0 < ((m.edge k).trias.map (triArea m)).sum := List.sum_pos _ (fun y hy => by
    obtain ⟨t, ht, rfl⟩ := List.mem_map.1 hy
    exact hA t ht) (by simpa using trias_ne w hp hk)
  have one : ∀ p, ((m.edge k).trias.map (triArea m)).sum * eps m k v p ^ 2 ≤ ((m.edge k).trias.map fun t => triArea m t * triEps m t v p ^ 2).sum := fun p => by
    have h1 := mean_sq_le (m.edge k).trias (triArea m) (fun t => triEps m t v p) fun t ht => (hA t ht).le
    rw [← eps_avg w hp hg hk v p] at h1
    refine le_of_mul_le_mul_left ?_ hW
    linarith
  rw [div_mul_eq_mul_div, div_le_iff₀ (by norm_num), mul_sum]
  refine (sum_le_sum fun p _ => one p).trans (le_of_eq ?_)
  rw [← List.sum_map_mul_right]
  generalize (m.edge k).trias = L
  induction L with
  | nil => simp
  | cons t L ih => simp only [List.map_cons, List.sum_cons, sum_add_distrib, ih, mul_sum, sum_mul]; congr 1; refine sum_congr rfl fun _ _ => by ring

include w hp hg in
theorem strain_most {pn : Bool} (hh : HasProps m pn) {c : ℝ} (hc : 0 ≤ c) (hl : ∀ l, InUse m pn l → AtMost c l) (v : ℕ → ℝ) : energy m pn v v ≤ c * strainSize m v := by
  have h1 : energy m pn v v ≤ c * (m.ekeys.map fun k => |sarea m (dom m k)| * ∑ p, eps m k v p ^ 2).sum := by
    unfold energy
    rw [← List.sum_map_mul_left]
    refine List.sum_le_sum fun k hk => ?_
    have : ∑ p, ∑ q, eps m k v p * avg m pn k (fun l => abd l p q) * eps m k v q ≤ c * ∑ p, eps m k v p ^ 2 := by
      obtain ⟨L, h1, h2, h3⟩ := avg_weights w hp hg pn hk
      simp only [h3]
      rw [quad_avg L abd]
      have : c * ∑ p, eps m k v p ^ 2 = (L.map fun z => z.1 * (c * ∑ p, eps m k v p ^ 2)).sum := by rw [List.sum_map_mul_right, h2, one_mul]
      rw [this]
      refine List.sum_le_sum fun z hz => mul_le_mul_of_nonneg_left ?_ (h1 z hz).1
      obtain ⟨l, e⟩ := slot_some hh (h1 z hz).2
      have hs := (h1 z hz).2
      rw [e] at hs ⊢
      exact hl l (slot_inUse w hp hs) _
    have := mul_le_mul_of_nonneg_left this (abs_nonneg (sarea m (dom m k)))
    linarith
  refine h1.trans (mul_le_mul_of_nonneg_left ?_ hc)
  refine (List.sum_le_sum fun k hk => eps_most w hp hg hk v).trans (le_of_eq ?_)
  have := sum_sideTrias2 m.tria (fun e _ => triArea m e / 3 * ∑ p, triEps m e v p ^ 2) w.ekeys_nodup (es := m.eids) (fun e he k hk => (w.mem_ekeys k).2 ⟨e, he, hk⟩)
  have e3 : strainSize m v = (m.eids.map fun e => ((m.tria e).edgeIds.map fun _ => triArea m e / 3 * ∑ p, triEps m e v p ^ 2).sum).sum := by
    unfold strainSize
    congr 1
    exact List.map_congr_left fun e _ => (three_same e _).symm
  rw [e3, ← this]
  congr 1
  exact List.map_congr_left fun k hk => by rw [w.etrias k hk]

/-- squared values at the corners of a triangle -/
noncomputable def triSq (m : Mesh) (v : ℕ → ℝ) (e : ℕ) : ℝ := nodeSq m v (m.tria e).n1 + nodeSq m v (m.tria e).n2 + nodeSq m v (m.tria e).n3

theorem triSq_eq (v : ℕ → ℝ) (e : ℕ) : triSq m v e = ∑ r ∈ range 5, (disp m v r (m.tria e).n1 ^ 2 + disp m v r (m.tria e).n2 ^ 2 + disp m v r (m.tria e).n3 ^ 2) := by
  unfold triSq nodeSq; simp only [sum_add_distrib]

include w hp hg in
theorem grad_parts {e : ℕ} (he : e ∈ m.eids) {s : ℝ} (hs : Shape m s) (v : ℕ → ℝ) :
    ∑ r ∈ range 5, triArea m e * (gradX m (tpoly m e) (disp m v r) ^ 2 + gradY m (tpoly m e) (disp m v r) ^ 2) ≤ 4 * s * triSq m v e := by
  rw [triSq_eq, mul_sum]
  exact sum_le_sum fun r _ => grad_most w hp hg he hs _

include w hp hg in
theorem strain_corners {e : ℕ} (he : e ∈ m.eids) {s : ℝ} (hs : Shape m s) (v : ℕ → ℝ) : triArea m e * ∑ p, triEps m e v p ^ 2 ≤ 8 * s * triSq m v e := by
  have h := grad_parts w hp hg he hs v
  have hA : 0 ≤ triArea m e := abs_nonneg _
  have : ∑ p, triEps m e v p ^ 2 ≤ 2 * ∑ r ∈ range 5, (gradX m (tpoly m e) (disp m v r) ^ 2 + gradY m (tpoly m e) (disp m v r) ^ 2) := by
    rw [sumsq6]
    simp only [triEps, sum_range_succ, sum_range_zero, Matrix.cons_val]
    generalize gradX m (tpoly m e) (disp m v 0) = a0
    generalize gradX m (tpoly m e) (disp m v 1) = a1
    generalize gradX m (tpoly m e) (disp m v 2) = a2
    generalize gradX m (tpoly m e) (disp m v 3) = a3
    generalize gradX m (tpoly m e) (disp m v 4) = a4
    generalize gradY m (tpoly m e) (disp m v 0) = b0
    generalize gradY m (tpoly m e) (disp m v 1) = b1
    generalize gradY m (tpoly m e) (disp m v 2) = b2
    generalize gradY m (tpoly m e) (disp m v 3) = b3
    generalize gradY m (tpoly m e) (disp m v 4) = b4
    nlinarith [sq_nonneg (b0 - a1), sq_nonneg (b3 - a4), sq_nonneg a0, sq_nonneg b1, sq_nonneg a2, sq_nonneg b2, sq_nonneg a3, sq_nonneg b4]
  have h2 := mul_le_mul_of_nonneg_left this hA
  rw [← mul_sum] at h
  linarith

set_option maxHeartbeats 1000000 in
include w hp hg in
theorem gamma_corners {e : ℕ} (he : e ∈ m.eids) {s h : ℝ} (hs : Shape m s) (hh : Size m h) (method : String) (v : ℕ → ℝ) :
    triArea m e * ∑ r, methodGamma m method e v r ^ 2 ≤ (16 * s + 4 * h ^ 2 + 24 * (3 * s * h + 1) ^ 2 * (4 * s + 3 * h ^ 2)) * triSq m v e := by
  have c1 : IsCorner m e (m.tria e).n1 := Or.inl rfl
  have t := fun r => method_test w hp hg he hs hh method v (pt_mem_hull c1) r
  have hs0 := shape_nonneg hg hs he
  have hh0 := size_nonneg hh he
  have hA : 0 ≤ triArea m e := abs_nonneg _
  have hA2 : triArea m e ≤ h ^ 2 := (area_le m e).trans (pow_le_pow_left₀ (charLen_nonneg m e) (hh e he) 2)
  have hlit : (if method = "cell-based" then sixthErr else 0) ≤ 1 := (litErr_nonneg method).2
  have hlit0 : 0 ≤ (if method = "cell-based" then sixthErr else 0) := (litErr_nonneg method).1
  set D := 3 * s * h + (if method = "cell-based" then sixthErr else 0) with hD
  have hD0 : 0 ≤ D := by positivity
  have hD1 : D ^ 2 ≤ (3 * s * h + 1) ^ 2 := pow_le_pow_left₀ hD0 (by linarith) 2
  set T := rotAbs m e v + rotSumAbs m e v with hT
  have hT0 : 0 ≤ T := add_nonneg (rotAbs_nonneg v) (rotSumAbs_nonneg v)
  set X := triSq m v e with hX
  have gp := grad_parts w hp hg he hs v
  have hXe := triSq_eq (m := m) v e
  simp only [sum_range_succ, sum_range_zero] at gp hXe
  rw [← hX] at gp hXe
  have nn := fun r i => sq_nonneg (disp m v r i)
  have hX0 : 0 ≤ X := by rw [hX, triSq_eq]; positivity
  have hT2 : T ^ 2 ≤ 6 * (gradX m (tpoly m e) (disp m v 3) ^ 2 + gradY m (tpoly m e) (disp m v 3) ^ 2 + (gradX m (tpoly m e) (disp m v 4) ^ 2 + gradY m (tpoly m e) (disp m v 4) ^ 2) +
      (rotSum m e v 0 ^ 2 + rotSum m e v 1 ^ 2)) := by
    rw [hT, rotAbs_eq]
    unfold rotSumAbs
    rw [Fin.sum_univ_two]
    have := sum_mul_sq_le_sq_mul_sq univ (fun _ : Fin 6 => (1:ℝ)) ![|gradX m (tpoly m e) (disp m v 3)|, |gradY m (tpoly m e) (disp m v 3)|, |gradX m (tpoly m e) (disp m v 4)|, |gradY m (tpoly m e) (disp m v 4)|, |rotSum m e v 0|, |rotSum m e v 1|]
    simp [Fin.sum_univ_succ] at this
    refine le_trans (le_of_eq ?_) (this.trans (le_of_eq ?_)) <;> ring
  have hR : rotSum m e v 0 ^ 2 + rotSum m e v 1 ^ 2 ≤ 3 * X := by
    have e0 : ∀ r : Fin 2, rotSum m e v r = disp m v (3 + r.val) (m.tria e).n1 + disp m v (3 + r.val) (m.tria e).n2 + disp m v (3 + r.val) (m.tria e).n3 := fun r => by
      unfold rotSum corners; simp; ring
    rw [e0, e0, hXe]
    simp only [Fin.val_zero, Fin.val_one, add_zero]
    have q : ∀ a b c : ℝ, (a + b + c) ^ 2 ≤ 3 * (a ^ 2 + b ^ 2 + c ^ 2) := fun a b c => by nlinarith [sq_nonneg (a - b), sq_nonneg (b - c), sq_nonneg (a - c)]
    have q3 := q (disp m v 3 (m.tria e).n1) (disp m v 3 (m.tria e).n2) (disp m v 3 (m.tria e).n3)
    have q4 := q (disp m v 4 (m.tria e).n1) (disp m v 4 (m.tria e).n2) (disp m v 4 (m.tria e).n3)
    linarith [nn 0 (m.tria e).n1, nn 0 (m.tria e).n2, nn 0 (m.tria e).n3, nn 1 (m.tria e).n1, nn 1 (m.tria e).n2, nn 1 (m.tria e).n3, nn 2 (m.tria e).n1, nn 2 (m.tria e).n2, nn 2 (m.tria e).n3]
  have hAT : triArea m e * T ^ 2 ≤ 6 * (4 * s + 3 * h ^ 2) * X := by
    have a1 := mul_le_mul_of_nonneg_left hT2 hA
    have a2 := mul_le_mul hA2 hR (by positivity) (by positivity)
    have p0 : 0 ≤ triArea m e * (gradX m (tpoly m e) (disp m v 0) ^ 2 + gradY m (tpoly m e) (disp m v 0) ^ 2) := by positivity
    have p1 : 0 ≤ triArea m e * (gradX m (tpoly m e) (disp m v 1) ^ 2 + gradY m (tpoly m e) (disp m v 1) ^ 2) := by positivity
    have p2 : 0 ≤ triArea m e * (gradX m (tpoly m e) (disp m v 2) ^ 2 + gradY m (tpoly m e) (disp m v 2) ^ 2) := by positivity
    linarith
  have hL : ∀ r, linShear m e v (pt m (m.tria e).n1) r = (if r = 0 then gradX m (tpoly m e) (disp m v 2) else gradY m (tpoly m e) (disp m v 2)) + disp m v (3 + r.val) (m.tria e).n1 := fun r => by
    fin_cases r <;> simp [linShear, lin_corner w hp hg he _ c1]
  have one : ∀ r, methodGamma m method e v r ^ 2 ≤ 4 * (if r = 0 then gradX m (tpoly m e) (disp m v 2) else gradY m (tpoly m e) (disp m v 2)) ^ 2 + 4 * disp m v (3 + r.val) (m.tria e).n1 ^ 2 + 2 * (D ^ 2 * T ^ 2) := fun r => by
    have h1 := pow_le_pow_left₀ (abs_nonneg _) (t r) 2
    rw [sq_abs, mul_pow, hL r] at h1
    generalize (if r = 0 then gradX m (tpoly m e) (disp m v 2) else gradY m (tpoly m e) (disp m v 2)) = a at *
    generalize disp m v (3 + r.val) (m.tria e).n1 = b at *
    generalize methodGamma m method e v r = c at *
    nlinarith [sq_nonneg (c - 2 * (a + b)), sq_nonneg (a - b)]
  have o0 := one 0
  have o1 := one 1
  simp only [Fin.val_zero, Fin.val_one, add_zero, if_true, one_ne_zero, if_false] at o0 o1
  rw [Fin.sum_univ_two]
  have f1 := mul_le_mul_of_nonneg_left (add_le_add o0 o1) hA
  have f2 := mul_le_mul hD1 hAT (by positivity) (by positivity)
  have f3 : triArea m e * (disp m v 3 (m.tria e).n1 ^ 2 + disp m v 4 (m.tria e).n1 ^ 2) ≤ h ^ 2 * X := by
    refine mul_le_mul hA2 ?_ (by positivity) (by positivity)
    rw [hXe]
    have e3 := nn 3
    have e4 := nn 4
    linarith [nn 0 (m.tria e).n1, nn 0 (m.tria e).n2, nn 0 (m.tria e).n3, nn 1 (m.tria e).n1, nn 1 (m.tria e).n2, nn 1 (m.tria e).n3, nn 2 (m.tria e).n1, nn 2 (m.tria e).n2, nn 2 (m.tria e).n3, nn 3 (m.tria e).n1, nn 3 (m.tria e).n2, nn 3 (m.tria e).n3, nn 4 (m.tria e).n1, nn 4 (m.tria e).n2, nn 4 (m.tria e).n3]
  have p0 : 0 ≤ triArea m e * (gradX m (tpoly m e) (disp m v 0) ^ 2 + gradY m (tpoly m e) (disp m v 0) ^ 2) := by positivity
  have p1 : 0 ≤ triArea m e * (gradX m (tpoly m e) (disp m v 1) ^ 2 + gradY m (tpoly m e) (disp m v 1) ^ 2) := by positivity
  have p3 : 0 ≤ triArea m e * (gradX m (tpoly m e) (disp m v 3) ^ 2 + gradY m (tpoly m e) (disp m v 3) ^ 2) := by positivity
  have p4 : 0 ≤ triArea m e * (gradX m (tpoly m e) (disp m v 4) ^ 2 + gradY m (tpoly m e) (disp m v 4) ^ 2) := by positivity
  linarith

/-- upper bound of the shear energy -/
theorem shear_most {pn : Bool} {al b : ℝ} {fa : Bool} (hb : ∀ e ∈ m.eids, ∀ r, shearMod m pn al fa e r ≤ b) (method : String) (v : ℕ → ℝ) :
    shearEnergy m pn al fa (methodGamma m method) v v ≤ b * gammaSize m method v := by
  unfold gammaSize shearEnergy
  rw [← List.sum_map_mul_left]
  refine List.sum_le_sum fun e he => ?_
  have h0 := mul_le_mul_of_nonneg_right (hb e he 0) (sq_nonneg (methodGamma m method e v 0))
  have h1 := mul_le_mul_of_nonneg_right (hb e he 1) (sq_nonneg (methodGamma m method e v 1))
  have := mul_le_mul_of_nonneg_left (add_le_add h0 h1) (show 0 ≤ triArea m e from abs_nonneg _)
  rw [Fin.sum_univ_two]
  linarith
end

theorem atMost_of {l : Lam} {L : ℝ} (h : ∀ p q, |abd l p q| ≤ L) : AtMost (6 * L) l := fun x => by
  have : ∀ p q, x p * abd l p q * x q ≤ L / 2 * x p ^ 2 + L / 2 * x q ^ 2 := fun p q => by
    have h0 := h p q
    rw [abs_le] at h0
    nlinarith [mul_nonneg (by linarith [h0.1] : 0 ≤ L + abd l p q) (sq_nonneg (x p - x q)), mul_nonneg (by linarith [h0.2] : 0 ≤ L - abd l p q) (sq_nonneg (x p + x q))]
  refine (sum_le_sum fun p _ => sum_le_sum fun q _ => this p q).trans (le_of_eq ?_)
  simp only [sum_add_distrib, sum_const, card_univ, Fintype.card_fin, ← mul_sum, nsmul_eq_mul]
  push_cast; ring

theorem cavg_most {m : Mesh} (w : WF m) {pn : Bool} (hh : HasProps m pn) {e : ℕ} (he : e ∈ m.eids) {sel : Lam → ℝ} {g : ℝ} (hs : ∀ l, InUse m pn l → sel l ≤ g) : cavg m pn e sel ≤ g := by
  have := cavg_least w hh he (sel := fun l => -sel l) (g := -g) fun l hl => by linarith [hs l hl]
  have e0 : ∀ p, ofProp (fun l => -sel l) p = -ofProp sel p := fun p => by cases p <;> simp [ofProp]
  have e1 : cavg m pn e (fun l => -sel l) = -cavg m pn e sel := by
    unfold cavg
    split_ifs
    · rw [mean_corners', mean_corners']; simp only [e0]; ring
    · exact e0 _
  linarith

end Meshless
