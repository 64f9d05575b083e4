import Verif.Props.Workflow
import Verif.Lemmas.Tiles

/-! Examples of refined meshes: the unit square cut into `k * k` squares of two triangles each. -/

set_option autoImplicit false

namespace Meshless
open Spec Finset MeasureTheory Filter

section
variable {pts : List Pt} {P : ℕ → ℝ × ℝ} {z : ℕ → ℝ} {tris : List (ℕ × ℕ × ℕ)}

/-- a mesh made from a list of points and triangles, its properties assigned -/
theorem input_plate_z (h : InputTriangulation pts.length P z tris) (hP : ∀ i (hi : i < pts.length), givenXYZ pts[i] = ((P i).1, (P i).2, z i))
    (hc : InputOnePiece pts.length tris) (pn : Bool) (lam : ℕ → Lam) (hl : ∀ i, StiffABD (lam i) ∧ StiffShear (lam i)) :
    ∃ m, Reachable m ∧ GoodPlate m pn ∧ m.nids = List.range' 1 pts.length ∧ m.eids = List.range' 1 tris.length ∧ (∀ i < pts.length, pt m (i + 1) = P i) ∧
      (∀ j (hj : j < tris.length), (m.tria (j + 1)).n1 = tris[j].1 + 1 ∧ (m.tria (j + 1)).n2 = tris[j].2.1 + 1 ∧ (m.tria (j + 1)).n3 = tris[j].2.2 + 1) ∧
      (pn = true → ∀ i < pts.length, (m.node (i + 1)).prop = some (lam i)) ∧ (pn = false → ∀ e < tris.length, (m.tria (e + 1)).prop = some (lam e)) ∧
      ∀ i < pts.length, (m.node (i + 1)).xyz.z = z i := by
  obtain ⟨m, hm⟩ := C08_accepted pts tris h.range
  have w := wf_readDelaunay hm
  set ops := assign pn lam pts.length tris.length with hops
  have hr : Reachable (run m ops) := .delaunay _ _ _ hm ops
  obtain ⟨hg, he⟩ := sameGeo_run ops w (assign_noMove _ _ _ _)
  have ht := hg.triangulation he (h.mesh hP hm)
  have hn : (run m ops).nids = List.range' 1 pts.length := by rw [hg.nids, nids_of_input hm]
  have hei : (run m ops).eids = List.range' 1 tris.length := by rw [he, eids_of_input hm]; simp [toInts]
  have hnode : pn = true → ∀ i < pts.length, ((run m ops).node (i + 1)).prop = some (lam i) := by
    intro hpn i hi
    rw [hops, assign, if_pos hpn]
    have hin : ∀ i < pts.length, i + 1 ∈ m.nids := fun i hi => by rw [nids_of_input hm, List.mem_range'_1]; omega
    exact setNodes_spec lam _ m (fun i hi => hin i (List.mem_range.1 hi)) i (hin i hi) ⟨i, rfl, Or.inl (List.mem_range.2 hi)⟩
  have htria : pn = false → ∀ e < tris.length, ((run m ops).tria (e + 1)).prop = some (lam e) := by
    intro hpn e hi
    rw [hops, assign, if_neg (by simp [hpn])]
    exact setTrias_spec lam _ m (fun i hi => (mem_eids_input hm _).2 ⟨i, List.mem_range.1 hi, rfl⟩) e (Or.inl (List.mem_range.2 hi))
  have hp := ht.proper hr.wf
  have huse : ∀ l, InUse (run m ops) pn l → ∃ i, l = lam i := by
    intro l hu
    unfold InUse at hu
    cases hpn : pn with
    | true =>
      rw [if_pos hpn] at hu
      obtain ⟨i, hi, hl⟩ := hu
      rw [hn, List.mem_range'_1] at hi
      have := hnode hpn (i - 1) (by omega)
      rw [show i - 1 + 1 = i by omega, hl] at this
      exact ⟨i - 1, Option.some.inj this⟩
    | false =>
      rw [if_neg (by simp [hpn])] at hu
      obtain ⟨e, h1, hl⟩ := hu
      rw [hei, List.mem_range'_1] at h1
      have := htria hpn (e - 1) (by omega)
      rw [show e - 1 + 1 = e by omega, hl] at this
      exact ⟨e - 1, Option.some.inj this⟩
  refine ⟨run m ops, hr, ⟨hp, ht.planar hr.wf, input_onePiece h hc hm hg he hr.wf,
    fun l hu => by obtain ⟨i, rfl⟩ := huse l hu; exact (hl i).1, fun l hu => by obtain ⟨i, rfl⟩ := huse l hu; exact (hl i).2⟩, hn, hei, ?_, ?_, hnode, htria, ?_⟩
  · intro i hi
    rw [← (input_place hP h.valid hm i hi).1]
    simp only [pt, nodeAt, nx, ny, hg.xyz]
  · intro j hj
    obtain ⟨c1, c2, c3⟩ := hg.corner (j + 1)
    rw [c1, c2, c3]
    exact tria_of_input h.valid hm j hj
  · intro i hi
    rw [hg.xyz]
    exact (input_place hP h.valid hm i hi).2.1

theorem input_plate (h : InputTriangulation pts.length P z tris) (hP : ∀ i (hi : i < pts.length), givenXYZ pts[i] = ((P i).1, (P i).2, z i))
    (hc : InputOnePiece pts.length tris) (pn : Bool) (lam : ℕ → Lam) (hl : ∀ i, StiffABD (lam i) ∧ StiffShear (lam i)) :
    ∃ m, Reachable m ∧ GoodPlate m pn ∧ m.nids = List.range' 1 pts.length ∧ m.eids = List.range' 1 tris.length ∧ (∀ i < pts.length, pt m (i + 1) = P i) ∧
      (∀ j (hj : j < tris.length), (m.tria (j + 1)).n1 = tris[j].1 + 1 ∧ (m.tria (j + 1)).n2 = tris[j].2.1 + 1 ∧ (m.tria (j + 1)).n3 = tris[j].2.2 + 1) ∧
      (pn = true → ∀ i < pts.length, (m.node (i + 1)).prop = some (lam i)) ∧ (pn = false → ∀ e < tris.length, (m.tria (e + 1)).prop = some (lam e)) := by
  obtain ⟨m, h1, h2, h3, h4, h5, h6, h7, h8, _⟩ := input_plate_z h hP hc pn lam hl
  exact ⟨m, h1, h2, h3, h4, h5, h6, h7, h8⟩

end

/-! ### the grid -/

/-- the place of point `p` -/
noncomputable def gridAt (k p : ℕ) : ℝ × ℝ := (((p / (k + 1) : ℕ) : ℝ) / k, ((p % (k + 1) : ℕ) : ℝ) / k)

noncomputable def gridPts (k : ℕ) : List Pt := (List.range ((k + 1) * (k + 1))).map fun p => .d2 (gridAt k p).1 (gridAt k p).2

/-- the triangles of square `(i, j)` -/
def gridCell (k i j : ℕ) (s : Bool) : ℕ × ℕ × ℕ :=
  if s then (i * (k + 1) + j, (i + 1) * (k + 1) + (j + 1), i * (k + 1) + (j + 1)) else (i * (k + 1) + j, (i + 1) * (k + 1) + j, (i + 1) * (k + 1) + (j + 1))

def gridTri (k t : ℕ) : ℕ × ℕ × ℕ := gridCell k (t / 2 / k) (t / 2 % k) (t % 2 = 1)

def gridTris (k : ℕ) : List (ℕ × ℕ × ℕ) := (List.range (2 * (k * k))).map (gridTri k)

theorem gridAt_eq {k i j : ℕ} (hj : j ≤ k) : gridAt k (i * (k + 1) + j) = ((i : ℝ) / k, (j : ℝ) / k) := by
  unfold gridAt
  rw [show i * (k + 1) + j = j + (k + 1) * i by ring, Nat.add_mul_div_left _ _ (by omega), Nat.add_mul_mod_self_left, Nat.div_eq_of_lt (by omega), Nat.mod_eq_of_lt (by omega), zero_add]

theorem gridTri_cell {k t : ℕ} (ht : t < 2 * (k * k)) : ∃ i < k, ∃ j < k, ∃ s, gridTri k t = gridCell k i j s ∧ t = 2 * (i * k + j) + (if s then 1 else 0) := by
  have hk : 0 < k := by rcases Nat.eq_zero_or_pos k with rfl | h; · simp at ht
                        · exact h
  refine ⟨t / 2 / k, ?_, t / 2 % k, Nat.mod_lt _ hk, decide (t % 2 = 1), rfl, ?_⟩
  · rw [Nat.div_lt_iff_lt_mul hk]; omega
  · rw [Nat.div_add_mod' (t / 2) k]
    by_cases h : t % 2 = 1 <;> simp [h] <;> omega

theorem cell_gridTri {k i j : ℕ} (hi : i < k) (hj : j < k) (s : Bool) : gridCell k i j s ∈ gridTris k := by
  have hk : 0 < k := by omega
  have h1 : (i + 1) * k ≤ k * k := Nat.mul_le_mul_right _ hi
  refine List.mem_map.2 ⟨2 * (i * k + j) + (if s then 1 else 0), List.mem_range.2 (by split <;> nlinarith), ?_⟩
  have h2 : (2 * (i * k + j) + (if s then 1 else 0)) / 2 = j + k * i := by rw [Nat.mul_comm i k]; split <;> omega
  have h3 : (2 * (i * k + j) + (if s then 1 else 0)) % 2 = if s then 1 else 0 := by split <;> omega
  unfold gridTri
  rw [h2, h3, Nat.add_mul_div_left _ _ hk, Nat.add_mul_mod_self_left, Nat.div_eq_of_lt hj, Nat.mod_eq_of_lt hj, zero_add]
  cases s <;> simp

theorem gridTris_cell {k : ℕ} {t : ℕ × ℕ × ℕ} (ht : t ∈ gridTris k) : ∃ i < k, ∃ j < k, ∃ s, t = gridCell k i j s := by
  obtain ⟨n, hn, rfl⟩ := List.mem_map.1 ht
  obtain ⟨i, hi, j, hj, s, h, _⟩ := gridTri_cell (List.mem_range.1 hn)
  exact ⟨i, hi, j, hj, s, h⟩

/-- where a point in the inside of a triangle lies -/
theorem gridCell_inside {k i j : ℕ} (hj : j < k) {s : Bool} {x : ℝ × ℝ}
    (hx : x ∈ openTri (gridAt k (gridCell k i j s).1) (gridAt k (gridCell k i j s).2.1) (gridAt k (gridCell k i j s).2.2)) :
    i < k * x.1 ∧ k * x.1 < i + 1 ∧ j < k * x.2 ∧ k * x.2 < j + 1 ∧ (if s then k * x.1 - i < k * x.2 - j else k * x.2 - j < k * x.1 - i) := by
  have hk : (0 : ℝ) < k := by have : 0 < k := by omega
                              exact_mod_cast this
  obtain ⟨α, β, γ, ha, hb, hc, hs, rfl⟩ := hx
  have hα : α = 1 - β - γ := by linarith
  cases s <;> simp only [gridCell, if_true, if_false, Bool.false_eq_true, gridAt_eq hj.le, gridAt_eq (show j + 1 ≤ k from hj)] <;> push_cast
  · rw [show (k : ℝ) * (α * (i / k) + β * ((i + 1) / k) + γ * ((i + 1) / k)) = i + (β + γ) by subst hα; field_simp; ring,
      show (k : ℝ) * (α * (j / k) + β * (j / k) + γ * ((j + 1) / k)) = j + γ by subst hα; field_simp; ring]
    refine ⟨?_, ?_, ?_, ?_, ?_⟩ <;> linarith
  · rw [show (k : ℝ) * (α * (i / k) + β * ((i + 1) / k) + γ * (i / k)) = i + β by subst hα; field_simp; ring,
      show (k : ℝ) * (α * (j / k) + β * ((j + 1) / k) + γ * ((j + 1) / k)) = j + (β + γ) by subst hα; field_simp; ring]
    refine ⟨?_, ?_, ?_, ?_, ?_⟩ <;> linarith

theorem node_lt {k i j : ℕ} (hi : i ≤ k) (hj : j ≤ k) : i * (k + 1) + j < (k + 1) * (k + 1) := by nlinarith

theorem grid_input {k : ℕ} : InputTriangulation ((k + 1) * (k + 1)) (gridAt k) (fun _ => 0) (gridTris k) := by
  refine ⟨?_, fun _ _ _ _ => rfl, ?_, ?_⟩
  · intro t ht
    obtain ⟨i, hi, j, hj, s, rfl⟩ := gridTris_cell ht
    cases s <;> exact ⟨node_lt (by omega) (by omega), node_lt (by omega) (by omega), node_lt (by omega) (by omega)⟩
  · intro t ht
    obtain ⟨i, hi, j, hj, s, rfl⟩ := gridTris_cell ht
    have hk : (0 : ℝ) < k := by have : 0 < k := by omega
                                exact_mod_cast this
    cases s <;> simp only [OnLine, gridCell, if_true, if_false, Bool.false_eq_true, gridAt_eq hj.le, gridAt_eq (show j + 1 ≤ k from hj)] <;> push_cast <;> intro h <;>
      field_simp at h <;> nlinarith
  · rw [gridTris, List.pairwise_map]
    refine List.Pairwise.imp_of_mem ?_ List.pairwise_lt_range
    intro t t' ht ht' hlt
    obtain ⟨i, hi, j, hj, s, e, rfl⟩ := gridTri_cell (List.mem_range.1 ht)
    obtain ⟨i', hi', j', hj', s', e', rfl⟩ := gridTri_cell (List.mem_range.1 ht')
    rw [e, e', Set.disjoint_left]
    intro x hx hx'
    obtain ⟨a1, a2, a3, a4, a5⟩ := gridCell_inside hj hx
    obtain ⟨b1, b2, b3, b4, b5⟩ := gridCell_inside hj' hx'
    have c1 : (i : ℝ) < i' + 1 := by linarith
    have c2 : (i' : ℝ) < i + 1 := by linarith
    have c3 : (j : ℝ) < j' + 1 := by linarith
    have c4 : (j' : ℝ) < j + 1 := by linarith
    norm_cast at c1 c2 c3 c4
    obtain rfl : i = i' := by omega
    obtain rfl : j = j' := by omega
    cases s <;> cases s' <;> simp at a5 b5 hlt <;> linarith

theorem grid_piece {k : ℕ} (hk : 0 < k) : InputOnePiece ((k + 1) * (k + 1)) (gridTris k) := by
  constructor
  · have sym : ∀ s s', (s ∈ gridTris k ∧ s' ∈ gridTris k ∧ ShareSide s s') → (s' ∈ gridTris k ∧ s ∈ gridTris k ∧ ShareSide s' s) := by
      rintro s s' ⟨h1, h2, a, b, h3, h4, h5, h6, h7⟩
      exact ⟨h2, h1, a, b, h3, h6, h7, h4, h5⟩
    have same : ∀ i < k, ∀ j < k, ∀ s s', Relation.ReflTransGen (fun s s' => s ∈ gridTris k ∧ s' ∈ gridTris k ∧ ShareSide s s') (gridCell k i j s) (gridCell k i j s') := by
      intro i hi j hj s s'
      by_cases hs : s = s'
      · rw [hs]
      · refine .single ⟨cell_gridTri hi hj s, cell_gridTri hi hj s', i * (k + 1) + j, (i + 1) * (k + 1) + (j + 1), ?_, ?_⟩
        · rw [Nat.add_mul]; omega
        · cases s <;> cases s' <;> simp [gridCell, InTri]
    have right : ∀ i < k, ∀ j, j + 1 < k → Relation.ReflTransGen (fun s s' => s ∈ gridTris k ∧ s' ∈ gridTris k ∧ ShareSide s s') (gridCell k i (j + 1) false) (gridCell k i j true) := by
      intro i hi j hj
      refine .single ⟨cell_gridTri hi hj _, cell_gridTri hi (by omega) _, i * (k + 1) + (j + 1), (i + 1) * (k + 1) + (j + 1), ?_, ?_⟩
      · rw [Nat.add_mul]; omega
      · simp [gridCell, InTri]
    have up : ∀ i, i + 1 < k → ∀ j < k, Relation.ReflTransGen (fun s s' => s ∈ gridTris k ∧ s' ∈ gridTris k ∧ ShareSide s s') (gridCell k (i + 1) j true) (gridCell k i j false) := by
      intro i hi j hj
      refine .single ⟨cell_gridTri hi hj _, cell_gridTri (by omega) hj _, (i + 1) * (k + 1) + j, (i + 1) * (k + 1) + (j + 1), by omega, ?_⟩
      simp [gridCell, InTri]
    have row : ∀ i < k, ∀ j < k, ∀ s, Relation.ReflTransGen (fun s s' => s ∈ gridTris k ∧ s' ∈ gridTris k ∧ ShareSide s s') (gridCell k i j s) (gridCell k i 0 true) := by
      intro i hi j
      induction j with
      | zero => intro hj s; exact same i hi 0 hj s true
      | succ j ih => intro hj s; exact (same i hi _ hj s false).trans ((right i hi j hj).trans (ih (by omega) true))
    have col : ∀ i < k, Relation.ReflTransGen (fun s s' => s ∈ gridTris k ∧ s' ∈ gridTris k ∧ ShareSide s s') (gridCell k i 0 true) (gridCell k 0 0 true) := by
      intro i
      induction i with
      | zero => intro _; exact .refl
      | succ i ih => intro hi; exact (up i hi 0 hk).trans ((same i (by omega) 0 hk false true).trans (ih (by omega)))
    have all : ∀ t ∈ gridTris k, Relation.ReflTransGen (fun s s' => s ∈ gridTris k ∧ s' ∈ gridTris k ∧ ShareSide s s') t (gridCell k 0 0 true) := by
      intro t ht
      obtain ⟨i, hi, j, hj, s, rfl⟩ := gridTris_cell ht
      exact (row i hi j hj s).trans (col i hi)
    intro t ht t' ht'
    refine (all t ht).trans ?_
    have : Std.Symm (fun s s' => s ∈ gridTris k ∧ s' ∈ gridTris k ∧ ShareSide s s') := ⟨fun _ _ h => sym _ _ h⟩
    exact symm_of (Relation.ReflTransGen fun s s' => s ∈ gridTris k ∧ s' ∈ gridTris k ∧ ShareSide s s') (all t' ht')
  · intro p hp
    have hd : p = p / (k + 1) * (k + 1) + p % (k + 1) := (Nat.div_add_mod' p (k + 1)).symm
    have hi : p / (k + 1) ≤ k := Nat.lt_succ_iff.1 ((Nat.div_lt_iff_lt_mul (by omega)).2 hp)
    have hj : p % (k + 1) ≤ k := Nat.lt_succ_iff.1 (Nat.mod_lt _ (by omega))
    generalize p / (k + 1) = i at *
    generalize p % (k + 1) = j at *
    subst hd
    rcases lt_or_eq_of_le hi with hi | rfl <;> rcases lt_or_eq_of_le hj with hj | rfl
    · exact ⟨_, cell_gridTri hi hj false, by simp [gridCell, InTri]⟩
    · obtain ⟨n, rfl⟩ : ∃ n, j = n + 1 := ⟨j - 1, by omega⟩
      exact ⟨_, cell_gridTri hi (Nat.lt_succ_self n) true, by simp [gridCell, InTri]⟩
    · obtain ⟨n, rfl⟩ : ∃ n, i = n + 1 := ⟨i - 1, by omega⟩
      exact ⟨_, cell_gridTri (Nat.lt_succ_self n) hj false, by simp [gridCell, InTri]⟩
    · obtain ⟨n, hn⟩ : ∃ n, j = n + 1 := ⟨j - 1, by omega⟩
      subst hn
      exact ⟨_, cell_gridTri (Nat.lt_succ_self n) (Nat.lt_succ_self n) false, by simp [gridCell, InTri]⟩


/-! ### its meshes -/

theorem mem_tri {p q r x : ℝ × ℝ} {a b c : ℝ} (ha : 0 ≤ a) (hb : 0 ≤ b) (hc : 0 ≤ c) (h : a + b + c = 1) (hx : x = a • p + b • q + c • r) : x ∈ convexHull ℝ {p, q, r} := by
  rw [hx]
  have hs := convex_convexHull ℝ ({p, q, r} : Set (ℝ × ℝ))
  have m := fun y (hy : y ∈ ({p, q, r} : Set (ℝ × ℝ))) => subset_convexHull ℝ _ hy
  have := hs.sum_mem (t := Finset.univ) (w := ![a, b, c]) (z := ![p, q, r]) (fun i _ => by fin_cases i <;> assumption) (by simp [Fin.sum_univ_three, h])
    (fun i _ => by fin_cases i <;> apply m <;> simp)
  simpa [Fin.sum_univ_three] using this

/-- the unit square -/
def unitSquare : Set (ℝ × ℝ) := Set.Icc 0 1 ×ˢ Set.Icc 0 1

theorem unitSquare_volume : volume.real unitSquare = 1 := by
  unfold unitSquare Measure.real
  rw [Measure.volume_eq_prod, Measure.prod_prod, Real.volume_Icc]
  simp

theorem mem_unitSquare {x : ℝ × ℝ} : x ∈ unitSquare ↔ (0 ≤ x.1 ∧ 0 ≤ x.2) ∧ x.1 ≤ 1 ∧ x.2 ≤ 1 := by
  simp only [unitSquare, Set.mem_prod, Set.mem_Icc]; tauto

theorem cell_of {k : ℕ} (hk : 0 < k) {x : ℝ} (h0 : 0 ≤ x) (h1 : x ≤ 1) : ∃ i < k, (i : ℝ) ≤ k * x ∧ k * x ≤ i + 1 := by
  have hk' : (0 : ℝ) < k := by exact_mod_cast hk
  by_cases h : ⌊k * x⌋₊ < k
  · exact ⟨_, h, Nat.floor_le (by positivity), (Nat.lt_floor_add_one _).le⟩
  · refine ⟨k - 1, by omega, ?_, ?_⟩
    · have : (k : ℝ) ≤ k * x := (Nat.le_floor_iff (by positivity)).1 (not_lt.1 h)
      push_cast [Nat.cast_sub hk]; linarith
    · push_cast [Nat.cast_sub hk]; nlinarith

/-- A mesh of the grid: what the examples use of it -/
structure GridMesh (k : ℕ) (l : ℝ × ℝ → Lam) (pn : Bool) (m : Mesh) : Prop where
  reach : Reachable m
  good : GoodPlate m pn
  nids : m.nids = List.range' 1 ((k + 1) * (k + 1))
  place : ∀ i < (k + 1) * (k + 1), pt m (i + 1) = gridAt k i
  eids : m.eids = List.range' 1 (2 * (k * k))
  tria : ∀ t < 2 * (k * k), (m.tria (t + 1)).n1 = (gridTri k t).1 + 1 ∧ (m.tria (t + 1)).n2 = (gridTri k t).2.1 + 1 ∧ (m.tria (t + 1)).n3 = (gridTri k t).2.2 + 1
  lam : Assigned m pn fun _ => l

theorem gridMesh_flat {k : ℕ} (hk : 0 < k) {l : ℝ × ℝ → Lam} (hl : ∀ x, StiffABD (l x) ∧ StiffShear (l x)) (pn : Bool) :
    ∃ m, GridMesh k l pn m ∧ ∀ i ∈ m.nids, (m.node i).xyz.z = 0 := by
  have e1 : (gridPts k).length = (k + 1) * (k + 1) := by simp [gridPts]
  have e2 : (gridTris k).length = 2 * (k * k) := by simp [gridTris]
  obtain ⟨m, h1, h2, h3, h4, h5, h6, h7, h8, h9⟩ := input_plate_z (pts := gridPts k) (P := gridAt k) (z := fun _ => 0) (tris := gridTris k) (by rw [e1]; exact grid_input)
    (by intro i hi; simp [gridPts, givenXYZ]) (by rw [e1]; exact grid_piece hk) pn (fun i => if pn then l (gridAt k i) else l (gridAt k (gridTri k i).1)) (fun i => by split <;> exact hl _)
  rw [e1] at h3 h5 h7 h9
  rw [e2] at h4 h8
  have h6' : ∀ t < 2 * (k * k), (m.tria (t + 1)).n1 = (gridTri k t).1 + 1 ∧ (m.tria (t + 1)).n2 = (gridTri k t).2.1 + 1 ∧ (m.tria (t + 1)).n3 = (gridTri k t).2.2 + 1 := by
    intro t ht
    have := h6 t (by rw [e2]; exact ht)
    simpa [gridTris] using this
  refine ⟨m, ⟨h1, h2, h3, h5, h4, h6', ?_⟩, fun i hi => by
    rw [h3, List.mem_range'_1] at hi
    have := h9 (i - 1) (by omega)
    rwa [show i - 1 + 1 = i by omega] at this⟩
  unfold Assigned
  cases hpn : pn with
  | true =>
    rw [if_pos rfl]
    intro e he i hi
    have := corner_mem h1.wf h2.proper.distinct he hi
    rw [h3, List.mem_range'_1] at this
    have h := h7 hpn (i - 1) (by omega)
    have hp := h5 (i - 1) (by omega)
    rw [show i - 1 + 1 = i by omega] at h hp
    rw [h, hp, if_pos hpn]
  | false =>
    rw [if_neg (by simp)]
    intro e he
    rw [h4, List.mem_range'_1] at he
    have h := h8 hpn (e - 1) (by omega)
    obtain ⟨c1, _⟩ := h6' (e - 1) (by omega)
    obtain ⟨hlt, _⟩ := grid_input.range (gridTri k (e - 1)) (List.mem_map.2 ⟨e - 1, List.mem_range.2 (by omega), rfl⟩)
    have hp := h5 _ hlt
    rw [show e - 1 + 1 = e by omega] at h c1
    rw [← c1] at hp
    refine ⟨pt m (m.tria e).n1, subset_convexHull ℝ _ (by simp), ?_⟩
    rw [h, hp, if_neg (by simp [hpn])]

theorem gridMesh_exists {k : ℕ} (hk : 0 < k) {l : ℝ × ℝ → Lam} (hl : ∀ x, StiffABD (l x) ∧ StiffShear (l x)) (pn : Bool) : ∃ m, GridMesh k l pn m := by
  obtain ⟨m, h, _⟩ := gridMesh_flat hk hl pn
  exact ⟨m, h⟩

section
variable {k : ℕ} {l : ℝ × ℝ → Lam} {pn : Bool} {m : Mesh} (h : GridMesh k l pn m)
include h

/-- the corners of triangle `s` of square `(i, j)` -/
theorem GridMesh.cell {t i j : ℕ} {s : Bool} (hj : j < k) (ht : t < 2 * (k * k)) (e1 : gridTri k t = gridCell k i j s) : pt m (m.tria (t + 1)).n1 = ((i : ℝ) / k, (j : ℝ) / k) ∧
    pt m (m.tria (t + 1)).n2 = (((i + 1 : ℕ) : ℝ) / k, ((if s then j + 1 else j : ℕ) : ℝ) / k) ∧
      pt m (m.tria (t + 1)).n3 = (((if s then i else i + 1 : ℕ) : ℝ) / k, ((j + 1 : ℕ) : ℝ) / k) := by
  obtain ⟨c1, c2, c3⟩ := h.tria t ht
  obtain ⟨r1, r2, r3⟩ := grid_input.range (gridTri k t) (List.mem_map.2 ⟨t, List.mem_range.2 ht, rfl⟩)
  refine ⟨?_, ?_, ?_⟩
  · rw [c1, h.place _ r1, e1]
    cases s <;> exact gridAt_eq hj.le
  · rw [c2, h.place _ r2, e1]
    cases s <;> simp only [gridCell, if_true, if_false, Bool.false_eq_true]
    · exact gridAt_eq hj.le
    · exact gridAt_eq hj
  · rw [c3, h.place _ r3, e1]
    cases s <;> simp only [gridCell, if_true, if_false, Bool.false_eq_true] <;> exact gridAt_eq hj

theorem GridMesh.corners {e : ℕ} (he : e ∈ m.eids) : ∃ i < k, ∃ j < k, ∃ s : Bool, pt m (m.tria e).n1 = ((i : ℝ) / k, (j : ℝ) / k) ∧
    pt m (m.tria e).n2 = (((i + 1 : ℕ) : ℝ) / k, ((if s then j + 1 else j : ℕ) : ℝ) / k) ∧ pt m (m.tria e).n3 = (((if s then i else i + 1 : ℕ) : ℝ) / k, ((j + 1 : ℕ) : ℝ) / k) := by
  rw [h.eids, List.mem_range'_1] at he
  obtain ⟨i, hi, j, hj, s, e1, e2⟩ := gridTri_cell (show e - 1 < 2 * (k * k) by omega)
  have := h.cell hj (show e - 1 < 2 * (k * k) by omega) e1
  rw [show e - 1 + 1 = e by omega] at this
  exact ⟨i, hi, j, hj, s, this⟩

theorem GridMesh.area {e : ℕ} (he : e ∈ m.eids) : triArea m e = 1 / (2 * k ^ 2) := by
  obtain ⟨i, hi, j, hj, s, e1, e2, e3⟩ := h.corners he
  have hk : (0 : ℝ) < k := by have : 0 < k := by omega
                              exact_mod_cast this
  simp only [pt, Prod.mk.injEq] at e1 e2 e3
  have : sarea m [[(m.tria e).n1], [(m.tria e).n2], [(m.tria e).n3]] = 1 / (2 * k ^ 2) := by
    rw [sarea3]; simp only [mean_single]; rw [e1.1, e1.2, e2.1, e2.2, e3.1, e3.2]
    cases s <;> simp only [if_true, if_false, Bool.false_eq_true] <;> push_cast <;> field_simp <;> ring
  rw [triArea, this, abs_of_pos (by positivity)]

theorem GridMesh.len {e : ℕ} (he : e ∈ m.eids) : charLen m false e ≤ Real.sqrt 2 / k := by
  obtain ⟨i, hi, j, hj, s, e1, e2, e3⟩ := h.corners he
  have hk : (0 : ℝ) < k := by have : 0 < k := by omega
                              exact_mod_cast this
  simp only [pt, Prod.mk.injEq] at e1 e2 e3
  have hq : Real.sqrt 2 / k = Real.sqrt (2 / k ^ 2) := by rw [Real.sqrt_div (by norm_num), Real.sqrt_sq hk.le]
  unfold charLen dist2
  rw [if_neg (by simp), hq, e1.1, e1.2, e2.1, e2.2, e3.1, e3.2]
  refine max_le (max_le ?_ ?_) ?_ <;> refine Real.sqrt_le_sqrt ?_ <;> cases s <;> simp only [if_true, if_false, Bool.false_eq_true] <;> push_cast <;> field_simp <;> ring_nf <;> norm_num

theorem GridMesh.tiles (hk : 0 < k) : Tiles m unitSquare := by
  have hk' : (0 : ℝ) < k := by exact_mod_cast hk
  constructor
  · intro x
    constructor
    · intro hx
      obtain ⟨⟨h1, h2⟩, h3, h4⟩ := mem_unitSquare.1 hx
      obtain ⟨i, hi, a1, a2⟩ := cell_of hk h1 h3
      obtain ⟨j, hj, b1, b2⟩ := cell_of hk h2 h4
      have hm : ∀ s : Bool, ∃ e ∈ m.eids, pt m (m.tria e).n1 = ((i : ℝ) / k, (j : ℝ) / k) ∧
          pt m (m.tria e).n2 = (((i + 1 : ℕ) : ℝ) / k, ((if s then j + 1 else j : ℕ) : ℝ) / k) ∧ pt m (m.tria e).n3 = (((if s then i else i + 1 : ℕ) : ℝ) / k, ((j + 1 : ℕ) : ℝ) / k) := by
        intro s
        obtain ⟨t, ht, e⟩ := List.mem_map.1 (cell_gridTri hi hj s)
        exact ⟨t + 1, by rw [h.eids, List.mem_range'_1]; have := List.mem_range.1 ht; omega, h.cell hj (List.mem_range.1 ht) e⟩
      by_cases hs : k * x.1 - i < k * x.2 - j
      · obtain ⟨e, he, e1, e2, e3⟩ := hm true
        refine ⟨e, he, mem_tri (a := 1 - (k * x.2 - j)) (b := k * x.1 - i) (c := (k * x.2 - j) - (k * x.1 - i)) (by linarith) (by linarith) (by linarith) (by ring) ?_⟩
        rw [e1, e2, e3]
        ext <;> simp <;> field_simp <;> ring
      · obtain ⟨e, he, e1, e2, e3⟩ := hm false
        refine ⟨e, he, mem_tri (a := 1 - (k * x.1 - i)) (b := (k * x.1 - i) - (k * x.2 - j)) (c := k * x.2 - j) (by linarith) (by linarith) (by linarith) (by ring) ?_⟩
        rw [e1, e2, e3]
        ext <;> simp <;> field_simp <;> ring
    · rintro ⟨e, he, hx⟩
      obtain ⟨i, hi, j, hj, s, e1, e2, e3⟩ := h.corners he
      refine convexHull_min ?_ ((convex_Icc (0 : ℝ) 1).prod (convex_Icc (0 : ℝ) 1)) hx
      have hi' : (i : ℝ) + 1 ≤ k := by exact_mod_cast hi
      have hj' : (j : ℝ) + 1 ≤ k := by exact_mod_cast hj
      rintro y (rfl | rfl | rfl) <;> refine mem_unitSquare.2 ?_
      · rw [e1]; refine ⟨⟨by positivity, by positivity⟩, ?_, ?_⟩ <;> rw [div_le_one hk'] <;> linarith
      · rw [e2]; refine ⟨⟨by positivity, by positivity⟩, ?_, ?_⟩ <;> rw [div_le_one hk'] <;> cases s <;> simp <;> linarith
      · rw [e3]; refine ⟨⟨by positivity, by positivity⟩, ?_, ?_⟩ <;> rw [div_le_one hk'] <;> cases s <;> simp <;> linarith
  · rw [unitSquare_volume, totalArea, List.map_congr_left (fun e he => h.area he), List.map_const', List.sum_replicate, h.eids, List.length_range']
    simp; field_simp

end

/-! ### nodal values -/

/-- the nodal values of fields on the grid -/
noncomputable def gridVals (k : ℕ) (F : ℕ → ℝ × ℝ → ℝ) (p : ℕ) : ℝ := F (p % 5) (gridAt k (p / 5))

/-- the same as a list -/
noncomputable def gridList (k : ℕ) (F : ℕ → ℝ × ℝ → ℝ) : List ℝ := (List.range (5 * ((k + 1) * (k + 1)))).map (gridVals k F)

section
variable {k : ℕ} {l : ℝ × ℝ → Lam} {pn : Bool} {m : Mesh} (h : GridMesh k l pn m)
include h

theorem GridMesh.idx {i : ℕ} (hi : i < (k + 1) * (k + 1)) : m.nids.idxOf (i + 1) = i := by
  have : m.nids[i]'(by rw [h.nids, List.length_range']; exact hi) = i + 1 := by simp [h.nids, List.getElem_range', add_comm]
  rw [← this]
  exact h.reach.wf.nids_nodup.idxOf_getElem _ _

theorem GridMesh.count : m.nids.length = (k + 1) * (k + 1) := by rw [h.nids, List.length_range']

theorem GridMesh.nodal (F : ℕ → ℝ × ℝ → ℝ) : Nodal m F (gridVals k F) := by
  intro i hi r hr
  rw [h.nids, List.mem_range'_1] at hi
  obtain ⟨j, rfl⟩ : ∃ j, i = j + 1 := ⟨i - 1, by omega⟩
  have hj : j < (k + 1) * (k + 1) := by omega
  unfold disp gridVals
  rw [h.idx hj, h.place j hj, show (5 * j + r) % 5 = r by omega, show (5 * j + r) / 5 = j by omega]

theorem GridMesh.nodal_list (F : ℕ → ℝ × ℝ → ℝ) : Nodal m F (vec (gridList k F)) := by
  intro i hi r hr
  rw [← h.nodal F i hi r hr]
  rw [h.nids, List.mem_range'_1] at hi
  obtain ⟨j, rfl⟩ : ∃ j, i = j + 1 := ⟨i - 1, by omega⟩
  have hj : j < (k + 1) * (k + 1) := by omega
  unfold disp vec gridList
  rw [h.idx hj, List.getD_eq_getElem _ _ (by rw [List.length_map, List.length_range]; omega)]
  simp

theorem GridMesh.shape : Shape m 4 := by
  intro e he
  have hk : (0 : ℝ) < k := by
    obtain ⟨i, hi, _⟩ := h.corners he
    have : 0 < k := by omega
    exact_mod_cast this
  rw [h.area he]
  have h0 : 0 ≤ charLen m false e := by simp [charLen, dist2]
  have h1 := pow_le_pow_left₀ h0 (h.len he) 2
  rw [div_pow, Real.sq_sqrt (by norm_num)] at h1
  refine h1.trans (le_of_eq ?_)
  field_simp; norm_num

end

/-- finer and finer grids are refined meshes of the unit square -/
theorem grid_refined {l : ℝ × ℝ → Lam} {pn : Bool} {m : ℕ → Mesh} (h : ∀ n, GridMesh (n + 1) l pn (m n)) : Refined unitSquare l pn 4 m := by
  refine ⟨fun n => (h n).good.proper, fun n => (h n).good.planar, fun n => (h n).tiles (Nat.succ_pos n), fun n => (h n).shape, ⟨fun n => Real.sqrt 2 / ((n + 1 : ℕ) : ℝ), fun n e he => (h n).len he, ?_⟩, fun n => (h n).lam⟩
  exact (tendsto_const_nhds.div_atTop ((tendsto_natCast_atTop_atTop (R := ℝ)).comp (tendsto_add_atTop_nat 1)))

theorem gridList_length (k : ℕ) (F : ℕ → ℝ × ℝ → ℝ) : (gridList k F).length = 5 * ((k + 1) * (k + 1)) := by simp [gridList]

/-! ### fields and laminates on the square -/

/-- all displacements are the product of the coordinates -/
theorem bilinear_on : FieldOn unitSquare (fun _ x => x.1 * x.2) (fun _ x => x.2) (fun _ x => x.1) 1 1 := by
  refine ⟨fun _ _ x _ => ?_, fun _ _ x hx => ?_, fun _ _ x _ y _ => ?_⟩
  · have := (((hasFDerivAt_fst (𝕜 := ℝ) (p := x)).mul (hasFDerivAt_snd (𝕜 := ℝ) (p := x))).hasFDerivWithinAt (s := unitSquare))
    refine this.congr_fderiv ?_
    rw [add_comm]
  · obtain ⟨⟨h1, h2⟩, h3, h4⟩ := mem_unitSquare.1 hx
    rw [abs_of_nonneg h1, abs_of_nonneg h2, abs_of_nonneg (mul_nonneg h1 h2)]
    exact ⟨by nlinarith, h4, h3⟩
  · rw [one_mul, Prod.dist_eq, ← Real.dist_eq, ← Real.dist_eq]
    exact ⟨le_max_right _ _, le_max_left _ _⟩

/-- displacements proportional to `x` -/
theorem linear_on (a : ℕ → ℝ) {B M : ℝ} (hB : ∀ r < 5, |a r| ≤ B) (hM : 0 ≤ M) :
    FieldOn unitSquare (fun r x => a r * x.1) (fun r _ => a r) (fun _ _ => 0) B M := by
  have hB0 : 0 ≤ B := (abs_nonneg _).trans (hB 0 (by norm_num))
  refine ⟨fun r _ x _ => ?_, fun r hr x hx => ?_, fun _ _ x _ y _ => ?_⟩
  · have := ((hasFDerivAt_fst (𝕜 := ℝ) (p := x)).const_mul (a r)).hasFDerivWithinAt (s := unitSquare)
    refine this.congr_fderiv ?_
    simp
  · obtain ⟨⟨h1, h2⟩, h3, h4⟩ := mem_unitSquare.1 hx
    refine ⟨?_, hB r hr, by simpa using hB0⟩
    rw [abs_mul, abs_of_nonneg h1]
    nlinarith [hB r hr, abs_nonneg (a r)]
  · simpa using mul_nonneg hM dist_nonneg

theorem exLam_abd (a d s t : ℝ) (p q : Fin 6) : abd (exLam a d s t) p q = if p = q then (if p < 3 then a else d) else 0 := by
  fin_cases p <;> fin_cases q <;> simp [abd, exLam, sym3]

theorem exLam_stiff {a d s t : ℝ} (ha : 0 < a) (hd : 0 < d) (hs : 0 < s) (ht : 0 < t) : StiffABD (exLam a d s t) ∧ StiffShear (exLam a d s t) := by
  constructor
  · intro x hx
    simp only [exLam_abd]
    have e : ∀ p : Fin 6, ∑ q, x p * (if p = q then (if p < 3 then a else d) else 0) * x q = (if p < 3 then a else d) * x p ^ 2 := by
      intro p
      rw [Finset.sum_eq_single p]
      · simp; ring_nf
      · intro q _ hq; simp [hq.symm]
      · simp
    simp only [e]
    obtain ⟨p, hp⟩ := Function.ne_iff.1 hx
    have pos : ∀ p : Fin 6, 0 < if p < 3 then a else d := fun p => by split <;> assumption
    refine Finset.sum_pos' (fun p _ => mul_nonneg (pos p).le (sq_nonneg _)) ⟨p, Finset.mem_univ _, mul_pos (pos p) (by have : x p ≠ 0 := hp; positivity)⟩
  · simp [StiffShear, exLam, hs, ht]

/-- the laminate data of `exLam` -/
theorem exLam_data : ∀ f ∈ lamData, (∃ c : ℝ, 0 ≤ c ∧ c ≤ 1 ∧ ∀ a, f (exLam a 1 1 1) = c) ∨ ∀ a, f (exLam a 1 1 1) = a := by
  intro f hf
  simp only [lamData, List.mem_append, List.mem_flatMap, List.mem_map, List.mem_cons, List.not_mem_nil, or_false, List.mem_finRange, true_and] at hf
  rcases hf with (⟨p, q, rfl⟩ | ⟨i, j, rfl | rfl⟩) | rfl | rfl | rfl | rfl
  · simp only [exLam_abd]
    by_cases h : p = q
    · by_cases h' : p < 3
      · right; simp [h, h ▸ h']
      · left; exact ⟨1, by norm_num, by norm_num, by simp [h, h ▸ h']⟩
    · left; exact ⟨0, by norm_num, by norm_num, by simp [h]⟩
  · by_cases h : i = j
    · right; simp [exLam, h]
    · left; exact ⟨0, by norm_num, by norm_num, by simp [exLam, h]⟩
  · left; exact ⟨0, by norm_num, by norm_num, by simp [exLam]⟩
  all_goals left; exact ⟨1, by norm_num, by norm_num, by simp [exLam]⟩

/-- a plate whose membrane stiffness grows from `1` to `2` across the square -/
noncomputable def exVar (x : ℝ × ℝ) : Lam := exLam (1 + |x.1|) 1 1 1

theorem exVar_stiff (x : ℝ × ℝ) : StiffABD (exVar x) ∧ StiffShear (exVar x) := exLam_stiff (by positivity) one_pos one_pos one_pos

theorem exVar_on : LamOn unitSquare exVar 2 1 := by
  constructor
  · intro x hx f hf
    obtain ⟨⟨h1, h2⟩, h3, h4⟩ := mem_unitSquare.1 hx
    rcases exLam_data f hf with ⟨c, c0, c1, h⟩ | h
    · rw [exVar, h, abs_of_nonneg c0]; linarith
    · rw [exVar, h, abs_of_nonneg (by positivity), abs_of_nonneg h1]; linarith
  · intro x hx y hy f hf
    rcases exLam_data f hf with ⟨c, c0, c1, h⟩ | h
    · rw [exVar, exVar, h, h, sub_self, abs_zero]; positivity
    · rw [exVar, exVar, h, h, one_mul, Prod.dist_eq, add_sub_add_left_eq_sub]
      exact (abs_abs_sub_abs_le _ _).trans ((Real.dist_eq x.1 y.1).symm.le.trans (le_max_left _ _))

theorem exUniform_on : LamOn unitSquare (fun _ => exIso) 1 0 := by
  constructor
  · intro x _ f hf
    rcases exLam_data f hf with ⟨c, c0, c1, h⟩ | h
    · rw [exIso, h, abs_of_nonneg c0]; exact c1
    · rw [exIso, h]; simp
  · intro x _ y _ f _
    simp

end Meshless
