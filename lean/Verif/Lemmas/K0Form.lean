import Verif.Lemmas.Energy
import Verif.Spec.Smooth

set_option autoImplicit false

namespace Meshless
open Spec Finset

theorem calcK0_ok {m : Mesh} (w : WF m) {pn : Bool} {K : Mat} (hK : (calcK0 m pn).2 = .ok K) :
    SameStatic m (calcK0 m pn).1 ∧ Prepared (calcK0 m pn).1 ∧ HasProps m pn ∧ m.nids ≠ [] := by
  obtain ⟨hs, hc⟩ := calcK0_cases m pn w
  obtain ⟨h1, h2, h3, _⟩ := hc K hK
  exact ⟨hs, h2, (hasProps_iff w pn).2 h1, h3⟩

/-- a returned matrix is the sum of the increments of all edges, whatever the mesh -/
theorem calcK0_sum {m : Mesh} (w : WF m) {pn : Bool} {K : Mat} (hK : (calcK0 m pn).2 = .ok K) :
    K.dim = m.nids.length * 5 ∧ ∀ i j, K.get i j = (m.ekeys.map fun k => entrySum (m.nids.length * 5)
      (okEntries ((k0Env (calcK0 m pn).1 pn ((calcK0 m pn).1.edge k)).map k0Entries)) i j).sum := by
  obtain ⟨_, hc⟩ := calcK0_cases m pn w
  obtain ⟨_, _, _, h4⟩ := hc K hK
  rw [k0Edge_eq] at h4
  have good := matLoop_none (fun k => (k0Env (calcK0 m pn).1 pn ((calcK0 m pn).1.edge k)).map k0Entries) m.ekeys
    (Mat.zeros (m.nids.length * 5)) (by rw [h4])
  obtain ⟨K', e1, e2, e3⟩ := matLoop_ok _ _ _ good
  rw [h4] at e1
  have : K = K' := congrArg Prod.fst e1
  subst this
  refine ⟨e2, fun i j => ?_⟩
  rw [e3]; simp [Mat.zeros]

theorem form_eq_bil (n : ℕ) (K : ℕ → ℕ → ℝ) (v u : ℕ → ℝ) : form n K v u = bil n K v u := rfl

/-- unit vector -/
noncomputable def single (i : ℕ) : ℕ → ℝ := fun a => if a = i then 1 else 0

theorem form_single {n : ℕ} (K : ℕ → ℕ → ℝ) {i j : ℕ} (hi : i < n) (hj : j < n) : form n K (single i) (single j) = K i j :=
  bil_single K hi hj

theorem form_row {n : ℕ} (K : ℕ → ℕ → ℝ) {i : ℕ} (hi : i < n) (u : ℕ → ℝ) :
    form n K (single i) u = ∑ j ∈ range n, K i j * u j := by
  unfold form single
  rw [Finset.sum_eq_single i]
  · simp
  · intro a _ ha; exact Finset.sum_eq_zero fun b _ => by simp [ha]
  · intro h; simp at h; omega

theorem entrySum_out {n : ℕ} {es : List (ℤ × ℤ × ℝ)} {i j : ℕ} (h : n ≤ i ∨ n ≤ j) : entrySum n es i j = 0 := by
  unfold entrySum
  apply List.sum_eq_zero
  intro x hx
  obtain ⟨e, _, rfl⟩ := List.mem_map.1 hx
  rw [if_neg]
  rintro ⟨h1, h2⟩
  have := pyIdx_lt h1; have := pyIdx_lt h2
  omega

theorem calcK0_out {m : Mesh} (w : WF m) {pn : Bool} {K : Mat} (hK : (calcK0 m pn).2 = .ok K) {i j : ℕ}
    (h : m.nids.length * 5 ≤ i ∨ m.nids.length * 5 ≤ j) : K.get i j = 0 := by
  rw [(calcK0_sum w hK).2]
  apply List.sum_eq_zero
  intro x hx
  obtain ⟨k, _, rfl⟩ := List.mem_map.1 hx
  exact entrySum_out h

theorem entrySum_symm_outer {ι : Type} [Fintype ι] {n : ℕ} {C : ι → ι → ℝ} (hC : ∀ p q, C p q = C q p) (dofs : List (ℤ × (ι → ℝ))) (i j : ℕ) :
    entrySum n (outer C dofs) i j = entrySum n (outer C dofs) j i := by
  by_cases h : i < n ∧ j < n
  · rw [← bil_single (entrySum n (outer C dofs)) h.1 h.2, ← bil_single (entrySum n (outer C dofs)) h.2 h.1, bil_outer, bil_outer,
      Finset.sum_comm]
    refine Finset.sum_congr rfl fun p _ => Finset.sum_congr rfl fun q _ => ?_
    rw [hC]; ring
  · rw [entrySum_out (by omega), entrySum_out (by omega)]

theorem k0abd_symm (e : K0Env ℝ) (p q : Fin 6) : e.abd p q = e.abd q p := by
  fin_cases p <;> fin_cases q <;> rfl

/-- positions written by a `k0` block: never a transverse displacement -/
theorem pyIdx_mod {n : ℕ} {x : ℤ} {s : ℕ} (hs : s < 5) {i : ℕ} (h : pyIdx (n * 5) (x * 5 + s) = some i) : i % 5 = s := by
  unfold pyIdx at h
  split at h <;> split at h <;> simp only [Option.some.injEq, reduceCtorEq] at h
  · omega
  · push_cast at *; omega

theorem entrySum_zero {n : ℕ} {es : List (ℤ × ℤ × ℝ)} {i j : ℕ}
    (h : ∀ e ∈ es, ¬ (pyIdx n e.1 = some i ∧ pyIdx n e.2.1 = some j)) : entrySum n es i j = 0 := by
  unfold entrySum
  apply List.sum_eq_zero
  intro x hx
  obtain ⟨e, he, rfl⟩ := List.mem_map.1 hx
  rw [if_neg (h e he)]

theorem k0Entries_pos {n : ℕ} {e : K0Env ℝ} {x : ℤ × ℤ × ℝ} (hx : x ∈ k0Entries e) {i j : ℕ} (hi : pyIdx (n * 5) x.1 = some i)
    (hj : pyIdx (n * 5) x.2.1 = some j) : i % 5 ≠ 2 ∧ j % 5 ≠ 2 := by
  rw [k0Entries_eq] at hx
  simp only [outer, List.mem_flatMap, List.mem_map] at hx
  obtain ⟨a, ha, b, hb, rfl⟩ := hx
  have key : ∀ c ∈ k0Dofs e, ∀ i, pyIdx (n * 5) c.1 = some i → i % 5 ≠ 2 := by
    intro c hc i h
    obtain ⟨y, s, hs, h5, hcs⟩ : ∃ (y : ℤ) (s : ℕ), s ≠ 2 ∧ s < 5 ∧ c.1 = y * 5 + s := by
      simp only [k0Dofs, k0Dofs4, List.cons_append, List.nil_append, List.mem_cons, List.not_mem_nil, or_false] at hc
      rcases hc with rfl | rfl | rfl | rfl | rfl | rfl | rfl | rfl | rfl | rfl | rfl | rfl | rfl | rfl | rfl | rfl
      · exact ⟨_, 0, by norm_num, by norm_num, rfl⟩
      · exact ⟨_, 1, by norm_num, by norm_num, rfl⟩
      · exact ⟨_, 3, by norm_num, by norm_num, rfl⟩
      · exact ⟨_, 4, by norm_num, by norm_num, rfl⟩
      · exact ⟨_, 0, by norm_num, by norm_num, rfl⟩
      · exact ⟨_, 1, by norm_num, by norm_num, rfl⟩
      · exact ⟨_, 3, by norm_num, by norm_num, rfl⟩
      · exact ⟨_, 4, by norm_num, by norm_num, rfl⟩
      · exact ⟨_, 0, by norm_num, by norm_num, rfl⟩
      · exact ⟨_, 1, by norm_num, by norm_num, rfl⟩
      · exact ⟨_, 3, by norm_num, by norm_num, rfl⟩
      · exact ⟨_, 4, by norm_num, by norm_num, rfl⟩
      · exact ⟨_, 0, by norm_num, by norm_num, rfl⟩
      · exact ⟨_, 1, by norm_num, by norm_num, rfl⟩
      · exact ⟨_, 3, by norm_num, by norm_num, rfl⟩
      · exact ⟨_, 4, by norm_num, by norm_num, rfl⟩
    rw [hcs] at h
    rw [pyIdx_mod h5 h]; exact hs
  exact ⟨key a ha i hi, key b hb j hj⟩

/-! ### dependence on nodal values -/

theorem gStrain_zero {m : Mesh} {pn : Bool} {k : Key} {ns : List ℕ} {Ac : ℝ} {pm : (Lam → ℝ) → ℝ} (hd : EdgeData m pn k ns Ac pm) {v : ℕ → ℝ}
    (h : ∀ i ∈ ns, ∀ r < 5, disp m v r i = 0) : gStrain m k Ac v = fun _ => 0 := by
  have z : ∀ (c : IPt → ℝ) (r : ℕ), r < 5 → wsum c (disp m v r) (m.edge k).ipts = 0 := by
    intro c r hr
    rw [wsum_congr hd.ipts (h' := fun _ => 0) fun i hi => h i hi r hr]
    simp [wsum]
  funext p
  unfold gStrain gX gY
  rw [z _ 0 (by norm_num), z _ 1 (by norm_num), z _ 3 (by norm_num), z _ 4 (by norm_num), z _ 0 (by norm_num), z _ 1 (by norm_num),
    z _ 3 (by norm_num), z _ 4 (by norm_num)]
  fin_cases p <;> simp [v6]

theorem disp_single {m : Mesh} {i j : ℕ} (hi : i ∈ m.nids) (hne : i ≠ j) (r s : ℕ) (hr : r < 5) (hs : s < 5) :
    disp m (single (5 * m.nids.idxOf j + s)) r i = 0 := by
  unfold disp single
  rw [if_neg]
  intro h
  have : m.nids.idxOf i = m.nids.idxOf j := by omega
  exact hne ((List.idxOf_inj hi).1 this)

/-- an edge adds nothing outside the nodes of its triangles -/
theorem edge_local {m : Mesh} (hq : Prepared m) {pn : Bool} {k : Key} {ns : List ℕ} {Ac : ℝ} {pm : (Lam → ℝ) → ℝ} (hd : EdgeData m pn k ns Ac pm)
    {i j : ℕ} (hi : i ∈ m.nids) (hj : j ∈ m.nids) {r s : ℕ} (hr : r < 5) (hs : s < 5) (h : i ∉ ns ∨ j ∉ ns) :
    entrySum (m.nids.length * 5) (okEntries ((k0Env m pn (m.edge k)).map k0Entries)) (5 * m.nids.idxOf i + r) (5 * m.nids.idxOf j + s) = 0 := by
  have li := List.idxOf_lt_length_iff.2 hi
  have lj := List.idxOf_lt_length_iff.2 hj
  have hb := bil_edge hq hd (single (5 * m.nids.idxOf i + r)) (single (5 * m.nids.idxOf j + s))
  rw [← form_eq_bil, form_single _ (by omega) (by omega)] at hb
  rw [hb]
  rcases h with h | h
  · rw [gStrain_zero hd (v := single (5 * m.nids.idxOf i + r)) fun i' hi' r' hr' =>
      disp_single (j := i) (hd.ns_nids _ hi') (fun hh => h (hh ▸ hi')) _ _ hr' hr]
    simp
  · rw [gStrain_zero hd (v := single (5 * m.nids.idxOf j + s)) fun i' hi' r' hr' =>
      disp_single (j := j) (hd.ns_nids _ hi') (fun hh => h (hh ▸ hi')) _ _ hr' hs]
    simp

/-! ### averaged properties as convex combinations -/

/-- a laminate slot the averaging reads with the given flag -/
def Slot (m : Mesh) (pn : Bool) (p : Option Lam) : Prop :=
  if pn then ∃ t ∈ m.eids, ∃ i, IsCorner m t i ∧ p = (m.node i).prop else ∃ t ∈ m.eids, p = (m.tria t).prop

theorem avg_weights {m : Mesh} (w : WF m) (hp : Proper m) (hg : Planar m) (pn : Bool) {k : Key} (hk : k ∈ m.ekeys) :
    ∃ L : List (ℝ × Option Lam), (∀ x ∈ L, 0 ≤ x.1 ∧ Slot m pn x.2) ∧ (L.map Prod.fst).sum = 1 ∧
      ∀ s, avg m pn k s = (L.map fun x => x.1 * ofProp s x.2).sum := by
  rcases edge_shape w hp hk with ⟨t, o, htr, hs, _⟩ | ⟨t1, t2, o1, o2, htr, hs1, hs2, _, _, _, _⟩
  · have hdom : dom m k = [[k.1], corners m t, [k.2]] := by simp [dom, htr]
    have c1 := (hs.corner_iff k.1).2 (Or.inl rfl)
    have c2 := (hs.corner_iff k.2).2 (Or.inr (Or.inl rfl))
    have c3 := (hs.corner_iff o).2 (Or.inr (Or.inr rfl))
    cases pn with
    | true =>
      refine ⟨[(4/9, (m.node k.1).prop), (4/9, (m.node k.2).prop), (1/9, (m.node o).prop)], ?_, by norm_num, ?_⟩
      · intro x hx
        simp only [List.mem_cons, List.not_mem_nil, or_false] at hx
        rcases hx with rfl | rfl | rfl
        · exact ⟨by norm_num, t, hs.mem, _, c1, rfl⟩
        · exact ⟨by norm_num, t, hs.mem, _, c2, rfl⟩
        · exact ⟨by norm_num, t, hs.mem, _, c3, rfl⟩
      · intro s
        unfold avg
        rw [if_pos rfl, hdom]
        simp only [List.map_cons, List.map_nil, List.sum_cons, List.sum_nil, mean_single, mean_corners hs, List.length_cons, List.length_nil]
        push_cast; ring
    | false =>
      have hA0 : triArea m t ≠ 0 := abs_ne_zero.2 (hg.nondeg t hs.mem)
      refine ⟨[(1, (m.tria t).prop)], ?_, by norm_num, ?_⟩
      · intro x hx
        simp only [List.mem_cons, List.not_mem_nil, or_false] at hx
        subst hx
        exact ⟨by norm_num, t, hs.mem, rfl⟩
      · intro s
        unfold avg
        simp only [Bool.false_eq_true, if_false, htr, List.map_cons, List.map_nil, List.sum_cons, List.sum_nil, add_zero]
        rw [mul_div_cancel_left₀ _ hA0, one_mul]
  · have hdom : dom m k = [[k.1], corners m t1, [k.2], corners m t2] := by simp [dom, htr]
    have c1 := (hs1.corner_iff k.1).2 (Or.inl rfl)
    have c2 := (hs1.corner_iff k.2).2 (Or.inr (Or.inl rfl))
    have c3 := (hs1.corner_iff o1).2 (Or.inr (Or.inr rfl))
    have c4 := (hs2.corner_iff o2).2 (Or.inr (Or.inr rfl))
    cases pn with
    | true =>
      refine ⟨[(5/12, (m.node k.1).prop), (5/12, (m.node k.2).prop), (1/12, (m.node o1).prop), (1/12, (m.node o2).prop)], ?_, by norm_num, ?_⟩
      · intro x hx
        simp only [List.mem_cons, List.not_mem_nil, or_false] at hx
        rcases hx with rfl | rfl | rfl | rfl
        · exact ⟨by norm_num, t1, hs1.mem, _, c1, rfl⟩
        · exact ⟨by norm_num, t1, hs1.mem, _, c2, rfl⟩
        · exact ⟨by norm_num, t1, hs1.mem, _, c3, rfl⟩
        · exact ⟨by norm_num, t2, hs2.mem, _, c4, rfl⟩
      · intro s
        unfold avg
        rw [if_pos rfl, hdom]
        simp only [List.map_cons, List.map_nil, List.sum_cons, List.sum_nil, mean_single, mean_corners hs1, mean_corners hs2, List.length_cons,
          List.length_nil]
        push_cast; ring
    | false =>
      have p1 : 0 < triArea m t1 := abs_pos.2 (hg.nondeg t1 hs1.mem)
      have p2 : 0 < triArea m t2 := abs_pos.2 (hg.nondeg t2 hs2.mem)
      refine ⟨[(triArea m t1 / (triArea m t1 + triArea m t2), (m.tria t1).prop), (triArea m t2 / (triArea m t1 + triArea m t2), (m.tria t2).prop)],
        ?_, ?_, ?_⟩
      · intro x hx
        simp only [List.mem_cons, List.not_mem_nil, or_false] at hx
        rcases hx with rfl | rfl
        · exact ⟨by positivity, t1, hs1.mem, rfl⟩
        · exact ⟨by positivity, t2, hs2.mem, rfl⟩
      · simp only [List.map_cons, List.map_nil, List.sum_cons, List.sum_nil, add_zero]
        field_simp
      · intro s
        unfold avg
        simp only [Bool.false_eq_true, if_false, htr, List.map_cons, List.map_nil, List.sum_cons, List.sum_nil, add_zero]
        field_simp

/-- a quadratic expression of averaged moduli is the average of the quadratic expressions -/
theorem quad_avg {ι : Type} [Fintype ι] (L : List (ℝ × Option Lam)) (C : Lam → ι → ι → ℝ) (x y : ι → ℝ) :
    ∑ p, ∑ q, x p * (L.map fun z => z.1 * ofProp (fun l => C l p q) z.2).sum * y q =
      (L.map fun z => z.1 * ofProp (fun l => ∑ p, ∑ q, x p * C l p q * y q) z.2).sum := by
  induction L with
  | nil => simp
  | cons z L ih =>
    simp only [List.map_cons, List.sum_cons]
    rw [← ih]
    have : ofProp (fun l => ∑ p, ∑ q, x p * C l p q * y q) z.2 = ∑ p, ∑ q, x p * ofProp (fun l => C l p q) z.2 * y q := by
      unfold ofProp
      cases z.2 <;> simp
    rw [this, Finset.mul_sum, ← Finset.sum_add_distrib]
    refine Finset.sum_congr rfl fun p _ => ?_
    rw [Finset.mul_sum, ← Finset.sum_add_distrib]
    exact Finset.sum_congr rfl fun q _ => by ring

/-- averaging a constant -/
theorem avg_const {m : Mesh} (w : WF m) (hp : Proper m) (hg : Planar m) {pn : Bool} {k : Key} (hk : k ∈ m.ekeys) {l : Lam}
    (h : ∀ p, Slot m pn p → p = some l) (s : Lam → ℝ) : avg m pn k s = s l := by
  obtain ⟨L, h1, h2, h3⟩ := avg_weights w hp hg pn hk
  rw [h3]
  have : (L.map fun x => x.1 * ofProp s x.2) = L.map fun x => x.1 * s l :=
    List.map_congr_left fun x hx => by rw [h _ (h1 x hx).2]; rfl
  rw [this, List.sum_map_mul_right]
  rw [show (L.map fun x => x.1) = L.map Prod.fst from rfl, h2, one_mul]

/-! ### linear fields -/

theorem mean_congr {f g : ℕ → ℝ} {l : List ℕ} (h : ∀ i ∈ l, f i = g i) : mean f l = mean g l := by
  unfold mean; rw [List.map_congr_left h]

theorem sarea_dom_ne {m : Mesh} (w : WF m) (hp : Proper m) (hg : Planar m) {k : Key} (hk : k ∈ m.ekeys) : sarea m (dom m k) ≠ 0 := by
  rcases edge_shape w hp hk with ⟨t, o, htr, hs, _⟩ | ⟨t1, t2, o1, o2, htr, hs1, hs2, _, _, _, _⟩
  · have hdom : dom m k = [[k.1], corners m t, [k.2]] := by simp [dom, htr]
    have hS : sarea m [[k.1], corners m t, [k.2]] = -sarea m [[k.1], [k.2], corners m t] := by
      rw [sarea3, sarea3]; ring
    have hA := triArea_side hs
    have hA0 : triArea m t ≠ 0 := abs_ne_zero.2 (hg.nondeg t hs.mem)
    rw [hdom, hS]
    intro h0
    rw [neg_eq_zero.1 h0, abs_zero] at hA
    exact hA0 (by linarith)
  · have hdom : dom m k = [[k.1], corners m t1, [k.2], corners m t2] := by simp [dom, htr]
    have hop := hg.opposite k hk t1 t2 htr
    have hS : sarea m [[k.1], corners m t1, [k.2], corners m t2] = -sarea m [[k.1], [k.2], corners m t1] + sarea m [[k.1], [k.2], corners m t2] := by
      simp only [sarea4, sarea3]; ring
    rw [hdom, hS]
    intro h0
    have : sarea m [[k.1], [k.2], corners m t1] = sarea m [[k.1], [k.2], corners m t2] := by linarith
    rw [this] at hop
    nlinarith [mul_self_nonneg (sarea m [[k.1], [k.2], corners m t2])]

/-- smoothed gradients are exact on linear fields -/
theorem grad_linear {m : Mesh} (w : WF m) (hp : Proper m) (hg : Planar m) {k : Key} (hk : k ∈ m.ekeys) {f : ℕ → ℝ} {c p q : ℝ}
    (hf : ∀ i ∈ m.nids, f i = c + p * nx m i + q * ny m i) :
    gradX m (dom m k) f = p ∧ gradY m (dom m k) f = q := by
  have h0 := sarea_dom_ne w hp hg hk
  unfold gradX gradY
  rw [div_eq_iff h0, div_eq_iff h0]
  rcases edge_shape w hp hk with ⟨t, o, htr, hs, _⟩ | ⟨t1, t2, o1, o2, htr, hs1, hs2, _, _, _, _⟩
  · have hdom : dom m k = [[k.1], corners m t, [k.2]] := by simp [dom, htr]
    rw [hdom, circDy3, circDx3, sarea3]
    simp only [mean_single, mean_corners hs, hf _ hs.ina, hf _ hs.inb, hf _ hs.ino]
    constructor <;> ring
  · have hdom : dom m k = [[k.1], corners m t1, [k.2], corners m t2] := by simp [dom, htr]
    rw [hdom, circDy4, circDx4, sarea4, sarea3, sarea3]
    simp only [mean_single, mean_corners hs1, mean_corners hs2, hf _ hs1.ina, hf _ hs1.inb, hf _ hs1.ino, hf _ hs2.ino]
    constructor <;> ring

end Meshless
