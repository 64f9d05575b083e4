import Verif.Lemmas.Cst
import Verif.Props.Compare

/-! C117 and C118: smoothing against constant strain triangles. -/

set_option autoImplicit false

namespace Meshless
open Spec Finset

/-- C117: for a uniform laminate the energy of a displacement with the constant strain triangles exceeds that with `calc_k0` by the energy of the jumps
of the strain at the interior edges -/
theorem C117_gap {m : Mesh} (hr : Reachable m) (hp : Proper m) (hg : Planar m) {pn : Bool} {K : Mat} (hK : (calcK0 m pn).2 = .ok K) {l : Lam}
    (hl : Homog m pn l) (d : ℕ → ℝ) : cstEnergy m (fun _ => l) d d = form K.dim K.get d d + (m.ekeys.map fun k => jumpEnergy m l k d).sum := by
  rw [energy_cst hr.wf hp hg hl, C18_energy hr hp hg hK]

theorem jump_nonneg {m : Mesh} (w : WF m) (hp : Proper m) (hg : Planar m) {l : Lam} (hpos : ∀ x : Fin 6 → ℝ, 0 ≤ ∑ p, ∑ q, x p * abd l p q * x q) {k : Key}
    (hk : k ∈ m.ekeys) (d : ℕ → ℝ) : 0 ≤ jumpEnergy m l k d := by
  unfold jumpEnergy
  rcases edge_shape w hp hk with ⟨t, o, htr, hs, _⟩ | ⟨t1, t2, o1, o2, htr, hs1, hs2, _, _, _, _⟩ <;> rw [htr]
  have h1 := triArea_pos hg hs1.mem
  have h2 := triArea_pos hg hs2.mem
  exact mul_nonneg (by positivity) (hpos _)

/-- C117: `calc_k0` is never stiffer than the constant strain triangles -/
theorem C117_softer {m : Mesh} (hr : Reachable m) (hp : Proper m) (hg : Planar m) {pn : Bool} {K : Mat} (hK : (calcK0 m pn).2 = .ok K) {l : Lam}
    (hl : Homog m pn l) (hpos : ∀ x : Fin 6 → ℝ, 0 ≤ ∑ p, ∑ q, x p * abd l p q * x q) (d : ℕ → ℝ) : form K.dim K.get d d ≤ cstEnergy m (fun _ => l) d d := by
  rw [C117_gap hr hp hg hK hl]
  have : 0 ≤ (m.ekeys.map fun k => jumpEnergy m l k d).sum := by
    apply List.sum_nonneg
    intro x hx
    obtain ⟨k, hk, rfl⟩ := List.mem_map.1 hx
    exact jump_nonneg hr.wf hp hg hpos hk d
  linarith

/-- C117: for a positive definite laminate the two energies agree only for displacements with the same strains and curvatures on both sides of every edge -/
theorem C117_equal {m : Mesh} (hr : Reachable m) (hp : Proper m) (hg : Planar m) {pn : Bool} {K : Mat} (hK : (calcK0 m pn).2 = .ok K) {l : Lam}
    (hl : Homog m pn l) (hpos : ∀ x : Fin 6 → ℝ, x ≠ 0 → 0 < ∑ p, ∑ q, x p * abd l p q * x q) (d : ℕ → ℝ) :
    form K.dim K.get d d = cstEnergy m (fun _ => l) d d ↔ ∀ k ∈ m.ekeys, ∀ t1 t2, (m.edge k).trias = [t1, t2] → triEps m t1 d = triEps m t2 d := by
  have hpos' : ∀ x : Fin 6 → ℝ, 0 ≤ ∑ p, ∑ q, x p * abd l p q * x q := by
    intro x
    by_cases hx : x = 0
    · subst hx; simp
    · exact (hpos x hx).le
  rw [C117_gap hr hp hg hK hl]
  have key : ∀ k ∈ m.ekeys, jumpEnergy m l k d = 0 ↔ ∀ t1 t2, (m.edge k).trias = [t1, t2] → triEps m t1 d = triEps m t2 d := by
    intro k hk
    unfold jumpEnergy
    rcases edge_shape hr.wf hp hk with ⟨t, o, htr, hs, _⟩ | ⟨t1, t2, o1, o2, htr, hs1, hs2, _, _, _, _⟩ <;> rw [htr]
    · simp
    · have h1 := triArea_pos hg hs1.mem
      have h2 := triArea_pos hg hs2.mem
      have hne : triArea m t1 * triArea m t2 / (3 * (triArea m t1 + triArea m t2)) ≠ 0 := by positivity
      constructor
      · intro h s1 s2 he
        obtain ⟨rfl, rfl⟩ : t1 = s1 ∧ t2 = s2 := by simpa using he
        have h0 := (mul_eq_zero.1 h).resolve_left hne
        by_contra hcon
        have := hpos (fun p => triEps m t1 d p - triEps m t2 d p) (fun hc => hcon (funext fun p => sub_eq_zero.1 (congrFun hc p)))
        exact absurd h0 this.ne'
      · intro h
        have := h t1 t2 rfl
        simp [this]
  constructor
  · intro h k hk
    rw [← key k hk]
    have hz : (m.ekeys.map fun k => jumpEnergy m l k d).sum = 0 := by linarith
    refine List.all_zero_of_le_zero_le_of_sum_eq_zero (l := m.ekeys.map fun k => jumpEnergy m l k d) ?_ hz (List.mem_map.2 ⟨k, hk, rfl⟩)
    intro x hx
    obtain ⟨k, hk, rfl⟩ := List.mem_map.1 hx
    exact jump_nonneg hr.wf hp hg hpos' hk d
  · intro h
    have hz : (m.ekeys.map fun k => jumpEnergy m l k d).sum = 0 := by
      apply List.sum_eq_zero
      intro x hx
      obtain ⟨k, hk, rfl⟩ := List.mem_map.1 hx
      exact (key k hk).2 (h k hk)
    linarith

section
variable (p1 p2 p3 p4 q1 q2 : Lam)

/-- moving node 2 of the square in direction x strains only the first triangle -/
theorem exMesh_triEps1 : triEps (exMesh p1 p2 p3 p4 q1 q2) 1 (single 5) = ![1, 0, -1, 0, 0, 0] := by
  have hg := exMesh_planar p1 p2 p3 p4 q1 q2
  have hc : ∀ r < 5, r ≠ 0 → Aff (exMesh p1 p2 p3 p4 q1 q2) 1 (disp (exMesh p1 p2 p3 p4 q1 q2) (single 5) r) 0 0 0 := by
    intro r hr h0 i _
    unfold disp single
    rw [if_neg (by omega)]; ring
  have h0 : Aff (exMesh p1 p2 p3 p4 q1 q2) 1 (disp (exMesh p1 p2 p3 p4 q1 q2) (single 5) 0) 0 1 (-1) := by
    intro i hi
    unfold IsCorner at hi
    rw [exMesh_tria1] at hi
    rcases hi with rfl | rfl | rfl <;> simp only [disp, exMesh_nids, nx, ny, exMesh_node1, exMesh_node2, exMesh_node3, single] <;> norm_num [List.idxOf_cons]
  have m1 : 1 ∈ (exMesh p1 p2 p3 p4 q1 q2).eids := by rw [exMesh_eids]; simp
  unfold triEps
  rw [(tri_grad hg m1 h0).1, (tri_grad hg m1 h0).2, (tri_grad hg m1 (hc 1 (by norm_num) (by norm_num))).1, (tri_grad hg m1 (hc 1 (by norm_num) (by norm_num))).2,
    (tri_grad hg m1 (hc 3 (by norm_num) (by norm_num))).1, (tri_grad hg m1 (hc 3 (by norm_num) (by norm_num))).2,
    (tri_grad hg m1 (hc 4 (by norm_num) (by norm_num))).1, (tri_grad hg m1 (hc 4 (by norm_num) (by norm_num))).2]
  norm_num

theorem exMesh_triEps2 : triEps (exMesh p1 p2 p3 p4 q1 q2) 2 (single 5) = 0 := by
  have hg := exMesh_planar p1 p2 p3 p4 q1 q2
  have hc : ∀ r < 5, Aff (exMesh p1 p2 p3 p4 q1 q2) 2 (disp (exMesh p1 p2 p3 p4 q1 q2) (single 5) r) 0 0 0 := by
    intro r hr i hi
    unfold IsCorner at hi
    rw [exMesh_tria2] at hi
    have hpos : 5 * (exMesh p1 p2 p3 p4 q1 q2).nids.idxOf i + r ≠ 5 := by
      rw [exMesh_nids]
      rcases hi with rfl | rfl | rfl <;> simp <;> omega
    unfold disp single
    rw [if_neg hpos]; ring
  have m1 : 2 ∈ (exMesh p1 p2 p3 p4 q1 q2).eids := by rw [exMesh_eids]; simp
  have hx := fun r hr => (tri_grad hg m1 (hc r hr)).1
  have hy := fun r hr => (tri_grad hg m1 (hc r hr)).2
  unfold triEps
  rw [hx 0 (by norm_num), hy 0 (by norm_num), hx 1 (by norm_num), hy 1 (by norm_num), hx 3 (by norm_num), hy 3 (by norm_num), hx 4 (by norm_num), hy 4 (by norm_num)]
  funext p
  fin_cases p <;> norm_num

end

/-- C117: the square with one corner pulled is strictly softer than the two constant strain triangles -/
example (pn : Bool) : ∃ K, (calcK0 (exMesh exIso exIso exIso exIso exIso exIso) pn).2 = .ok K ∧
    form K.dim K.get (single 5) (single 5) < cstEnergy (exMesh exIso exIso exIso exIso exIso exIso) (fun _ => exIso) (single 5) (single 5) := by
  obtain ⟨K, hK, _⟩ := exMesh_k0 exIso exIso exIso exIso exIso exIso pn
  refine ⟨K, hK, lt_of_le_of_ne (C117_softer (exMesh_reachable ..) (exMesh_proper ..) (exMesh_planar ..) hK (exMesh_Homog exIso pn) exIso_psd _) fun h => ?_⟩
  have hpd : ∀ x : Fin 6 → ℝ, x ≠ 0 → 0 < ∑ p, ∑ q, x p * abd exIso p q * x q := by
    intro x hx
    simp only [exIso_abd, mul_ite, mul_one, mul_zero, ite_mul, zero_mul, Finset.sum_ite_eq, Finset.mem_univ, if_true]
    obtain ⟨p, hp⟩ := Function.ne_iff.1 hx
    exact Finset.sum_pos' (fun q _ => mul_self_nonneg _) ⟨p, Finset.mem_univ _, mul_self_pos.2 hp⟩
  have := (C117_equal (exMesh_reachable ..) (exMesh_proper ..) (exMesh_planar ..) hK (exMesh_Homog exIso pn) hpd (single 5)).1 h (1, 3)
    (by rw [exMesh_ekeys]; simp) 1 2 (exMesh_e13 ..)
  rw [exMesh_triEps1, exMesh_triEps2] at this
  have := congrFun this 0
  norm_num at this

/-- C117 needs the uniform laminate: on the square with a first triangle without stiffness, pulling node 2 costs energy, although the only strained
constant strain triangle has none -/
theorem C117_layered : ∃ m K, ∃ L : ℕ → Lam, Reachable m ∧ Proper m ∧ Planar m ∧ (∀ e ∈ m.eids, (m.tria e).prop = some (L e)) ∧
    (∀ e, ∀ x : Fin 6 → ℝ, 0 ≤ ∑ p, ∑ q, x p * abd (L e) p q * x q) ∧ (calcK0 m false).2 = .ok K ∧ ∃ d, cstEnergy m L d d < form K.dim K.get d d := by
  set z : Lam := exLam 0 0 0 1 with hz
  have hz0 : ∀ p q, abd z p q = 0 := by intro p q; fin_cases p <;> fin_cases q <;> simp [abd, z, exLam, sym3]
  obtain ⟨K, hK, _⟩ := exMesh_k0 exIso exIso exIso exIso z exIso false
  set m := exMesh exIso exIso exIso exIso z exIso with hm
  set L : ℕ → Lam := fun e => if e = 1 then z else exIso with hL
  have hLa : ∀ e p q, abd (L e) p q = (if e = 1 then 0 else 1) * (if p = q then 1 else 0) := by
    intro e p q
    by_cases he : e = 1
    · simp [hL, he, hz0]
    · simp [hL, he, exIso_abd]
  have hprop : ∀ e ∈ m.eids, (m.tria e).prop = some (L e) := by
    intro e he
    rw [hm, exMesh_eids] at he
    simp only [List.mem_cons, List.not_mem_nil, or_false] at he
    rcases he with rfl | rfl
    · rw [hm, exMesh_tria1]; rfl
    · rw [hm, exMesh_tria2]; rfl
  have hr := exMesh_reachable exIso exIso exIso exIso z exIso
  have hp := exMesh_proper exIso exIso exIso exIso z exIso
  have hg := exMesh_planar exIso exIso exIso exIso z exIso
  rw [← hm] at hr hp hg
  refine ⟨m, K, L, hr, hp, hg, hprop, ?_, hK, single 5, ?_⟩
  · intro e x
    simp only [hLa, mul_ite, mul_one, mul_zero, ite_mul, zero_mul, Finset.sum_ite_eq, Finset.mem_univ, if_true]
    split
    · simp
    · exact Finset.sum_nonneg fun p _ => mul_self_nonneg _
  have hcst : cstEnergy m L (single 5) (single 5) = 0 := by
    unfold cstEnergy
    rw [hm, exMesh_eids]
    simp only [List.map_cons, List.map_nil, List.sum_cons, List.sum_nil, exMesh_triEps2, hLa]
    simp
  rw [hcst, C18_energy hr hp hg hK]
  have hav : ∀ k ∈ m.ekeys, ∃ s, 0 ≤ s ∧ ∀ p q, avg m false k (fun l => abd l p q) = s * (if p = q then 1 else 0) := by
    intro k hk
    refine ⟨(((m.edge k).trias.map fun t => triArea m t * (if t = 1 then 0 else 1)).sum) / ((m.edge k).trias.map (triArea m)).sum, ?_, fun p q => ?_⟩
    · apply div_nonneg <;> apply List.sum_nonneg <;> intro x hx <;> obtain ⟨t, _, rfl⟩ := List.mem_map.1 hx
      · split <;> simp [triArea]
      · exact abs_nonneg _
    · unfold avg
      rw [if_neg (by simp), div_mul_eq_mul_div, ← List.sum_map_mul_right]
      congr 2
      refine List.map_congr_left fun t ht => ?_
      rw [hr.wf.etrias k hk] at ht
      rw [hprop t (mem_sideTrias.1 ht).1]
      change _ * abd (L t) p q = _
      rw [hLa]; ring
  have hterm : ∀ k ∈ m.ekeys, 0 ≤ |sarea m (dom m k)| * ∑ p, ∑ q, eps m k (single 5) p * avg m false k (fun l => abd l p q) * eps m k (single 5) q := by
    intro k hk
    obtain ⟨s, hs, h⟩ := hav k hk
    refine mul_nonneg (abs_nonneg _) ?_
    simp only [h, mul_ite, mul_one, mul_zero, ite_mul, zero_mul, Finset.sum_ite_eq, Finset.mem_univ, if_true]
    refine Finset.sum_nonneg fun p _ => ?_
    have := mul_nonneg hs (mul_self_nonneg (eps m k (single 5) p))
    linarith
  have hk : (1, 3) ∈ m.ekeys := by rw [hm, exMesh_ekeys]; simp
  have he13 : (m.edge (1, 3)).trias = [1, 2] := exMesh_e13 ..
  have a1 := triArea_pos hg (t := 1) (by rw [hm, exMesh_eids]; simp)
  have a2 := triArea_pos hg (t := 2) (by rw [hm, exMesh_eids]; simp)
  have hpos : 0 < |sarea m (dom m (1, 3))| * ∑ p, ∑ q, eps m (1, 3) (single 5) p * avg m false (1, 3) (fun l => abd l p q) * eps m (1, 3) (single 5) q := by
    have hs : ∀ p q, avg m false (1, 3) (fun l => abd l p q) = triArea m 2 / (triArea m 1 + triArea m 2) * (if p = q then 1 else 0) := by
      intro p q
      unfold avg
      rw [if_neg (by simp), he13]
      simp only [List.map_cons, List.map_nil, List.sum_cons, List.sum_nil, add_zero, hprop 1 (by rw [hm, exMesh_eids]; simp), hprop 2 (by rw [hm, exMesh_eids]; simp)]
      change (_ * abd (L 1) p q + _ * abd (L 2) p q) / _ = _
      rw [hLa, hLa]
      norm_num
      split <;> ring
    apply mul_pos
    · rw [dom_area hr.wf hp hg hk, he13]
      simp only [List.map_cons, List.map_nil, List.sum_cons, List.sum_nil, add_zero]
      linarith [add_pos a1 a2]
    · simp only [hs, mul_ite, mul_one, mul_zero, ite_mul, zero_mul, Finset.sum_ite_eq, Finset.mem_univ, if_true]
      have e0 : eps m (1, 3) (single 5) 0 ≠ 0 := by
        have h := eps_avg hr.wf hp hg hk (single 5) 0
        rw [he13] at h
        simp only [List.map_cons, List.map_nil, List.sum_cons, List.sum_nil, add_zero] at h
        rw [hm, exMesh_triEps1, exMesh_triEps2, ← hm] at h
        intro h0
        rw [h0] at h
        simp at h
        linarith
      refine Finset.sum_pos' (fun q _ => ?_) ⟨0, Finset.mem_univ _, ?_⟩
      · have := mul_nonneg (div_pos a2 (add_pos a1 a2)).le (mul_self_nonneg (eps m (1, 3) (single 5) q))
        linarith
      · have := mul_pos (div_pos a2 (add_pos a1 a2)) (mul_self_pos.2 e0)
        linarith
  unfold energy
  refine lt_of_lt_of_le hpos (List.single_le_sum (fun x hx => ?_) _ (List.mem_map.2 ⟨(1, 3), hk, rfl⟩))
  obtain ⟨k, hk, rfl⟩ := List.mem_map.1 hx
  exact hterm k hk

/-! ### complete analyses -/

theorem withCst_form {m : Mesh} (w : WF m) (hp : Proper m) (l : ℕ → Lam) {K0 K : Mat} (hd : K.dim = 5 * m.nids.length) (h0 : K0.dim = K.dim) (v u : ℕ → ℝ) :
    form K.dim (withCst m l K0 K).get v u = cstEnergy m l v u + (form K.dim K.get v u - form K0.dim K0.get v u) := by
  rw [← cst_form w hp l v u, h0, hd]
  unfold form withCst
  simp only [← sum_sub_distrib, ← sum_add_distrib]
  refine sum_congr rfl fun i _ => sum_congr rfl fun j _ => ?_
  ring

theorem cst_stiffer {m : Mesh} (hr : Reachable m) {pn : Bool} (hg : GoodPlate m pn) {l : Lam} (hl : Homog m pn l)
    (hpos : ∀ x : Fin 6 → ℝ, 0 ≤ ∑ p, ∑ q, x p * abd l p q * x q) {method : String} {al : ℝ} {fa : Bool} {K0 K : Mat}
    (hK0 : (calcK0 m pn).2 = .ok K0) (hK : Stiffness m pn method al fa K) (d : ℕ → ℝ) :
    form K.dim K.get d d ≤ form K.dim (withCst m (fun _ => l) K0 K).get d d := by
  obtain ⟨hdim, K0', hK0', hd0, _⟩ := stiffness_energy hr hg hK
  obtain rfl : K0 = K0' := by rw [hK0] at hK0'; exact Except.ok.inj hK0'
  rw [withCst_form hr.wf hg.proper _ hdim hd0]
  have := C117_softer hr hg.proper hg.planar hK0 hl hpos d
  linarith

/-- C118: under the same loads and supports a plate of uniform laminate deflects at least as much, in the work of the loads, as it does with `k0` replaced
by the stiffness matrix of constant strain triangles -/
theorem C118_deflection {m : Mesh} (hr : Reachable m) {pn : Bool} (hg : GoodPlate m pn) {l : Lam} (hl : Homog m pn l)
    (hpos : ∀ x : Fin 6 → ℝ, 0 ≤ ∑ p, ∑ q, x p * abd l p q * x q) {method : String} {al : ℝ} (ha : 0 ≤ al) {fa : Bool} {K0 K : Mat}
    (hK0 : (calcK0 m pn).2 = .ok K0) (hK : Stiffness m pn method al fa K) {S : Set ℕ} {f d d' : ℕ → ℝ} (hd : StaticSol K S f d)
    (hd' : StaticSol (withCst m (fun _ => l) K0 K) S f d') : ∑ i ∈ range K.dim, d' i * f i ≤ ∑ i ∈ range K.dim, d i * f i :=
  work_mono (C78_symmetric hr hg hK) (fun x => (modes_total hr hg ha hK (d := x)).1) (cst_stiffer hr hg hl hpos hK0 hK) hd.1 hd.2 hd'.1 hd'.2

/-- C118: for a given pre-stress, below every positive buckling factor found with constant strain triangles there is one of the smoothed plate -/
theorem C118_buckling {m : Mesh} (hr : Reachable m) {pn : Bool} (hg : GoodPlate m pn) {l : Lam} (hl : Homog m pn l)
    (hpos : ∀ x : Fin 6 → ℝ, 0 ≤ ∑ p, ∑ q, x p * abd l p q * x q) {method : String} {al : ℝ} {fa : Bool} {K0 K G : Mat}
    (hK0 : (calcK0 m pn).2 = .ok K0) (hK : Stiffness m pn method al fa K) {S : Set ℕ} (hS : Stable K S) {d : List ℝ}
    (hG : calcKG (calcK0 m pn).1 d pn = .ok G) {c' : ℝ} (hc' : 0 < c') {x' : ℕ → ℝ} (hx' : BucklingMode (withCst m (fun _ => l) K0 K) G S c' x') :
    ∃ c, 0 < c ∧ c ≤ c' ∧ ∃ x, BucklingMode K G S c x := by
  have hsup : Supported K.dim S x' := hx'.2.1
  have h1 := mode_form hx' hx'.2.1
  change form K.dim (withCst m (fun _ => l) K0 K).get x' x' + c' * form K.dim G.get x' x' = 0 at h1
  have h2 := hS x' hsup hx'.1
  have h3 := cst_stiffer hr hg hl hpos hK0 hK x'
  have hneg : form K.dim G.get x' x' < 0 := by
    by_contra h
    push Not at h
    nlinarith
  obtain ⟨c, hc, hex, _, hle⟩ := C86_first hr hg hK hS hG hsup hneg
  refine ⟨c, hc, hle.trans ?_, hex⟩
  rw [div_le_iff₀ (by linarith)]
  linarith

/-- C118: the clamped square under a unit transverse load at node 2 deflects there at least as much as with constant strain triangles -/
example (pn : Bool) : ∃ K0 K, (calcK0 exSq pn).2 = .ok K0 ∧ Stiffness exSq pn "cell-based" (1 / 5) false K ∧ ∃ d d' : ℕ → ℝ,
    StaticSol K {x | x < 5 ∨ 15 ≤ x} (fun i => if i = 7 then 1 else 0) d ∧
    StaticSol (withCst exSq (fun _ => exIso) K0 K) {x | x < 5 ∨ 15 ≤ x} (fun i => if i = 7 then 1 else 0) d' ∧ d' 7 ≤ d 7 := by
  obtain ⟨K, hK⟩ := exSq_stiffness (Or.inl rfl) pn (1 / 5) false
  have hr := exMesh_reachable exIso exIso exIso exIso exIso exIso
  obtain ⟨K0, hK0, _⟩ := exMesh_k0 exIso exIso exIso exIso exIso exIso pn
  have hdim : K.dim = 20 := by rw [(stiffness_energy hr (exSq_good pn) hK).1, exMesh_nids]; rfl
  obtain ⟨d, hd, _⟩ := C76_static hr (exSq_good pn) (by norm_num) hK exSq_held fun i => if i = 7 then 1 else 0
  have hS := held_stable hr (exSq_good pn) (by norm_num) hK exSq_held
  have hS' : Stable (withCst exSq (fun _ => exIso) K0 K) {x | x < 5 ∨ 15 ≤ x} := fun x h1 h2 =>
    lt_of_lt_of_le (hS x h1 h2) (cst_stiffer hr (exSq_good pn) (exMesh_Homog exIso pn) exIso_psd hK0 hK x)
  obtain ⟨d', hd', _⟩ := solve_unique (withCst exSq (fun _ => exIso) K0 K).get {x | x < 5 ∨ 15 ≤ x} (n := K.dim) (fun x h1 h2 => by
    by_contra hcon
    push Not at hcon
    exact absurd h2 (hS' x h1 hcon).ne') fun i => if i = 7 then 1 else 0
  have := C118_deflection hr (exSq_good pn) (exMesh_Homog exIso pn) exIso_psd (by norm_num) hK0 hK hd hd'
  rw [hdim] at this
  exact ⟨K0, K, hK0, hK, d, d', hd, hd', by simpa using this⟩

/-- C118: the compressed square buckles with constant strain triangles, and with `calc_k0` not later -/
example : ∃ K0 K G, (calcK0 exSq false).2 = .ok K0 ∧ Stiffness exSq false "cell-based" (1 / 5) true K ∧ calcKG (calcK0 exSq false).1 exPress false = .ok G ∧
    ∃ c c' x x', 0 < c ∧ c ≤ c' ∧ BucklingMode (withCst exSq (fun _ => exIso) K0 K) G {x | x < 5 ∨ 15 ≤ x} c' x' ∧ BucklingMode K G {x | x < 5 ∨ 15 ≤ x} c x := by
  obtain ⟨K, hK⟩ := exSq_stiffness (Or.inl rfl) false (1 / 5) true
  have hr := exMesh_reachable exIso exIso exIso exIso exIso exIso
  obtain ⟨K0, hK0, _⟩ := exMesh_k0 exIso exIso exIso exIso exIso exIso false
  obtain ⟨G, hG, hw⟩ := exSq_work false (-1)
  have hS := held_stable hr (exSq_good false) (by norm_num) hK exSq_held
  have hd20 : K.dim = 20 := by rw [(stiffness_energy hr (exSq_good false) hK).1, exMesh_nids]; rfl
  have hz : Supported K.dim {x | x < 5 ∨ 15 ≤ x} exSlope := by
    intro i _ hi
    simp only [Set.mem_ofPred_eq] at hi
    unfold exSlope
    rw [if_neg]; omega
  have hS' : Stable (withCst exSq (fun _ => exIso) K0 K) {x | x < 5 ∨ 15 ≤ x} := fun x h1 h2 =>
    lt_of_lt_of_le (hS x h1 h2) (cst_stiffer hr (exSq_good false) (exMesh_Homog exIso false) exIso_psd hK0 hK x)
  have hsK := C78_symmetric hr (exSq_good false) hK
  obtain ⟨c', hc', _, _, y, hy1, hy2, hy3⟩ := first_factor (K := (withCst exSq (fun _ => exIso) K0 K).get) (n := K.dim) (G := G.get) (fun i hi j hj => by
      change cstEnergy _ _ _ _ + (_ - _) = cstEnergy _ _ _ _ + (_ - _)
      rw [cst_symm, hsK i hi j hj, C19_symmetric hr hK0 i j]) (fun i _ j _ => (C30_symmetric hG).1 i j) hS' hz (by rw [hd20, hw]; norm_num)
  obtain ⟨c, hc, hle, x, hx⟩ := C118_buckling hr (exSq_good false) (exMesh_Homog exIso false) exIso_psd hK0 hK hS hG hc' ⟨hy2, hy1, hy3⟩
  exact ⟨K0, K, G, hK0, hK, hG, c, c', x, y, hc, hle, ⟨hy2, hy1, hy3⟩, hx⟩

end Meshless
