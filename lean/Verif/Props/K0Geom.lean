import Verif.Lemmas.Example
import Verif.Lemmas.K0Form
import Verif.Spec.Smooth

/-! C13–C17: the smoothing domains and integration points stored by `calc_k0`. -/

set_option autoImplicit false

namespace Meshless
open Spec

/-- C13: after `calc_k0`, `edge.Ac` is one third of the areas of the edge's triangles, which is the area of the smoothing domain -/
theorem C13_area {m : Mesh} (hr : Reachable m) (hp : Proper m) (hg : Planar m) {pn : Bool} {K : Mat} (hK : (calcK0 m pn).2 = .ok K)
    {k : Key} (hk : k ∈ m.ekeys) :
    ((calcK0 m pn).1.edge k).Ac = some (((m.edge k).trias.map (triArea m)).sum / 3) ∧
    ((calcK0 m pn).1.edge k).Ac = some |sarea m (dom m k)| := by
  obtain ⟨hs, hq, hh, _⟩ := calcK0_ok hr.wf hK
  obtain ⟨ns, Ac, pm, hd, _, hgeo, _, hA⟩ := edgeGeo (hs.wf hr.wf) (hs.proper hp) (hs.planar hg) hq (hs.hasProps hh) (hs.ekeys.symm ▸ hk)
  refine ⟨?_, ?_⟩
  · rw [hd.hAc, hA, hs.trias, hs.striArea]
    congr 1
    generalize (m.edge k).trias = l
    induction l with
    | nil => simp
    | cons a l ih => simp only [List.map_cons, List.sum_cons, ih]; ring
  · rw [hd.hAc, hgeo.hAc, hs.ssarea, hs.sdom]

example (p : Lam) (pn : Bool) : ((calcK0 (exMesh p p p p p p) pn).1.edge (1, 2)).Ac = some (1 / 6) := by
  obtain ⟨K, hK, _⟩ := calcK0_proper (exMesh_reachable p p p p p p).wf (exMesh_proper ..) (exMesh_props p p p p p p pn) (exMesh_ne _ _ _ _ _ _)
  rw [(C13_area (exMesh_reachable ..) (exMesh_proper ..) (exMesh_planar ..) hK (k := (1, 2)) (by rw [exMesh_ekeys]; simp)).1, exMesh_e12]
  simp only [List.map_cons, List.map_nil, List.sum_cons, List.sum_nil, triArea, sarea3, exMesh_tria1, mean_single, nx, ny, exMesh_node1,
    exMesh_node2, exMesh_node3]
  norm_num

/-- sum over sides of a sum over the triangles at that side -/
theorem sum_sideTrias (tria : ℕ → Tria) (g : ℕ → ℝ) {ks : List Key} (hnd : ks.Nodup) : ∀ {es : List ℕ},
    (∀ e ∈ es, ∀ k ∈ (tria e).edgeIds, k ∈ ks) →
    (ks.map fun k => ((sideTrias tria es k).map g).sum).sum = 3 * (es.map g).sum := by
  intro es
  induction es with
  | nil => intro _; simp [sideTrias]
  | cons e es ih =>
    intro h
    have h1 : ∀ k, ((sideTrias tria (e :: es) k).map g).sum = ((tria e).edgeIds.count k : ℝ) * g e + ((sideTrias tria es k).map g).sum := by
      intro k; simp [sideTrias]
    have h2 := sum_count hnd (l := (tria e).edgeIds) (h e (by simp))
    have h3 : (ks.map fun k => ((tria e).edgeIds.count k : ℝ)).sum = 3 := by
      have h4 : (((ks.map fun k => (tria e).edgeIds.count k).sum : ℕ) : ℝ) = ((3 : ℕ) : ℝ) := by rw [h2]; rfl
      rw [Nat.cast_list_sum, List.map_map] at h4
      simpa [Function.comp_def] using h4
    simp only [h1, List.sum_map_add, List.sum_map_mul_right, h3, ih fun x hx => h x (List.mem_cons_of_mem _ hx), List.map_cons, List.sum_cons]
    ring

/-- C14: the domain areas add up to the area of the plate -/
theorem C14_partition {m : Mesh} (hr : Reachable m) (hp : Proper m) (hg : Planar m) {pn : Bool} {K : Mat}
    (hK : (calcK0 m pn).2 = .ok K) :
    ∃ Ac : Key → ℝ, (∀ k ∈ m.ekeys, ((calcK0 m pn).1.edge k).Ac = some (Ac k)) ∧ (m.ekeys.map Ac).sum = (m.eids.map (triArea m)).sum := by
  refine ⟨fun k => ((m.edge k).trias.map (triArea m)).sum / 3, fun k hk => (C13_area hr hp hg hK hk).1, ?_⟩
  have w := hr.wf
  have h := sum_sideTrias m.tria (triArea m) w.ekeys_nodup (es := m.eids) (fun e he k hk => (w.mem_ekeys k).2 ⟨e, he, hk⟩)
  have h' : (m.ekeys.map fun k => ((m.edge k).trias.map (triArea m)).sum / 3) =
      (m.ekeys.map fun k => ((sideTrias m.tria m.eids k).map (triArea m)).sum * (1 / 3)) :=
    List.map_congr_left fun k hk => by rw [w.etrias k hk]; ring
  rw [h', List.sum_map_mul_right, h]; ring

example (p : Lam) : ∃ K, (calcK0 (exMesh p p p p p p) true).2 = .ok K ∧
    ∃ Ac : Key → ℝ, (∀ k ∈ (exMesh p p p p p p).ekeys, ((calcK0 (exMesh p p p p p p) true).1.edge k).Ac = some (Ac k)) ∧
      Ac (1, 2) + Ac (2, 3) + Ac (1, 3) + Ac (3, 4) + Ac (1, 4) = 1 := by
  obtain ⟨K, hK, _⟩ := calcK0_proper (exMesh_reachable p p p p p p).wf (exMesh_proper ..) (exMesh_props p p p p p p true) (exMesh_ne _ _ _ _ _ _)
  obtain ⟨Ac, h1, h2⟩ := C14_partition (exMesh_reachable ..) (exMesh_proper ..) (exMesh_planar ..) hK
  refine ⟨K, hK, Ac, h1, ?_⟩
  rw [exMesh_ekeys, exMesh_eids] at h2
  simp only [List.map_cons, List.map_nil, List.sum_cons, List.sum_nil, triArea, sarea3, exMesh_tria1, exMesh_tria2, mean_single, nx, ny,
    exMesh_node1, exMesh_node2, exMesh_node3, exMesh_node4] at h2
  norm_num at h2
  linarith

/-- C15: on a flat mesh the boundary of every smoothing domain closes: `Σ le * n = 0` -/
theorem C15_closed {m : Mesh} (hr : Reachable m) (hp : Proper m) (hb : ∀ i ∈ m.nids, (m.node i).cp (m.node i).xyz = (m.node i).xyz)
    (hz : ∀ i ∈ m.nids, ∀ j ∈ m.nids, (m.node i).xyz.z = (m.node j).xyz.z) {pn : Bool} {K : Mat} (hK : (calcK0 m pn).2 = .ok K)
    {k : Key} (hk : k ∈ m.ekeys) :
    (((calcK0 m pn).1.edge k).ipts.map fun p => p.le * p.nx).sum = 0 ∧
    (((calcK0 m pn).1.edge k).ipts.map fun p => p.le * p.ny).sum = 0 := by
  obtain ⟨hs, hq, hh, _⟩ := calcK0_ok hr.wf hK
  set m2 := (calcK0 m pn).1
  have hb2 : ∀ i ∈ m2.nids, (m2.node i).cp (m2.node i).xyz = (m2.node i).xyz := by
    intro i hi; rw [hs.cp, hs.xyz]; exact hb i (hs.nids ▸ hi)
  have hz2 : ∀ i ∈ m2.nids, ∀ j ∈ m2.nids, (m2.node i).xyz.z = (m2.node j).xyz.z := by
    intro i hi j hj; rw [hs.xyz, hs.xyz]; exact hz i (hs.nids ▸ hi) j (hs.nids ▸ hj)
  rcases prepared_shape (hs.wf hr.wf) (hs.proper hp) hq (hs.ekeys.symm ▸ hk) with ⟨t, o, he, hsd⟩ | ⟨t1, t2, o1, o2, he, s1, s2, _, _⟩
  · obtain ⟨_, _, m3⟩ := mid_eq hb2 hsd
    have z1 := hz2 _ hsd.ina _ hsd.inb
    have z2 := hz2 _ hsd.ina _ hsd.ino
    have gen : ∀ a b : ℕ, (a = k.1 ∧ b = k.2) ∨ (a = k.2 ∧ b = k.1) →
        ((iptsA m2 t a b o ++ iptsB m2 t a b o).map fun p => p.le * p.nx).sum = 0 ∧
        ((iptsA m2 t a b o ++ iptsB m2 t a b o).map fun p => p.le * p.ny).sum = 0 := by
      intro a b hab
      have za : (m2.node a).xyz.z = (m2.mid t).z := by
        rw [m3]; rcases hab with ⟨rfl, rfl⟩ | ⟨rfl, rfl⟩ <;> linarith
      have zb : (m2.node b).xyz.z = (m2.mid t).z := by
        rw [m3]; rcases hab with ⟨rfl, rfl⟩ | ⟨rfl, rfl⟩ <;> linarith
      obtain ⟨p1, p2, _⟩ := seg_normal (t := (m2.node a).xyz.sub (m2.mid t)) (by simp [Vec3.sub, za])
      obtain ⟨q1, q2, _⟩ := seg_normal (t := (m2.mid t).sub (m2.node b).xyz) (by simp [Vec3.sub, zb])
      obtain ⟨r1, r2, _⟩ := seg_normal (t := (m2.node b).xyz.sub (m2.node a).xyz) (by simp [Vec3.sub, za, zb])
      simp only [iptsA, iptsB, mkIPt, List.cons_append, List.nil_append, List.map_cons, List.map_nil, List.sum_cons, List.sum_nil]
      rw [p1, p2, q1, q2, r1, r2]
      simp only [Vec3.sub]
      constructor <;> ring
    rw [he]
    rcases orient_cases m2 (m2.mid t) k.1 k.2 with h | h <;> simp only [bEdge, h]
    · exact gen _ _ (Or.inl ⟨rfl, rfl⟩)
    · exact gen _ _ (Or.inr ⟨rfl, rfl⟩)
  · obtain ⟨_, _, m3⟩ := mid_eq hb2 s1
    obtain ⟨_, _, n3⟩ := mid_eq hb2 s2
    have z1 := hz2 _ s1.ina _ s1.inb
    have z2 := hz2 _ s1.ina _ s1.ino
    have z3 := hz2 _ s2.ina _ s2.ino
    have gen : ∀ a b : ℕ, (a = k.1 ∧ b = k.2) ∨ (a = k.2 ∧ b = k.1) →
        ((iptsA m2 t1 a b o1 ++ iptsI m2 t2 a b o2).map fun p => p.le * p.nx).sum = 0 ∧
        ((iptsA m2 t1 a b o1 ++ iptsI m2 t2 a b o2).map fun p => p.le * p.ny).sum = 0 := by
      intro a b hab
      have za : (m2.node a).xyz.z = (m2.mid t1).z := by
        rw [m3]; rcases hab with ⟨rfl, rfl⟩ | ⟨rfl, rfl⟩ <;> linarith
      have zb : (m2.node b).xyz.z = (m2.mid t1).z := by
        rw [m3]; rcases hab with ⟨rfl, rfl⟩ | ⟨rfl, rfl⟩ <;> linarith
      have zc : (m2.mid t2).z = (m2.mid t1).z := by rw [m3, n3]; linarith
      obtain ⟨p1, p2, _⟩ := seg_normal (t := (m2.node a).xyz.sub (m2.mid t1)) (by simp [Vec3.sub, za])
      obtain ⟨q1, q2, _⟩ := seg_normal (t := (m2.mid t1).sub (m2.node b).xyz) (by simp [Vec3.sub, zb])
      obtain ⟨r1, r2, _⟩ := seg_normal (t := (m2.node b).xyz.sub (m2.mid t2)) (by simp [Vec3.sub, zc, zb])
      obtain ⟨u1, u2, _⟩ := seg_normal (t := (m2.mid t2).sub (m2.node a).xyz) (by simp [Vec3.sub, zc, za])
      simp only [iptsA, iptsI, mkIPt, List.cons_append, List.nil_append, List.map_cons, List.map_nil, List.sum_cons, List.sum_nil]
      rw [p1, p2, q1, q2, r1, r2, u1, u2]
      simp only [Vec3.sub]
      constructor <;> ring
    rw [he]
    rcases orient_cases m2 (m2.mid t1) k.1 k.2 with h | h <;> simp only [iEdge, h]
    · exact gen _ _ (Or.inl ⟨rfl, rfl⟩)
    · exact gen _ _ (Or.inr ⟨rfl, rfl⟩)

example (p : Lam) : ∃ K, (calcK0 (exMesh p p p p p p) true).2 = .ok K ∧
    (((calcK0 (exMesh p p p p p p) true).1.edge (1, 3)).ipts.map fun p => p.le * p.nx).sum = 0 := by
  obtain ⟨K, hK, _⟩ := calcK0_proper (exMesh_reachable p p p p p p).wf (exMesh_proper ..) (exMesh_props p p p p p p true) (exMesh_ne _ _ _ _ _ _)
  exact ⟨K, hK, (C15_closed (exMesh_reachable ..) (exMesh_proper ..) (exMesh_planar p p p p p p).basic (exMesh_planar p p p p p p).flat hK
    (k := (1, 3)) (by rw [exMesh_ekeys]; simp)).1⟩

/-! ### C16, C17 -/

theorem forall2_mem {α β : Type} {R : α → β → Prop} {l : List α} {l' : List β} (h : List.Forall₂ R l l') {a : α} (ha : a ∈ l) :
    ∃ b ∈ l', R a b := by
  induction h with
  | nil => simp at ha
  | cons h1 _ ih =>
    rcases List.mem_cons.1 ha with rfl | ha
    · exact ⟨_, by simp, h1⟩
    · obtain ⟨b, hb, hr⟩ := ih ha
      exact ⟨b, List.mem_cons_of_mem _ hb, hr⟩

/-- unit normal of a non-zero horizontal segment -/
theorem seg_facts {v : Vec3} (hz : v.z = 0) (h0 : v.x ^ 2 + v.y ^ 2 ≠ 0) :
    v.norm = Real.sqrt (v.x ^ 2 + v.y ^ 2) ∧ (segNormal v).x ^ 2 + (segNormal v).y ^ 2 = 1 ∧ (segNormal v).z = 0 ∧
    (segNormal v).x * v.x + (segNormal v).y * v.y = 0 ∧
    ∀ dx dy : ℝ, v.y * dx - v.x * dy < 0 → (segNormal v).x * dx + (segNormal v).y * dy < 0 := by
  have hn : v.norm = Real.sqrt (v.x ^ 2 + v.y ^ 2) := by unfold Vec3.norm; rw [hz]; congr 1; ring
  obtain ⟨h1, h2, h3⟩ := seg_normal hz
  have hpos : 0 < v.x ^ 2 + v.y ^ 2 := lt_of_le_of_ne (by positivity) (Ne.symm h0)
  have hnp : 0 < v.norm := by rw [hn]; exact Real.sqrt_pos.2 hpos
  have hsq : v.norm ^ 2 = v.x ^ 2 + v.y ^ 2 := by rw [hn]; exact Real.sq_sqrt hpos.le
  refine ⟨hn, ?_, h3, ?_, ?_⟩
  · have : v.norm ^ 2 * ((segNormal v).x ^ 2 + (segNormal v).y ^ 2) = v.norm ^ 2 * 1 := by
      have : v.norm ^ 2 * ((segNormal v).x ^ 2 + (segNormal v).y ^ 2) = (v.norm * (segNormal v).x) ^ 2 + (v.norm * (segNormal v).y) ^ 2 := by ring
      rw [this, h1, h2, hsq]; ring
    exact mul_left_cancel₀ (by positivity) this
  · have : v.norm * ((segNormal v).x * v.x + (segNormal v).y * v.y) = v.norm * 0 := by
      have : v.norm * ((segNormal v).x * v.x + (segNormal v).y * v.y) = (v.norm * (segNormal v).x) * v.x + (v.norm * (segNormal v).y) * v.y := by ring
      rw [this, h1, h2]; ring
    exact mul_left_cancel₀ hnp.ne' this
  · intro dx dy hd
    have : v.norm * ((segNormal v).x * dx + (segNormal v).y * dy) = v.y * dx - v.x * dy := by
      have : v.norm * ((segNormal v).x * dx + (segNormal v).y * dy) = (v.norm * (segNormal v).x) * dx + (v.norm * (segNormal v).y) * dy := by ring
      rw [this, h1, h2]; ring
    rw [← this] at hd
    exact (pos_iff_neg_of_mul_neg hd).1 hnp

theorem isIPt_flip {m : Mesh} {p : IPt} {A B C : List ℕ} (h : IsIPt m p A B C) : IsIPt m p B A C := by
  obtain ⟨h1, h2, h3, h4, h5, h6, h7, h8, h9, h10, h11, h12⟩ := h
  exact ⟨by rw [h1]; ring, by rw [h2]; ring, by rw [h3]; ring, by rw [h4]; congr 1; ring, h5, h6, by linarith, h8, h9, h10, h11,
    fun f => by rw [h12]; ring⟩

/-- A point built by `IntegrationPoint` on the segment from `B` to `A` (vector `v = A - B`), `C` to its left as seen along `v`. -/
theorem isIPt_mk {m : Mesh} {t n1 n2 n3 : ℕ} {f1 f2 f3 : ℝ} {v : Vec3} {A B C : List ℕ}
    (hx : v.x = mean (nx m) A - mean (nx m) B) (hy : v.y = mean (ny m) A - mean (ny m) B) (hz : v.z = 0)
    (hcross : v.y * (mean (nx m) C - (mean (nx m) A + mean (nx m) B) / 2) - v.x * (mean (ny m) C - (mean (ny m) A + mean (ny m) B) / 2) < 0)
    (hf : 0 ≤ f1 ∧ 0 ≤ f2 ∧ 0 ≤ f3) (h1 : f1 + f2 + f3 = 1) (ht : t ∈ m.eids ∧ [n1, n2, n3].Perm (corners m t))
    (hfield : ∀ f : ℕ → ℝ, f1 * f n1 + f2 * f n2 + f3 * f n3 = (mean f A + mean f B) / 2) :
    IsIPt m (mkIPt m t n1 n2 n3 f1 f2 f3 (segNormal v) v.norm) A B C := by
  have h0 : v.x ^ 2 + v.y ^ 2 ≠ 0 := by
    intro h
    have e1 : v.x = 0 := by nlinarith [sq_nonneg v.x, sq_nonneg v.y]
    have e2 : v.y = 0 := by nlinarith [sq_nonneg v.x, sq_nonneg v.y]
    rw [e1, e2] at hcross
    simp at hcross
  obtain ⟨a1, a2, a3, a4, a5⟩ := seg_facts hz h0
  have hX := hfield (nx m)
  have hY := hfield (ny m)
  have hZ := hfield (nz m)
  refine ⟨hX, hY, hZ, ?_, a2, a3, ?_, ?_, hf, h1, ht, hfield⟩
  · show v.norm = _
    rw [a1, hx, hy]; congr 1; ring
  · show (segNormal v).x * _ + (segNormal v).y * _ = 0
    rw [hx, hy] at a4
    linarith
  · refine a5 _ _ ?_
    have ex : (mkIPt m t n1 n2 n3 f1 f2 f3 (segNormal v) v.norm).xyz.x = (mean (nx m) A + mean (nx m) B) / 2 := hX
    have ey : (mkIPt m t n1 n2 n3 f1 f2 f3 (segNormal v) v.norm).xyz.y = (mean (ny m) A + mean (ny m) B) / 2 := hY
    rw [ex, ey]
    exact hcross

section shapes
variable {m : Mesh} (hb : ∀ i ∈ m.nids, (m.node i).cp (m.node i).xyz = (m.node i).xyz)
  (hz : ∀ i ∈ m.nids, ∀ j ∈ m.nids, (m.node i).xyz.z = (m.node j).xyz.z) {k : Key} {a b : ℕ} (hab : (a = k.1 ∧ b = k.2) ∨ (a = k.2 ∧ b = k.1))
include hb hz hab

theorem side_ab {t o : ℕ} (hs : Side m t k o) : (∀ f : ℕ → ℝ, mean f (corners m t) = (f a + f b + f o) / 3) ∧
    (m.mid t).x = (nx m a + nx m b + nx m o) / 3 ∧ (m.mid t).y = (ny m a + ny m b + ny m o) / 3 ∧
    (m.node a).xyz.z = (m.mid t).z ∧ (m.node b).xyz.z = (m.mid t).z ∧ [a, b, o].Perm (corners m t) := by
  obtain ⟨m1, m2, m3⟩ := mid_eq hb hs
  have z1 := hz _ hs.ina _ hs.inb
  have z2 := hz _ hs.ina _ hs.ino
  have hpm : [k.1, k.2, o].Perm (corners m t) := hs.perm.symm
  rcases hab with ⟨rfl, rfl⟩ | ⟨rfl, rfl⟩
  · exact ⟨fun f => mean_corners hs f, m1, m2, by rw [m3]; linarith, by rw [m3]; linarith, hpm⟩
  · exact ⟨fun f => by rw [mean_corners hs f]; ring, by rw [m1]; ring, by rw [m2]; ring, by rw [m3]; linarith, by rw [m3]; linarith,
      (List.Perm.swap ..).trans hpm⟩

theorem iptsA_ok {t o : ℕ} (hs : Side m t k o)
    (hc : 0 < ((m.mid t).x - nx m b) * (ny m a - ny m b) - ((m.mid t).y - ny m b) * (nx m a - nx m b)) :
    List.Forall₂ (fun p s => IsIPt m p s.1 s.2.1 s.2.2) (iptsA m t a b o) [([a], corners m t, [b]), (corners m t, [b], [a])] := by
  obtain ⟨h1, h2, h3, h4, h5, h6⟩ := side_ab hb hz hab hs
  refine .cons ?_ (.cons ?_ .nil)
  · refine isIPt_mk ?_ ?_ ?_ ?_ (by norm_num) (by norm_num) ⟨hs.mem, h6⟩ ?_
    · simp only [Vec3.sub, mean_single, h1, h2, nx]
    · simp only [Vec3.sub, mean_single, h1, h3, ny]
    · simp only [Vec3.sub, h4, sub_self]
    · simp only [Vec3.sub, mean_single, h1, h2, h3, nx, ny] at hc ⊢
      nlinarith [hc]
    · intro f; rw [h1, mean_single]; ring
  · refine isIPt_mk ?_ ?_ ?_ ?_ (by norm_num) (by norm_num) ⟨hs.mem, h6⟩ ?_
    · simp only [Vec3.sub, mean_single, h1, h2, nx]
    · simp only [Vec3.sub, mean_single, h1, h3, ny]
    · simp only [Vec3.sub, h5, sub_self]
    · simp only [Vec3.sub, mean_single, h1, h2, h3, nx, ny] at hc ⊢
      nlinarith [hc]
    · intro f; rw [h1, mean_single]; ring

theorem iptsB_ok {t o : ℕ} (hs : Side m t k o)
    (hc : 0 < ((m.mid t).x - nx m b) * (ny m a - ny m b) - ((m.mid t).y - ny m b) * (nx m a - nx m b)) :
    List.Forall₂ (fun p s => IsIPt m p s.1 s.2.1 s.2.2) (iptsB m t a b o) [([b], [a], corners m t)] := by
  obtain ⟨h1, h2, h3, h4, h5, h6⟩ := side_ab hb hz hab hs
  refine .cons ?_ .nil
  refine isIPt_mk ?_ ?_ ?_ ?_ (by norm_num) (by norm_num) ⟨hs.mem, h6⟩ ?_
  · simp only [Vec3.sub, mean_single, nx]
  · simp only [Vec3.sub, mean_single, ny]
  · simp only [Vec3.sub, h4, h5, sub_self]
  · simp only [Vec3.sub, mean_single, h1, h2, h3, nx, ny] at hc ⊢
    nlinarith [hc]
  · intro f; rw [mean_single, mean_single]; ring

theorem iptsI_ok {t o : ℕ} (hs : Side m t k o)
    (hc : ((m.mid t).x - nx m b) * (ny m a - ny m b) - ((m.mid t).y - ny m b) * (nx m a - nx m b) < 0) :
    List.Forall₂ (fun p s => IsIPt m p s.1 s.2.1 s.2.2) (iptsI m t a b o) [([b], corners m t, [a]), (corners m t, [a], [b])] := by
  obtain ⟨h1, h2, h3, h4, h5, h6⟩ := side_ab hb hz hab hs
  refine .cons ?_ (.cons ?_ .nil)
  · refine isIPt_mk ?_ ?_ ?_ ?_ (by norm_num) (by norm_num) ⟨hs.mem, h6⟩ ?_
    · simp only [Vec3.sub, mean_single, h1, h2, nx]
    · simp only [Vec3.sub, mean_single, h1, h3, ny]
    · simp only [Vec3.sub, h5, sub_self]
    · simp only [Vec3.sub, mean_single, h1, h2, h3, nx, ny] at hc ⊢
      nlinarith [hc]
    · intro f; rw [h1, mean_single]; ring
  · refine isIPt_mk ?_ ?_ ?_ ?_ (by norm_num) (by norm_num) ⟨hs.mem, h6⟩ ?_
    · simp only [Vec3.sub, mean_single, h1, h2, nx]
    · simp only [Vec3.sub, mean_single, h1, h3, ny]
    · simp only [Vec3.sub, h4, sub_self]
    · simp only [Vec3.sub, mean_single, h1, h2, h3, nx, ny] at hc ⊢
      nlinarith [hc]
    · intro f; rw [h1, mean_single]; ring

end shapes

/-- the integration points of a prepared proper planar mesh -/
theorem ipts_ok {m : Mesh} (w : WF m) (hp : Proper m) (hg : Planar m) (hq : Prepared m) {k : Key} (hk : k ∈ m.ekeys) :
    ∃ L, L.Perm (segs m k) ∧ List.Forall₂ (fun p s => IsIPt m p s.1 s.2.1 s.2.2) (m.edge k).ipts L := by
  have crossA : ∀ {t o : ℕ} (_ : Side m t k o), sarea m [[k.1], [k.2], corners m t] =
      (((m.mid t).x - nx m k.2) * (ny m k.1 - ny m k.2) - ((m.mid t).y - ny m k.2) * (nx m k.1 - nx m k.2)) / 2 := by
    intro t o hs
    obtain ⟨m1, m2, _⟩ := mid_eq hg.basic hs
    rw [sarea3, mean_corners hs, mean_corners hs, ← m1, ← m2]
    simp only [mean_single]; ring
  rcases prepared_shape w hp hq hk with ⟨t, o, he, hs⟩ | ⟨t1, t2, o1, o2, he, hs1, hs2, ho, _⟩
  · have htr : (m.edge k).trias = [t] := by rw [he]; rfl
    have hsg : segs m k = [([k.1], corners m t, [k.2]), (corners m t, [k.2], [k.1]), ([k.2], [k.1], corners m t)] := by simp [segs, htr]
    have hA := triArea_side hs
    have hA0 : triArea m t ≠ 0 := abs_ne_zero.2 (hg.nondeg t hs.mem)
    have hne : ((m.mid t).x - nx m k.2) * (ny m k.1 - ny m k.2) - ((m.mid t).y - ny m k.2) * (nx m k.1 - nx m k.2) ≠ 0 := by
      intro h0
      rw [crossA hs, h0] at hA
      simp at hA
      exact hA0 (by linarith)
    have hip : (m.edge k).ipts = iptsA m t (orient m (m.mid t) k.1 k.2).1 (orient m (m.mid t) k.1 k.2).2 o
        ++ iptsB m t (orient m (m.mid t) k.1 k.2).1 (orient m (m.mid t) k.1 k.2).2 o := by rw [he]; rfl
    rw [hip, hsg]
    rcases orient_spec m (m.mid t) k.1 k.2 with ⟨e1, e2⟩ | ⟨e1, e2⟩ <;> rw [e1]
    · have hc := lt_of_le_of_ne e2 (Ne.symm hne)
      have f1 := iptsA_ok hg.basic hg.flat (Or.inl ⟨rfl, rfl⟩) hs hc
      have f2 := iptsB_ok hg.basic hg.flat (Or.inl ⟨rfl, rfl⟩) hs hc
      exact ⟨_, List.Perm.refl _, List.rel_append f1 f2⟩
    · have hc : 0 < ((m.mid t).x - nx m k.1) * (ny m k.2 - ny m k.1) - ((m.mid t).y - ny m k.1) * (nx m k.2 - nx m k.1) := by
        nlinarith [e2]
      obtain _ | ⟨f1, _ | ⟨f2, _⟩⟩ := iptsA_ok hg.basic hg.flat (Or.inr ⟨rfl, rfl⟩) hs hc
      obtain _ | ⟨f3, _⟩ := iptsB_ok hg.basic hg.flat (Or.inr ⟨rfl, rfl⟩) hs hc
      exact ⟨[(corners m t, [k.2], [k.1]), ([k.1], corners m t, [k.2]), ([k.2], [k.1], corners m t)], List.Perm.swap ..,
        .cons (isIPt_flip f1) (.cons (isIPt_flip f2) (.cons (isIPt_flip f3) .nil))⟩
  · have htr : (m.edge k).trias = [t1, t2] := by rw [he]; rfl
    have hsg : segs m k = [([k.1], corners m t1, [k.2]), (corners m t1, [k.2], [k.1]), ([k.2], corners m t2, [k.1]),
      (corners m t2, [k.1], [k.2])] := by simp [segs, htr]
    have hop := hg.opposite k hk t1 t2 htr
    rw [crossA hs1, crossA hs2] at hop
    have hip : (m.edge k).ipts = iptsA m t1 (orient m (m.mid t1) k.1 k.2).1 (orient m (m.mid t1) k.1 k.2).2 o1
        ++ iptsI m t2 (orient m (m.mid t1) k.1 k.2).1 (orient m (m.mid t1) k.1 k.2).2 o2 := by rw [he]; rfl
    rw [hip, hsg]
    rcases orient_spec m (m.mid t1) k.1 k.2 with ⟨e1, e2⟩ | ⟨e1, e2⟩ <;> rw [e1]
    · have hc := lt_of_le_of_ne e2 (by rintro h0; rw [← h0] at hop; simp at hop)
      have hc2 : ((m.mid t2).x - nx m k.2) * (ny m k.1 - ny m k.2) - ((m.mid t2).y - ny m k.2) * (nx m k.1 - nx m k.2) < 0 := by
        by_contra hcon; nlinarith [mul_nonneg hc.le (not_lt.1 hcon)]
      have f1 := iptsA_ok hg.basic hg.flat (Or.inl ⟨rfl, rfl⟩) hs1 hc
      have f2 := iptsI_ok hg.basic hg.flat (Or.inl ⟨rfl, rfl⟩) hs2 hc2
      exact ⟨_, List.Perm.refl _, List.rel_append f1 f2⟩
    · have hc2' : 0 < ((m.mid t2).x - nx m k.2) * (ny m k.1 - ny m k.2) - ((m.mid t2).y - ny m k.2) * (nx m k.1 - nx m k.2) := by
        by_contra hcon; nlinarith [mul_nonneg_of_nonpos_of_nonpos e2.le (not_lt.1 hcon)]
      have hc : 0 < ((m.mid t1).x - nx m k.1) * (ny m k.2 - ny m k.1) - ((m.mid t1).y - ny m k.1) * (nx m k.2 - nx m k.1) := by
        nlinarith [e2]
      have hc2 : ((m.mid t2).x - nx m k.1) * (ny m k.2 - ny m k.1) - ((m.mid t2).y - ny m k.1) * (nx m k.2 - nx m k.1) < 0 := by
        nlinarith [hc2']
      obtain _ | ⟨f1, _ | ⟨f2, _⟩⟩ := iptsA_ok hg.basic hg.flat (Or.inr ⟨rfl, rfl⟩) hs1 hc
      obtain _ | ⟨f3, _ | ⟨f4, _⟩⟩ := iptsI_ok hg.basic hg.flat (Or.inr ⟨rfl, rfl⟩) hs2 hc2
      exact ⟨[(corners m t1, [k.2], [k.1]), ([k.1], corners m t1, [k.2]), (corners m t2, [k.1], [k.2]), ([k.2], corners m t2, [k.1])],
        (List.Perm.swap ..).trans ((List.Perm.cons _ (List.Perm.cons _ (List.Perm.swap ..)))),
        .cons (isIPt_flip f1) (.cons (isIPt_flip f2) (.cons (isIPt_flip f3) (.cons (isIPt_flip f4) .nil)))⟩

/-- C16, C17: after `calc_k0` on a proper planar mesh the integration points of every edge correspond one-to-one to the sides of its
smoothing domain; each is the midpoint of its side, with the side's length, the outward unit normal, and convex weights on the
corners of its triangle that reproduce every field linear on the side. -/
theorem C16_C17_points {m : Mesh} (hr : Reachable m) (hp : Proper m) (hg : Planar m) {pn : Bool} {K : Mat} (hK : (calcK0 m pn).2 = .ok K)
    {k : Key} (hk : k ∈ m.ekeys) :
    ∃ L, L.Perm (segs m k) ∧ List.Forall₂ (fun p s => IsIPt m p s.1 s.2.1 s.2.2) ((calcK0 m pn).1.edge k).ipts L := by
  obtain ⟨hs, hq, hh, _⟩ := calcK0_ok hr.wf hK
  obtain ⟨L, h1, h2⟩ := ipts_ok (hs.wf hr.wf) (hs.proper hp) (hs.planar hg) hq (hs.ekeys.symm ▸ hk)
  refine ⟨L, ?_, ?_⟩
  · rwa [show segs (calcK0 m pn).1 k = segs m k by unfold segs; rw [hs.trias, hs.scorners]] at h1
  · refine h2.imp fun p s hps => ?_
    obtain ⟨a1, a2, a3, a4, a5, a6, a7, a8, a9, a10, a11, a12⟩ := hps
    have hnz : Spec.nz (calcK0 m pn).1 = Spec.nz m := by funext i; simp [Spec.nz, hs.xyz]
    rw [hs.snx] at a1 a4 a7 a8
    rw [hs.sny] at a2 a4 a7 a8
    rw [hnz] at a3
    rw [hs.eids, hs.scorners] at a11
    exact ⟨a1, a2, a3, a4, a5, a6, a7, a8, a9, a10, a11, a12⟩

/-- C16: outward unit normals -/
theorem C16_normals {m : Mesh} (hr : Reachable m) (hp : Proper m) (hg : Planar m) {pn : Bool} {K : Mat} (hK : (calcK0 m pn).2 = .ok K)
    {k : Key} (hk : k ∈ m.ekeys) {p : IPt} (h : p ∈ ((calcK0 m pn).1.edge k).ipts) :
    p.nx ^ 2 + p.ny ^ 2 = 1 ∧ p.nz = 0 ∧ ∃ A B C, (A, B, C) ∈ segs m k ∧
      p.nx * (mean (nx m) B - mean (nx m) A) + p.ny * (mean (ny m) B - mean (ny m) A) = 0 ∧
      p.nx * (mean (nx m) C - p.xyz.x) + p.ny * (mean (ny m) C - p.xyz.y) < 0 := by
  obtain ⟨L, h1, h2⟩ := C16_C17_points hr hp hg hK hk
  obtain ⟨⟨A, B, C⟩, hs, hps⟩ := forall2_mem h2 h
  exact ⟨hps.unit, hps.flat, A, B, C, h1.mem_iff.1 hs, hps.perp, hps.out⟩

/-- C17: midpoints, lengths and weights -/
theorem C17_midpoints {m : Mesh} (hr : Reachable m) (hp : Proper m) (hg : Planar m) {pn : Bool} {K : Mat} (hK : (calcK0 m pn).2 = .ok K)
    {k : Key} (hk : k ∈ m.ekeys) {p : IPt} (h : p ∈ ((calcK0 m pn).1.edge k).ipts) :
    (0 ≤ p.f1 ∧ 0 ≤ p.f2 ∧ 0 ≤ p.f3) ∧ p.f1 + p.f2 + p.f3 = 1 ∧ ∃ A B, (A, B) ∈ sides (dom m k) ∧
      p.xyz.x = (mean (nx m) A + mean (nx m) B) / 2 ∧ p.xyz.y = (mean (ny m) A + mean (ny m) B) / 2 ∧
      p.le = Real.sqrt ((mean (nx m) B - mean (nx m) A) ^ 2 + (mean (ny m) B - mean (ny m) A) ^ 2) := by
  obtain ⟨L, h1, h2⟩ := C16_C17_points hr hp hg hK hk
  obtain ⟨⟨A, B, C⟩, hs, hps⟩ := forall2_mem h2 h
  refine ⟨hps.nonneg, hps.one, A, B, ?_, hps.midx, hps.midy, hps.len⟩
  rw [← segs_sides]
  exact List.mem_map.2 ⟨(A, B, C), h1.mem_iff.1 hs, rfl⟩

/-- concrete case: the four integration points of the diagonal -/
example (p : Lam) : ∃ K, (calcK0 (exMesh p p p p p p) true).2 = .ok K ∧
    ((calcK0 (exMesh p p p p p p) true).1.edge (1, 3)).ipts.length = 4 := by
  obtain ⟨K, hK, _⟩ := calcK0_proper (exMesh_reachable p p p p p p).wf (exMesh_proper ..) (exMesh_props p p p p p p true) (exMesh_ne _ _ _ _ _ _)
  obtain ⟨L, h1, h2⟩ := C16_C17_points (exMesh_reachable ..) (exMesh_proper ..) (exMesh_planar ..) hK (k := (1, 3)) (by rw [exMesh_ekeys]; simp)
  refine ⟨K, hK, ?_⟩
  rw [h2.length_eq, h1.length_eq]
  simp [segs, exMesh_e13]

end Meshless
