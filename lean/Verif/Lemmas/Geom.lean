import Verif.Lemmas.K0Edge
import Verif.Lemmas.Utils
import Mathlib.Tactic.FieldSimp
import Mathlib.Tactic.LinearCombination
import Mathlib.Tactic.Positivity

set_option autoImplicit false

namespace Meshless
open Spec

theorem perm2_cases {x y a b : ℕ} (h : [x, y].Perm [a, b]) : (a = x ∧ b = y) ∨ (a = y ∧ b = x) := by
  have ha : a ∈ [x, y] := h.mem_iff.2 (by simp)
  simp only [List.mem_cons, List.not_mem_nil, or_false] at ha
  rcases ha with rfl | rfl
  · have := (List.perm_cons _).1 h
    left; exact ⟨rfl, by simpa using this.symm⟩
  · have := (List.perm_cons _).1 ((List.Perm.swap x a []).trans h)
    right; exact ⟨rfl, by simpa using this.symm⟩

theorem perm3_cases {x y z a b c : ℕ} (h : [x, y, z].Perm [a, b, c]) :
    (a = x ∧ b = y ∧ c = z) ∨ (a = x ∧ b = z ∧ c = y) ∨ (a = y ∧ b = x ∧ c = z) ∨ (a = y ∧ b = z ∧ c = x) ∨
    (a = z ∧ b = x ∧ c = y) ∨ (a = z ∧ b = y ∧ c = x) := by
  have ha : a ∈ [x, y, z] := h.mem_iff.2 (by simp)
  simp only [List.mem_cons, List.not_mem_nil, or_false] at ha
  rcases ha with rfl | rfl | rfl
  · rcases perm2_cases ((List.perm_cons _).1 h) with ⟨rfl, rfl⟩ | ⟨rfl, rfl⟩ <;> simp
  · rcases perm2_cases ((List.perm_cons _).1 ((List.Perm.swap x a [z]).trans h)) with ⟨rfl, rfl⟩ | ⟨rfl, rfl⟩ <;> simp
  · have h1 : [a, x, y].Perm [x, y, a] := List.perm_append_comm (l₁ := [a]) (l₂ := [x, y])
    rcases perm2_cases ((List.perm_cons _).1 (h1.trans h)) with ⟨rfl, rfl⟩ | ⟨rfl, rfl⟩ <;> simp

theorem mean_single (f : ℕ → ℝ) (i : ℕ) : mean f [i] = f i := by simp [mean]

theorem mean_corners {m : Mesh} {t o : ℕ} {k : Key} (hs : Side m t k o) (f : ℕ → ℝ) :
    mean f (corners m t) = (f k.1 + f k.2 + f o) / 3 := by
  have h := (hs.perm.map f).sum_eq
  simp only [Mesh.triaNodes, List.map_cons, List.map_nil, List.sum_cons, List.sum_nil, add_zero] at h
  simp only [mean, corners, List.map_cons, List.map_nil, List.sum_cons, List.sum_nil, add_zero, List.length_cons, List.length_nil]
  rw [h]
  push_cast
  ring

section poly
variable (m : Mesh) (A B C D : List ℕ) (f : ℕ → ℝ)

theorem sarea3 : sarea m [A, B, C] = ((mean (nx m) B - mean (nx m) A) * (mean (ny m) C - mean (ny m) A)
    - (mean (nx m) C - mean (nx m) A) * (mean (ny m) B - mean (ny m) A)) / 2 := by
  simp only [sarea, show sides [A, B, C] = [(A, B), (B, C), (C, A)] from rfl, List.map_cons, List.map_nil, List.sum_cons, List.sum_nil]
  ring

theorem sarea4 : sarea m [A, B, C, D] = sarea m [A, B, C] + sarea m [A, C, D] := by
  simp only [sarea, show sides [A, B, C] = [(A, B), (B, C), (C, A)] from rfl, show sides [A, C, D] = [(A, C), (C, D), (D, A)] from rfl,
    show sides [A, B, C, D] = [(A, B), (B, C), (C, D), (D, A)] from rfl, List.map_cons, List.map_nil, List.sum_cons, List.sum_nil]
  ring

theorem circDy3 : circDy m [A, B, C] f = (mean f A + mean f B) / 2 * (mean (ny m) B - mean (ny m) A)
    + (mean f B + mean f C) / 2 * (mean (ny m) C - mean (ny m) B) + (mean f C + mean f A) / 2 * (mean (ny m) A - mean (ny m) C) := by
  simp only [circDy, show sides [A, B, C] = [(A, B), (B, C), (C, A)] from rfl, List.map_cons, List.map_nil, List.sum_cons, List.sum_nil]
  ring

theorem circDx3 : circDx m [A, B, C] f = (mean f A + mean f B) / 2 * (mean (nx m) B - mean (nx m) A)
    + (mean f B + mean f C) / 2 * (mean (nx m) C - mean (nx m) B) + (mean f C + mean f A) / 2 * (mean (nx m) A - mean (nx m) C) := by
  simp only [circDx, show sides [A, B, C] = [(A, B), (B, C), (C, A)] from rfl, List.map_cons, List.map_nil, List.sum_cons, List.sum_nil]
  ring

theorem circDy4 : circDy m [A, B, C, D] f = (mean f A + mean f B) / 2 * (mean (ny m) B - mean (ny m) A)
    + (mean f B + mean f C) / 2 * (mean (ny m) C - mean (ny m) B) + (mean f C + mean f D) / 2 * (mean (ny m) D - mean (ny m) C)
    + (mean f D + mean f A) / 2 * (mean (ny m) A - mean (ny m) D) := by
  simp only [circDy, show sides [A, B, C, D] = [(A, B), (B, C), (C, D), (D, A)] from rfl, List.map_cons, List.map_nil, List.sum_cons,
    List.sum_nil]
  ring

theorem circDx4 : circDx m [A, B, C, D] f = (mean f A + mean f B) / 2 * (mean (nx m) B - mean (nx m) A)
    + (mean f B + mean f C) / 2 * (mean (nx m) C - mean (nx m) B) + (mean f C + mean f D) / 2 * (mean (nx m) D - mean (nx m) C)
    + (mean f D + mean f A) / 2 * (mean (nx m) A - mean (nx m) D) := by
  simp only [circDx, show sides [A, B, C, D] = [(A, B), (B, C), (C, D), (D, A)] from rfl, List.map_cons, List.map_nil, List.sum_cons,
    List.sum_nil]
  ring
end poly

/-- normal times length of a horizontal segment vector -/
theorem seg_normal {t : Vec3} (hz : t.z = 0) :
    t.norm * (segNormal t).x = t.y ∧ t.norm * (segNormal t).y = -t.x ∧ (segNormal t).z = 0 := by
  have hn : (Vec3.cross t zGlobal).norm = t.norm := by
    simp only [Vec3.norm, Vec3.cross, zGlobal, hz]
    congr 1; ring
  by_cases h0 : t.norm = 0
  · have hsq : t.x ^ 2 + t.y ^ 2 + t.z ^ 2 = 0 := by
      unfold Vec3.norm at h0
      exact (Real.sqrt_eq_zero (by positivity)).1 h0
    have hx : t.x = 0 := by nlinarith [sq_nonneg t.x, sq_nonneg t.y, sq_nonneg t.z]
    have hy : t.y = 0 := by nlinarith [sq_nonneg t.x, sq_nonneg t.y, sq_nonneg t.z]
    refine ⟨by rw [h0, hy]; simp, by rw [h0, hx]; simp, ?_⟩
    simp [segNormal, unitvec, Vec3.cross, zGlobal]
  · refine ⟨?_, ?_, ?_⟩
    · simp only [segNormal, unitvec, hn]
      rw [mul_div_cancel₀ _ h0]
      simp [Vec3.cross, zGlobal]
    · simp only [segNormal, unitvec, hn]
      rw [mul_div_cancel₀ _ h0]
      simp [Vec3.cross, zGlobal]
    · simp [segNormal, unitvec, Vec3.cross, zGlobal]

/-- the centroid of a triangle of a flat mesh -/
theorem mid_eq {m : Mesh} (hb : ∀ i ∈ m.nids, (m.node i).cp (m.node i).xyz = (m.node i).xyz) {t o : ℕ} {k : Key} (hs : Side m t k o) :
    (m.mid t).x = (nx m k.1 + nx m k.2 + nx m o) / 3 ∧ (m.mid t).y = (ny m k.1 + ny m k.2 + ny m o) / 3 ∧
    (m.mid t).z = ((m.node k.1).xyz.z + (m.node k.2).xyz.z + (m.node o).xyz.z) / 3 := by
  have key : ∀ c : Vec3 → ℝ, c (m.pos (m.tria t).n1) + c (m.pos (m.tria t).n2) + c (m.pos (m.tria t).n3) =
      c (m.node k.1).xyz + c (m.node k.2).xyz + c (m.node o).xyz := by
    intro c
    have h := (hs.perm.map fun i => c (m.pos i)).sum_eq
    simp only [Mesh.triaNodes, List.map_cons, List.map_nil, List.sum_cons, List.sum_nil, add_zero] at h
    have e1 : m.pos k.1 = _ := hb _ hs.ina
    have e2 : m.pos k.2 = _ := hb _ hs.inb
    have e3 : m.pos o = _ := hb _ hs.ino
    rw [e1, e2, e3] at h
    linarith
  refine ⟨?_, ?_, ?_⟩ <;> simp only [Mesh.mid, nx, ny]
  · rw [key Vec3.x]
  · rw [key Vec3.y]
  · rw [key Vec3.z]

/-- what the swap test guarantees -/
theorem orient_spec (m : Mesh) (c : Vec3) (a b : ℕ) :
    (orient m c a b = (a, b) ∧ 0 ≤ (c.x - nx m b) * (ny m a - ny m b) - (c.y - ny m b) * (nx m a - nx m b)) ∨
    (orient m c a b = (b, a) ∧ (c.x - nx m b) * (ny m a - ny m b) - (c.y - ny m b) * (nx m a - nx m b) < 0) := by
  have : Vec3.dot (Vec3.cross (c.sub (m.node b).xyz) ((m.node a).xyz.sub (m.node b).xyz)) zGlobal =
      (c.x - nx m b) * (ny m a - ny m b) - (c.y - ny m b) * (nx m a - nx m b) := by
    simp only [Vec3.dot, Vec3.cross, Vec3.sub, zGlobal, nx, ny]; ring
  unfold orient
  rw [this]
  split
  · right; exact ⟨rfl, by assumption⟩
  · left; exact ⟨rfl, by linarith⟩

/-- the geometric content of an edge after `calc_k0` -/
structure GeoOk (m : Mesh) (k : Key) (Ac : ℝ) : Prop where
  hAc : Ac = |sarea m (dom m k)|
  pos : 0 < Ac
  X : ∀ h, gX m k Ac h = gradX m (dom m k) h
  Y : ∀ h, gY m k Ac h = gradY m (dom m k) h

theorem div_sign {a b s : ℝ} (hs : s ≠ 0) (h : (a = b ∧ 0 < s) ∨ (a = -b ∧ s < 0)) : a / |s| = b / s := by
  rcases h with ⟨rfl, h⟩ | ⟨rfl, h⟩
  · rw [abs_of_pos h]
  · rw [abs_of_neg h, neg_div_neg_eq]

theorem geo_boundary {m : Mesh} (hb : ∀ i ∈ m.nids, (m.node i).cp (m.node i).xyz = (m.node i).xyz)
    (hz : ∀ i ∈ m.nids, ∀ j ∈ m.nids, (m.node i).xyz.z = (m.node j).xyz.z) {k : Key} {t o : ℕ} (he : m.edge k = bEdge m k t o)
    (hs : Side m t k o) (h0 : sarea m (dom m k) ≠ 0) {Ac : ℝ} (hAc : (m.edge k).Ac = some Ac) : GeoOk m k Ac := by
  obtain ⟨m1, m2, m3⟩ := mid_eq hb hs
  have z1 := hz _ hs.ina _ hs.inb
  have z2 := hz _ hs.ina _ hs.ino
  have hdom : dom m k = [[k.1], corners m t, [k.2]] := by simp [dom, he, bEdge]
  rw [hdom] at h0
  have hS : sarea m [[k.1], corners m t, [k.2]] = (((m.mid t).x - nx m k.1) * (ny m k.2 - ny m k.1) - (nx m k.2 - nx m k.1) * ((m.mid t).y - ny m k.1)) / 2 := by
    rw [sarea3, mean_single, mean_single, mean_single, mean_single, mean_corners hs, mean_corners hs, m1, m2]
  have hpa : ∀ a b : ℕ, (a = k.1 ∧ b = k.2) ∨ (a = k.2 ∧ b = k.1) →
      polyArea [(m.node a).xyz, m.mid t, (m.node b).xyz, (m.node a).xyz] = |sarea m [[k.1], corners m t, [k.2]]| := by
    rintro a b (⟨rfl, rfl⟩ | ⟨rfl, rfl⟩)
    · rw [polyArea4, hS, abs_div, abs_two]; rfl
    · rw [polyArea4, hS, abs_div, abs_two, ← abs_neg]; congr 2; simp only [nx, ny]; ring
  have hAc' : Ac = |sarea m [[k.1], corners m t, [k.2]]| := by
    rw [he] at hAc
    rw [← Option.some.inj hAc]
    rcases orient_cases m (m.mid t) k.1 k.2 with h | h <;> rw [h]
    · exact hpa _ _ (Or.inl ⟨rfl, rfl⟩)
    · exact hpa _ _ (Or.inr ⟨rfl, rfl⟩)
  have hw : ∀ a b : ℕ, (a = k.1 ∧ b = k.2) ∨ (a = k.2 ∧ b = k.1) → ∀ h : ℕ → ℝ,
      wsum IPt.nx h (iptsA m t a b o ++ iptsB m t a b o) =
        (ny m a - (m.mid t).y) * (2/3 * h a + 1/6 * h b + 1/6 * h o) + ((m.mid t).y - ny m b) * (1/6 * h a + 2/3 * h b + 1/6 * h o)
        + (ny m b - ny m a) * (1/2 * h a + 1/2 * h b) ∧
      wsum IPt.ny h (iptsA m t a b o ++ iptsB m t a b o) =
        -((nx m a - (m.mid t).x) * (2/3 * h a + 1/6 * h b + 1/6 * h o) + ((m.mid t).x - nx m b) * (1/6 * h a + 2/3 * h b + 1/6 * h o)
        + (nx m b - nx m a) * (1/2 * h a + 1/2 * h b)) := by
    intro a b hab h
    have za : (m.node a).xyz.z = (m.mid t).z := by
      rw [m3]; rcases hab with ⟨rfl, rfl⟩ | ⟨rfl, rfl⟩ <;> linarith
    have zb : (m.node b).xyz.z = (m.mid t).z := by
      rw [m3]; rcases hab with ⟨rfl, rfl⟩ | ⟨rfl, rfl⟩ <;> linarith
    obtain ⟨p1, p2, _⟩ := seg_normal (t := (m.node a).xyz.sub (m.mid t)) (by simp [Vec3.sub, za])
    obtain ⟨q1, q2, _⟩ := seg_normal (t := (m.mid t).sub (m.node b).xyz) (by simp [Vec3.sub, zb])
    obtain ⟨r1, r2, _⟩ := seg_normal (t := (m.node b).xyz.sub (m.node a).xyz) (by simp [Vec3.sub, za, zb])
    simp only [wsum, iptsA, iptsB, mkIPt, List.cons_append, List.nil_append, List.map_cons, List.map_nil, List.sum_cons, List.sum_nil]
    rw [p1, p2, q1, q2, r1, r2]
    simp only [Vec3.sub, nx, ny]
    constructor <;> ring
  have hip : (m.edge k).ipts = iptsA m t (orient m (m.mid t) k.1 k.2).1 (orient m (m.mid t) k.1 k.2).2 o
      ++ iptsB m t (orient m (m.mid t) k.1 k.2).1 (orient m (m.mid t) k.1 k.2).2 o := by rw [he]; rfl
  refine ⟨by rw [hdom]; exact hAc', by rw [hAc']; exact abs_pos.2 h0, ?_, ?_⟩
  · intro h
    unfold gX gradX
    rw [hdom, hip, hAc']
    apply div_sign h0
    rw [circDy3, mean_single, mean_single, mean_single, mean_single, mean_corners hs, mean_corners hs, ← m2]
    rcases orient_spec m (m.mid t) k.1 k.2 with ⟨e1, e2⟩ | ⟨e1, e2⟩ <;> rw [e1]
    · right
      rw [(hw k.1 k.2 (Or.inl ⟨rfl, rfl⟩) h).1]
      exact ⟨by ring, lt_of_le_of_ne (by rw [hS]; linarith) h0⟩
    · left
      rw [(hw k.2 k.1 (Or.inr ⟨rfl, rfl⟩) h).1]
      exact ⟨by ring, by rw [hS]; linarith⟩
  · intro h
    unfold gY gradY
    rw [hdom, hip, hAc']
    apply div_sign h0
    rw [circDx3, mean_single, mean_single, mean_single, mean_single, mean_corners hs, mean_corners hs, ← m1]
    rcases orient_spec m (m.mid t) k.1 k.2 with ⟨e1, e2⟩ | ⟨e1, e2⟩ <;> rw [e1]
    · right
      rw [(hw k.1 k.2 (Or.inl ⟨rfl, rfl⟩) h).2]
      exact ⟨by ring, lt_of_le_of_ne (by rw [hS]; linarith) h0⟩
    · left
      rw [(hw k.2 k.1 (Or.inr ⟨rfl, rfl⟩) h).2]
      exact ⟨by ring, by rw [hS]; linarith⟩

theorem geo_interior {m : Mesh} (hb : ∀ i ∈ m.nids, (m.node i).cp (m.node i).xyz = (m.node i).xyz)
    (hz : ∀ i ∈ m.nids, ∀ j ∈ m.nids, (m.node i).xyz.z = (m.node j).xyz.z) {k : Key} {t1 t2 o1 o2 : ℕ}
    (he : m.edge k = iEdge m k t1 t2 o1 o2) (hs1 : Side m t1 k o1) (hs2 : Side m t2 k o2)
    (hop : sarea m [[k.1], [k.2], corners m t1] * sarea m [[k.1], [k.2], corners m t2] < 0) {Ac : ℝ} (hAc : (m.edge k).Ac = some Ac) :
    GeoOk m k Ac ∧ |sarea m [[k.1], [k.2], corners m t1]| + |sarea m [[k.1], [k.2], corners m t2]| = Ac := by
  obtain ⟨m1, m2, m3⟩ := mid_eq hb hs1
  obtain ⟨l1, l2, l3⟩ := mid_eq hb hs2
  have z1 := hz _ hs1.ina _ hs1.inb
  have z2 := hz _ hs1.ina _ hs1.ino
  have z3 := hz _ hs2.ina _ hs2.ino
  have hdom : dom m k = [[k.1], corners m t1, [k.2], corners m t2] := by simp [dom, he, iEdge]
  have hS1 : sarea m [[k.1], [k.2], corners m t1] = -((((m.mid t1).x - nx m k.1) * (ny m k.2 - ny m k.1) - (nx m k.2 - nx m k.1) * ((m.mid t1).y - ny m k.1)) / 2) := by
    rw [sarea3, mean_single, mean_single, mean_single, mean_single, mean_corners hs1, mean_corners hs1, m1, m2]; ring
  have hS2 : sarea m [[k.1], [k.2], corners m t2] = -((((m.mid t2).x - nx m k.1) * (ny m k.2 - ny m k.1) - (nx m k.2 - nx m k.1) * ((m.mid t2).y - ny m k.1)) / 2) := by
    rw [sarea3, mean_single, mean_single, mean_single, mean_single, mean_corners hs2, mean_corners hs2, l1, l2]; ring
  have hS : sarea m [[k.1], corners m t1, [k.2], corners m t2] = -sarea m [[k.1], [k.2], corners m t1] + sarea m [[k.1], [k.2], corners m t2] := by
    rw [sarea4, sarea3, sarea3 m _ _ (corners m t1)]; ring
  have hpa : ∀ a b : ℕ, (a = k.1 ∧ b = k.2) ∨ (a = k.2 ∧ b = k.1) →
      polyArea [(m.node a).xyz, m.mid t1, (m.node b).xyz, m.mid t2, (m.node a).xyz] = |sarea m [[k.1], corners m t1, [k.2], corners m t2]| := by
    rintro a b (⟨rfl, rfl⟩ | ⟨rfl, rfl⟩)
    · rw [polyArea5, hS, hS1, hS2, ← abs_two (α := ℝ), ← abs_div]; congr 1; simp only [nx, ny, abs_two]; ring
    · rw [polyArea5, hS, hS1, hS2, ← abs_two (α := ℝ), ← abs_div, ← abs_neg]; congr 1; simp only [nx, ny, abs_two]; ring
  have hAc' : Ac = |sarea m [[k.1], corners m t1, [k.2], corners m t2]| := by
    rw [he] at hAc
    rw [← Option.some.inj hAc]
    rcases orient_cases m (m.mid t1) k.1 k.2 with h | h <;> rw [h]
    · exact hpa _ _ (Or.inl ⟨rfl, rfl⟩)
    · exact hpa _ _ (Or.inr ⟨rfl, rfl⟩)
  have hsgn : (0 < sarea m [[k.1], [k.2], corners m t1] ∧ sarea m [[k.1], [k.2], corners m t2] < 0) ∨
      (sarea m [[k.1], [k.2], corners m t1] < 0 ∧ 0 < sarea m [[k.1], [k.2], corners m t2]) := mul_neg_iff.1 hop
  have h0 : sarea m [[k.1], corners m t1, [k.2], corners m t2] ≠ 0 := by
    rw [hS]; rcases hsgn with ⟨h1, h2⟩ | ⟨h1, h2⟩
    · exact ne_of_lt (by linarith)
    · exact ne_of_gt (by linarith)
  have hw : ∀ a b : ℕ, (a = k.1 ∧ b = k.2) ∨ (a = k.2 ∧ b = k.1) → ∀ h : ℕ → ℝ,
      wsum IPt.nx h (iptsA m t1 a b o1 ++ iptsI m t2 a b o2) =
        (ny m a - (m.mid t1).y) * (2/3 * h a + 1/6 * h b + 1/6 * h o1) + ((m.mid t1).y - ny m b) * (1/6 * h a + 2/3 * h b + 1/6 * h o1)
        + (ny m b - (m.mid t2).y) * (1/6 * h a + 2/3 * h b + 1/6 * h o2) + ((m.mid t2).y - ny m a) * (2/3 * h a + 1/6 * h b + 1/6 * h o2) ∧
      wsum IPt.ny h (iptsA m t1 a b o1 ++ iptsI m t2 a b o2) =
        -((nx m a - (m.mid t1).x) * (2/3 * h a + 1/6 * h b + 1/6 * h o1) + ((m.mid t1).x - nx m b) * (1/6 * h a + 2/3 * h b + 1/6 * h o1)
        + (nx m b - (m.mid t2).x) * (1/6 * h a + 2/3 * h b + 1/6 * h o2) + ((m.mid t2).x - nx m a) * (2/3 * h a + 1/6 * h b + 1/6 * h o2)) := by
    intro a b hab h
    have za : (m.node a).xyz.z = (m.mid t1).z := by
      rw [m3]; rcases hab with ⟨rfl, rfl⟩ | ⟨rfl, rfl⟩ <;> linarith
    have zb : (m.node b).xyz.z = (m.mid t1).z := by
      rw [m3]; rcases hab with ⟨rfl, rfl⟩ | ⟨rfl, rfl⟩ <;> linarith
    have za2 : (m.node a).xyz.z = (m.mid t2).z := by
      rw [l3]; rcases hab with ⟨rfl, rfl⟩ | ⟨rfl, rfl⟩ <;> linarith
    have zb2 : (m.node b).xyz.z = (m.mid t2).z := by
      rw [l3]; rcases hab with ⟨rfl, rfl⟩ | ⟨rfl, rfl⟩ <;> linarith
    obtain ⟨p1, p2, _⟩ := seg_normal (t := (m.node a).xyz.sub (m.mid t1)) (by simp [Vec3.sub, za])
    obtain ⟨q1, q2, _⟩ := seg_normal (t := (m.mid t1).sub (m.node b).xyz) (by simp [Vec3.sub, zb])
    obtain ⟨r1, r2, _⟩ := seg_normal (t := (m.node b).xyz.sub (m.mid t2)) (by simp [Vec3.sub, zb2])
    obtain ⟨s1, s2, _⟩ := seg_normal (t := (m.mid t2).sub (m.node a).xyz) (by simp [Vec3.sub, za2])
    simp only [wsum, iptsA, iptsI, mkIPt, List.cons_append, List.nil_append, List.map_cons, List.map_nil, List.sum_cons, List.sum_nil]
    rw [p1, p2, q1, q2, r1, r2, s1, s2]
    simp only [Vec3.sub, nx, ny]
    constructor <;> ring
  have hip : (m.edge k).ipts = iptsA m t1 (orient m (m.mid t1) k.1 k.2).1 (orient m (m.mid t1) k.1 k.2).2 o1
      ++ iptsI m t2 (orient m (m.mid t1) k.1 k.2).1 (orient m (m.mid t1) k.1 k.2).2 o2 := by rw [he]; rfl
  refine ⟨⟨by rw [hdom]; exact hAc', by rw [hAc']; exact abs_pos.2 h0, ?_, ?_⟩, ?_⟩
  · intro h
    unfold gX gradX
    rw [hdom, hip, hAc']
    apply div_sign h0
    rw [circDy4, mean_single, mean_single, mean_single, mean_single, mean_corners hs1, mean_corners hs1, mean_corners hs2,
      mean_corners hs2, ← m2, ← l2]
    rcases orient_spec m (m.mid t1) k.1 k.2 with ⟨e1, e2⟩ | ⟨e1, e2⟩ <;> rw [e1]
    · right
      rw [(hw k.1 k.2 (Or.inl ⟨rfl, rfl⟩) h).1]
      refine ⟨by ring, ?_⟩
      rcases hsgn with ⟨h1, h2⟩ | ⟨h1, h2⟩
      · rw [hS]; linarith
      · rw [hS1] at h1; linarith
    · left
      rw [(hw k.2 k.1 (Or.inr ⟨rfl, rfl⟩) h).1]
      refine ⟨by ring, ?_⟩
      rcases hsgn with ⟨h1, h2⟩ | ⟨h1, h2⟩
      · rw [hS1] at h1; linarith
      · rw [hS]; linarith
  · intro h
    unfold gY gradY
    rw [hdom, hip, hAc']
    apply div_sign h0
    rw [circDx4, mean_single, mean_single, mean_single, mean_single, mean_corners hs1, mean_corners hs1, mean_corners hs2,
      mean_corners hs2, ← m1, ← l1]
    rcases orient_spec m (m.mid t1) k.1 k.2 with ⟨e1, e2⟩ | ⟨e1, e2⟩ <;> rw [e1]
    · right
      rw [(hw k.1 k.2 (Or.inl ⟨rfl, rfl⟩) h).2]
      refine ⟨by ring, ?_⟩
      rcases hsgn with ⟨h1, h2⟩ | ⟨h1, h2⟩
      · rw [hS]; linarith
      · rw [hS1] at h1; linarith
    · left
      rw [(hw k.2 k.1 (Or.inr ⟨rfl, rfl⟩) h).2]
      refine ⟨by ring, ?_⟩
      rcases hsgn with ⟨h1, h2⟩ | ⟨h1, h2⟩
      · rw [hS1] at h1; linarith
      · rw [hS]; linarith
  · rw [hAc', hS]
    rcases hsgn with ⟨h1, h2⟩ | ⟨h1, h2⟩
    · rw [abs_of_pos h1, abs_of_neg h2, abs_of_neg (by linarith)]; ring
    · rw [abs_of_neg h1, abs_of_pos h2, abs_of_pos (by linarith)]

/-- a triangle's area from one of its sides and its centroid -/
theorem triArea_side {m : Mesh} {t o : ℕ} {k : Key} (hs : Side m t k o) :
    |sarea m [[k.1], [k.2], corners m t]| = triArea m t / 3 := by
  unfold triArea
  have h1 : sarea m [[k.1], [k.2], corners m t] = sarea m [[k.1], [k.2], [o]] / 3 := by
    rw [sarea3, sarea3, mean_corners hs, mean_corners hs]; simp only [mean_single]; ring
  have h2 : |sarea m [[(m.tria t).n1], [(m.tria t).n2], [(m.tria t).n3]]| = |sarea m [[k.1], [k.2], [o]]| := by
    have gen : ∀ a b c : ℕ, [(m.tria t).n1, (m.tria t).n2, (m.tria t).n3].Perm [a, b, c] →
        |sarea m [[(m.tria t).n1], [(m.tria t).n2], [(m.tria t).n3]]| = |sarea m [[a], [b], [c]]| := by
      intro a b c hp
      rcases perm3_cases hp with ⟨rfl, rfl, rfl⟩ | ⟨rfl, rfl, rfl⟩ | ⟨rfl, rfl, rfl⟩ | ⟨rfl, rfl, rfl⟩ | ⟨rfl, rfl, rfl⟩ | ⟨rfl, rfl, rfl⟩ <;>
        simp only [sarea3, mean_single] <;> first | (congr 1; ring; done) | (rw [← abs_neg]; congr 1; ring)
    exact gen _ _ _ hs.perm
  rw [h1, h2, abs_div]
  norm_num

end Meshless
