import Verif.Spec.Triang
import Verif.Lemmas.Geom
import Verif.Lemmas.After
import Mathlib.Tactic.LinearCombination
import Mathlib.Tactic.FieldSimp
import Mathlib.Tactic.Positivity

/-! Triangulations of a region of the plane are `Proper` and `Planar`. -/

set_option autoImplicit false

namespace Meshless
open Spec

/-- twice the signed area -/
def cross (a b c : ℝ × ℝ) : ℝ := (b.1 - a.1) * (c.2 - a.2) - (c.1 - a.1) * (b.2 - a.2)

theorem onLine_iff {a b c : ℝ × ℝ} : OnLine a b c ↔ cross a b c = 0 := by unfold OnLine cross; exact sub_eq_zero.symm

theorem openTri_rot (a b c : ℝ × ℝ) : openTri b c a = openTri a b c := by
  ext p
  constructor
  · rintro ⟨x, y, z, hx, hy, hz, hs, rfl⟩
    exact ⟨z, x, y, hz, hx, hy, by linarith, by ext <;> dsimp only <;> ring⟩
  · rintro ⟨x, y, z, hx, hy, hz, hs, rfl⟩
    exact ⟨y, z, x, hy, hz, hx, by linarith, by ext <;> dsimp only <;> ring⟩

theorem openTri_swap (a b c : ℝ × ℝ) : openTri b a c = openTri a b c := by
  ext p
  constructor
  · rintro ⟨x, y, z, hx, hy, hz, hs, rfl⟩
    exact ⟨y, x, z, hy, hx, hz, by linarith, by ext <;> dsimp only <;> ring⟩
  · rintro ⟨x, y, z, hx, hy, hz, hs, rfl⟩
    exact ⟨y, x, z, hy, hx, hz, by linarith, by ext <;> dsimp only <;> ring⟩

theorem perm_pair {b c x y : ℕ} (h : [b, c].Perm [x, y]) : (b = x ∧ c = y) ∨ (b = y ∧ c = x) := by
  have hb : b ∈ [x, y] := h.mem_iff.1 (by simp)
  simp only [List.mem_cons, List.not_mem_nil, or_false] at hb
  rcases hb with rfl | rfl
  · exact Or.inl ⟨rfl, by simpa using (List.perm_cons _).1 h⟩
  · exact Or.inr ⟨rfl, by simpa using (List.perm_cons _).1 (h.trans (List.Perm.swap _ _ _))⟩

/-- a function of three nodes that does not change under rotation and exchange of its arguments is the same for every order -/
theorem perm_three {α : Type} {f : ℕ → ℕ → ℕ → α} (hr : ∀ a b c, f b c a = f a b c) (hs : ∀ a b c, f b a c = f a b c) {a b c a' b' c' : ℕ}
    (h : [a, b, c].Perm [a', b', c']) : f a b c = f a' b' c' := by
  have hs' : ∀ a b c, f a c b = f a b c := by intro a b c; rw [← hr, hs, hr, hr]
  have key : ∀ x y, [a, b, c].Perm [a, x, y] → f a b c = f a x y := by
    intro x y h
    rcases perm_pair ((List.perm_cons a).1 h) with ⟨rfl, rfl⟩ | ⟨rfl, rfl⟩
    · rfl
    · exact hs' _ _ _
  have ha : a ∈ [a', b', c'] := h.mem_iff.1 (by simp)
  simp only [List.mem_cons, List.not_mem_nil, or_false] at ha
  rcases ha with rfl | rfl | rfl
  · exact key _ _ h
  · rw [key a' c' (h.trans (List.Perm.swap _ _ _))]; exact hs _ _ _
  · rw [key a' b' (h.trans (List.perm_append_comm (l₁ := [a', b']) (l₂ := [a])))]; exact (hr _ _ _).symm

theorem openTri_perm {P : ℕ → ℝ × ℝ} {a b c a' b' c' : ℕ} (h : [a, b, c].Perm [a', b', c']) : openTri (P a) (P b) (P c) = openTri (P a') (P b') (P c') :=
  perm_three (f := fun a b c => openTri (P a) (P b) (P c)) (fun _ _ _ => openTri_rot _ _ _) (fun _ _ _ => openTri_swap _ _ _) h

/-- two triangles on the same side of a common side overlap -/
theorem overlap {P Q R S : ℝ × ℝ} (h : 0 < cross P Q R * cross P Q S) : ¬ Disjoint (openTri P Q R) (openTri P Q S) := by
  have hS : cross P Q S ≠ 0 := by intro h0; rw [h0, mul_zero] at h; exact lt_irrefl _ h
  set a : ℝ := cross R Q S / cross P Q S with ha
  set b : ℝ := cross P R S / cross P Q S with hb
  set c : ℝ := cross P Q R / cross P Q S with hc
  have habc : a + b + c = 1 := by
    rw [ha, hb, hc]; field_simp; unfold cross; ring
  have h1 : a * P.1 + b * Q.1 + c * S.1 = R.1 := by rw [ha, hb, hc]; field_simp; unfold cross; ring
  have h2 : a * P.2 + b * Q.2 + c * S.2 = R.2 := by rw [ha, hb, hc]; field_simp; unfold cross; ring
  have hcpos : 0 < c := by
    rw [hc]
    rcases lt_or_gt_of_ne hS with hs | hs
    · exact div_pos_of_neg_of_neg (by nlinarith) hs
    · exact div_pos (by nlinarith) hs
  set ε : ℝ := 1 / (2 * (1 + |a| + |b|)) with hε
  have hpos : 0 < ε := by rw [hε]; positivity
  have he : ε * (2 * (1 + |a| + |b|)) = 1 := by rw [hε]; field_simp
  have hA := abs_nonneg a
  have hB := abs_nonneg b
  have na := neg_abs_le a
  have nb := neg_abs_le b
  have la := mul_le_mul_of_nonneg_left na hpos.le
  have lb := mul_le_mul_of_nonneg_left nb hpos.le
  have pA := mul_nonneg hpos.le hA
  have pB := mul_nonneg hpos.le hB
  rw [Set.not_disjoint_iff]
  refine ⟨((1 - ε) / 2 * P.1 + (1 - ε) / 2 * Q.1 + ε * R.1, (1 - ε) / 2 * P.2 + (1 - ε) / 2 * Q.2 + ε * R.2),
    ⟨(1 - ε) / 2, (1 - ε) / 2, ε, by nlinarith, by nlinarith, hpos, by ring, rfl⟩,
    ⟨(1 - ε) / 2 + ε * a, (1 - ε) / 2 + ε * b, ε * c, by nlinarith, by nlinarith, by positivity, by linear_combination ε * habc, ?_⟩⟩
  ext <;> dsimp only
  · linear_combination -ε * h1
  · linear_combination -ε * h2

theorem openTri_ne (a b c : ℝ × ℝ) : ¬ Disjoint (openTri a b c) (openTri a b c) := by
  rw [Set.not_disjoint_iff]
  exact ⟨_, ⟨1 / 3, 1 / 3, 1 / 3, by norm_num, by norm_num, by norm_num, by norm_num, rfl⟩, 1 / 3, 1 / 3, 1 / 3, by norm_num, by norm_num, by norm_num, by norm_num, rfl⟩

variable {m : Mesh}

theorem Spec.Triangulation.distinct (h : Triangulation m) : ∀ e ∈ m.eids, (m.tria e).Distinct := by
  intro e he
  have := h.nondeg e he
  refine ⟨fun h0 => this ?_, fun h0 => this ?_, fun h0 => this ?_⟩ <;> unfold OnLine <;> rw [h0] <;> ring

/-- the inside of a triangle from the side of an edge -/
theorem Side.inside {t o : ℕ} {k : Key} (hs : Side m t k o) : inside m t = openTri (nodeAt m k.1) (nodeAt m k.2) (nodeAt m o) := by
  unfold Spec.inside
  exact openTri_perm hs.perm

theorem abs_cross_perm {P : ℕ → ℝ × ℝ} {a b c a' b' c' : ℕ} (h : [a, b, c].Perm [a', b', c']) :
    |cross (P a) (P b) (P c)| = |cross (P a') (P b') (P c')| := by
  refine perm_three (f := fun a b c => |cross (P a) (P b) (P c)|) (fun a b c => ?_) (fun a b c => ?_) h
  · congr 1; unfold cross; ring
  · rw [← abs_neg]; congr 1; unfold cross; ring

theorem Side.cross_ne (h : Triangulation m) {t o : ℕ} {k : Key} (hs : Side m t k o) : cross (nodeAt m k.1) (nodeAt m k.2) (nodeAt m o) ≠ 0 := by
  intro h0
  have := abs_cross_perm (P := nodeAt m) hs.perm
  rw [h0, abs_zero] at this
  exact h.nondeg t hs.mem (onLine_iff.2 (abs_eq_zero.1 this))

theorem Spec.Triangulation.opposite_sides (h : Triangulation m) {t t' o o' : ℕ} {k : Key} (hs : Side m t k o) (hs' : Side m t' k o') (hne : t ≠ t') :
    cross (nodeAt m k.1) (nodeAt m k.2) (nodeAt m o) * cross (nodeAt m k.1) (nodeAt m k.2) (nodeAt m o') < 0 := by
  rcases lt_or_gt_of_ne (mul_ne_zero (hs.cross_ne h) (hs'.cross_ne h)) with h1 | h1
  · exact h1
  · exact absurd (hs.inside ▸ hs'.inside ▸ h.apart t hs.mem t' hs'.mem hne) (overlap h1)

theorem Spec.Triangulation.proper (h : Triangulation m) (w : WF m) : Proper m := by
  refine ⟨h.distinct, ?_, ?_⟩
  · intro k hk
    have hnd : (m.edge k).trias.Nodup := by
      rw [w.etrias k hk, sideTrias_distinct h.distinct]; exact w.eids_nodup.filter _
    have hside : ∀ t ∈ (m.edge k).trias, ∃ o, Side m t k o := fun t ht => ⟨_, (side_of w h.distinct hk ht).choose_spec.1⟩
    by_contra hlen
    rcases htr : (m.edge k).trias with _ | ⟨t1, _ | ⟨t2, _ | ⟨t3, l⟩⟩⟩ <;> rw [htr] at hlen hside hnd
    · simp at hlen
    · simp at hlen
    · simp at hlen
    · simp only [List.nodup_cons, List.mem_cons, not_or] at hnd
      obtain ⟨o1, s1⟩ := hside t1 (by simp)
      obtain ⟨o2, s2⟩ := hside t2 (by simp)
      obtain ⟨o3, s3⟩ := hside t3 (by simp)
      have a := h.opposite_sides s1 s2 hnd.1.1
      have b := h.opposite_sides s1 s3 hnd.1.2.1
      have c := h.opposite_sides s2 s3 hnd.2.1.1
      have := mul_pos_of_neg_of_neg a b
      have e := s1.cross_ne h
      nlinarith [mul_pos_of_neg_of_neg a b, sq_nonneg (cross (nodeAt m k.1) (nodeAt m k.2) (nodeAt m o1)), mul_nonpos_of_nonneg_of_nonpos (sq_nonneg (cross (nodeAt m k.1) (nodeAt m k.2) (nodeAt m o1))) c.le]
  · intro e he e' he' hc
    by_contra hne
    have hp : [(m.tria e).n1, (m.tria e).n2, (m.tria e).n3].Perm [(m.tria e').n1, (m.tria e').n2, (m.tria e').n3] := by
      obtain ⟨a1, a2, a3⟩ := h.distinct e he
      obtain ⟨b1, b2, b3⟩ := h.distinct e' he'
      refine (List.perm_ext_iff_of_nodup ?_ ?_).2 fun i => ?_
      · simp [a1, a2, Ne.symm a3]
      · simp [b1, b2, Ne.symm b3]
      · have := hc i
        simpa [IsCorner] using this
    have := h.apart e he e' he' hne
    unfold inside at this
    rw [openTri_perm (P := nodeAt m) hp] at this
    exact openTri_ne _ _ _ this

theorem Spec.Triangulation.planar (h : Triangulation m) (w : WF m) : Planar m := by
  refine ⟨h.basic, h.flat, ?_, ?_⟩
  · intro e he h0
    apply h.nondeg e he
    rw [sarea3, mean_single, mean_single, mean_single, mean_single, mean_single, mean_single] at h0
    rw [onLine_iff]
    unfold cross nodeAt
    dsimp only
    linarith
  · intro k hk t1 t2 htr
    obtain ⟨o1, s1, _⟩ := side_of w h.distinct hk (t := t1) (by rw [htr]; simp)
    obtain ⟨o2, s2, _⟩ := side_of w h.distinct hk (t := t2) (by rw [htr]; simp)
    have hnd : (m.edge k).trias.Nodup := by
      rw [w.etrias k hk, sideTrias_distinct h.distinct]; exact w.eids_nodup.filter _
    rw [htr] at hnd
    have := h.opposite_sides s1 s2 (by rintro rfl; simp at hnd)
    have key : ∀ t o, Side m t k o → sarea m [[k.1], [k.2], corners m t] = cross (nodeAt m k.1) (nodeAt m k.2) (nodeAt m o) / 6 := by
      intro t o hs
      rw [sarea3, mean_corners hs, mean_corners hs, mean_single, mean_single, mean_single, mean_single]
      unfold cross nodeAt
      dsimp only
      ring
    rw [key _ _ s1, key _ _ s2]
    nlinarith

end Meshless
