import Verif.Lemmas.Boundary
import Verif.Lemmas.K0Form

/-! Fields without smoothed strain are rigid motions: the strain of a triangle at the boundary is the strain of a domain, and from there
the interior domains carry it across the mesh. -/

set_option autoImplicit false

namespace Meshless
open Spec

/-- `f` is affine on triangle `t` with gradient `(p, q)` -/
def Aff (m : Mesh) (t : ℕ) (f : ℕ → ℝ) (c p q : ℝ) : Prop := ∀ i, IsCorner m t i → f i = c + p * nx m i + q * ny m i

/-- `(f, g)` is a rigid motion on triangle `t` -/
def RigidOn (m : Mesh) (t : ℕ) (f g : ℕ → ℝ) (a b c : ℝ) : Prop := ∀ i, IsCorner m t i → f i = a - c * ny m i ∧ g i = b + c * nx m i

theorem RigidOn.aff {m : Mesh} {t : ℕ} {f g : ℕ → ℝ} {a b c : ℝ} (h : RigidOn m t f g a b c) : Aff m t f a 0 (-c) ∧ Aff m t g b c 0 :=
  ⟨fun i hi => by rw [(h i hi).1]; ring, fun i hi => by rw [(h i hi).2]; ring⟩

theorem exists_side {m : Mesh} (w : WF m) (hp : Proper m) {t : ℕ} (ht : t ∈ m.eids) : ∃ k ∈ m.ekeys, ∃ o, t ∈ (m.edge k).trias ∧ Side m t k o := by
  obtain ⟨k, hk, h1, _⟩ := corner_side w hp ht (Or.inl rfl) (Or.inr (Or.inl rfl)) (hp.distinct t ht).1
  obtain ⟨o, hs, _⟩ := side_of w hp.distinct hk h1
  exact ⟨k, hk, o, h1, hs⟩

theorem aff_exists {m : Mesh} (w : WF m) (hp : Proper m) (hg : Planar m) {t : ℕ} (ht : t ∈ m.eids) (f : ℕ → ℝ) : ∃ c p q, Aff m t f c p q := by
  obtain ⟨k, _, o, _, hs⟩ := exists_side w hp ht
  have h0 := cr_ne hg hs
  set s := cr m k.1 k.2 o with hsdef
  set p := ((f k.2 - f k.1) * (ny m o - ny m k.1) - (f o - f k.1) * (ny m k.2 - ny m k.1)) / s with hpdef
  set q := ((f o - f k.1) * (nx m k.2 - nx m k.1) - (f k.2 - f k.1) * (nx m o - nx m k.1)) / s with hqdef
  refine ⟨f k.1 - p * nx m k.1 - q * ny m k.1, p, q, fun i hi => ?_⟩
  have e1 : p * s = (f k.2 - f k.1) * (ny m o - ny m k.1) - (f o - f k.1) * (ny m k.2 - ny m k.1) := div_mul_cancel₀ _ h0
  have e2 : q * s = (f o - f k.1) * (nx m k.2 - nx m k.1) - (f k.2 - f k.1) * (nx m o - nx m k.1) := div_mul_cancel₀ _ h0
  rcases (hs.corner_iff i).1 hi with rfl | rfl | rfl
  · ring
  · apply mul_right_cancel₀ h0
    have : (f k.1 - p * nx m k.1 - q * ny m k.1 + p * nx m k.2 + q * ny m k.2) * s =
        f k.1 * s + (p * s) * (nx m k.2 - nx m k.1) + (q * s) * (ny m k.2 - ny m k.1) := by ring
    rw [this, e1, e2, hsdef]; unfold cr; ring
  · apply mul_right_cancel₀ h0
    have : (f k.1 - p * nx m k.1 - q * ny m k.1 + p * nx m i + q * ny m i) * s =
        f k.1 * s + (p * s) * (nx m i - nx m k.1) + (q * s) * (ny m i - ny m k.1) := by ring
    rw [this, e1, e2, hsdef]; unfold cr; ring

theorem aff_values {m : Mesh} {t o : ℕ} {k : Key} (hs : Side m t k o) {f : ℕ → ℝ} {c p q : ℝ} (h : Aff m t f c p q) :
    f k.1 = c + p * nx m k.1 + q * ny m k.1 ∧ f k.2 = c + p * nx m k.2 + q * ny m k.2 ∧ f o = c + p * nx m o + q * ny m o :=
  ⟨h _ ((hs.corner_iff _).2 (Or.inl rfl)), h _ ((hs.corner_iff _).2 (Or.inr (Or.inl rfl))), h _ ((hs.corner_iff _).2 (Or.inr (Or.inr rfl)))⟩

theorem circ_first {m : Mesh} {t o : ℕ} {k : Key} (hs : Side m t k o) {f : ℕ → ℝ} {c p q : ℝ} (h : Aff m t f c p q) :
    circDy m [[k.1], corners m t, [k.2]] f = -p * cr m k.1 k.2 o / 6 ∧ circDx m [[k.1], corners m t, [k.2]] f = q * cr m k.1 k.2 o / 6 := by
  obtain ⟨h1, h2, h3⟩ := aff_values hs h
  rw [circDy3, circDx3]
  simp only [mean_single, mean_corners hs, h1, h2, h3]
  unfold cr
  constructor <;> ring

theorem circ_second {m : Mesh} {t o : ℕ} {k : Key} (hs : Side m t k o) {f : ℕ → ℝ} {c p q : ℝ} (h : Aff m t f c p q) :
    circDy m [[k.1], [k.2], corners m t] f = p * cr m k.1 k.2 o / 6 ∧ circDx m [[k.1], [k.2], corners m t] f = -q * cr m k.1 k.2 o / 6 := by
  obtain ⟨h1, h2, h3⟩ := aff_values hs h
  rw [circDy3, circDx3]
  simp only [mean_single, mean_corners hs, h1, h2, h3]
  unfold cr
  constructor <;> ring

/-- smoothed gradient of a boundary domain: the gradient of its triangle -/
theorem grad_boundary {m : Mesh} (hg : Planar m) {t o : ℕ} {k : Key} (htr : (m.edge k).trias = [t]) (hs : Side m t k o) {f : ℕ → ℝ} {c p q : ℝ}
    (h : Aff m t f c p q) : gradX m (dom m k) f = p ∧ gradY m (dom m k) f = q := by
  have hdom : dom m k = [[k.1], corners m t, [k.2]] := by simp [dom, htr]
  have h0 := cr_ne hg hs
  have hS : sarea m [[k.1], corners m t, [k.2]] = -cr m k.1 k.2 o / 6 := by
    rw [sarea3]; simp only [mean_single, mean_corners hs]; unfold cr; ring
  obtain ⟨e1, e2⟩ := circ_first hs h
  unfold gradX gradY
  rw [hdom, e1, e2, hS]
  constructor <;> field_simp

/-- smoothed gradient of an interior domain: the average of the gradients of its two triangles, weighted by their areas -/
theorem grad_interior {m : Mesh} (hg : Planar m) {t1 t2 o1 o2 : ℕ} {k : Key} (hk : k ∈ m.ekeys) (htr : (m.edge k).trias = [t1, t2])
    (hs1 : Side m t1 k o1) (hs2 : Side m t2 k o2) {f : ℕ → ℝ} {c1 p1 q1 c2 p2 q2 : ℝ} (h1 : Aff m t1 f c1 p1 q1) (h2 : Aff m t2 f c2 p2 q2) :
    gradX m (dom m k) f = (p2 * cr m k.1 k.2 o2 - p1 * cr m k.1 k.2 o1) / (cr m k.1 k.2 o2 - cr m k.1 k.2 o1) ∧
    gradY m (dom m k) f = (q2 * cr m k.1 k.2 o2 - q1 * cr m k.1 k.2 o1) / (cr m k.1 k.2 o2 - cr m k.1 k.2 o1) := by
  have hdom : dom m k = [[k.1], corners m t1, [k.2], corners m t2] := by simp [dom, htr]
  have hop := cr_opposite hg hk htr hs1 hs2
  have hne : cr m k.1 k.2 o2 - cr m k.1 k.2 o1 ≠ 0 := by
    intro h; rw [sub_eq_zero.1 h] at hop; exact absurd hop (not_lt.2 (mul_self_nonneg _))
  have hS : sarea m (dom m k) = (cr m k.1 k.2 o2 - cr m k.1 k.2 o1) / 6 := by
    rw [hdom, sarea4, sarea3, sarea3]; simp only [mean_single, mean_corners hs1, mean_corners hs2]; unfold cr; ring
  obtain ⟨a1, a2⟩ := circ_first hs1 h1
  obtain ⟨b1, b2⟩ := circ_second hs2 h2
  have hy : circDy m (dom m k) f = circDy m [[k.1], corners m t1, [k.2]] f + circDy m [[k.1], [k.2], corners m t2] f := by
    rw [hdom, circDy4, circDy3, circDy3]; ring
  have hx : circDx m (dom m k) f = circDx m [[k.1], corners m t1, [k.2]] f + circDx m [[k.1], [k.2], corners m t2] f := by
    rw [hdom, circDx4, circDx3, circDx3]; ring
  unfold gradX gradY
  rw [hx, hy, hS, a1, a2, b1, b2]
  constructor
  · rw [div_eq_div_iff (by intro h; apply hne; linarith) hne]; ring
  · rw [div_eq_div_iff (by intro h; apply hne; linarith) hne]; ring

/-- zero smoothed strains of a pair of fields -/
def Unstrained (m : Mesh) (f g : ℕ → ℝ) (k : Key) : Prop :=
  gradX m (dom m k) f = 0 ∧ gradY m (dom m k) g = 0 ∧ gradY m (dom m k) f + gradX m (dom m k) g = 0

theorem rigid_of_aff {m : Mesh} {t : ℕ} {f g : ℕ → ℝ} {c p q c' p' q' : ℝ} (h : Aff m t f c p q) (h' : Aff m t g c' p' q') (h1 : p = 0)
    (h2 : q' = 0) (h3 : q + p' = 0) : RigidOn m t f g c c' p' := by
  intro i hi
  rw [h i hi, h' i hi, h1, h2, show q = -p' by linarith]
  constructor <;> ring

theorem rigid_boundary {m : Mesh} (w : WF m) (hp : Proper m) (hg : Planar m) {f g : ℕ → ℝ} {k : Key} (hk : k ∈ m.ekeys) {t : ℕ}
    (htr : (m.edge k).trias = [t]) (hu : Unstrained m f g k) : ∃ a b c, RigidOn m t f g a b c := by
  obtain ⟨o, hs, _⟩ := side_of w hp.distinct hk (t := t) (by rw [htr]; simp)
  obtain ⟨c, p, q, h⟩ := aff_exists w hp hg hs.mem f
  obtain ⟨c', p', q', h'⟩ := aff_exists w hp hg hs.mem g
  obtain ⟨e1, e2⟩ := grad_boundary hg htr hs h
  obtain ⟨e3, e4⟩ := grad_boundary hg htr hs h'
  obtain ⟨u1, u2, u3⟩ := hu
  exact ⟨_, _, _, rigid_of_aff h h' (e1 ▸ u1) (e4 ▸ u2) (by rw [← e2, ← e3]; exact u3)⟩

theorem rigid_adjacent {m : Mesh} (w : WF m) (hp : Proper m) (hg : Planar m) {f g : ℕ → ℝ} (hu : ∀ k ∈ m.ekeys, Unstrained m f g k) {t t' : ℕ}
    (hA : Adjacent m t t') (hr : ∃ a b c, RigidOn m t f g a b c) : ∃ a b c, RigidOn m t' f g a b c := by
  obtain ⟨k, hk, h1, h2⟩ := hA
  obtain ⟨a, b, c, hr⟩ := hr
  obtain ⟨u1, u2, u3⟩ := hu k hk
  obtain ⟨ra, rb⟩ := hr.aff
  rcases edge_shape w hp hk with ⟨t0, o, htr, hs, _⟩ | ⟨t1, t2, o1, o2, htr, hs1, hs2, _, _, _, _⟩
  · rw [htr] at h1 h2
    simp only [List.mem_singleton] at h1 h2
    subst h1; subst h2
    exact ⟨a, b, c, hr⟩
  · have hop := cr_opposite hg hk htr hs1 hs2
    have hne : cr m k.1 k.2 o2 - cr m k.1 k.2 o1 ≠ 0 := by
      intro h; rw [sub_eq_zero.1 h] at hop; exact absurd hop (not_lt.2 (mul_self_nonneg _))
    have n1 := cr_ne hg hs1
    have n2 := cr_ne hg hs2
    rw [htr] at h1 h2
    simp only [List.mem_cons, List.not_mem_nil, or_false] at h1 h2
    rcases h1 with rfl | rfl <;> rcases h2 with rfl | rfl
    · exact ⟨a, b, c, hr⟩
    · obtain ⟨c1, p, q, h⟩ := aff_exists w hp hg hs2.mem f
      obtain ⟨c1', p', q', h'⟩ := aff_exists w hp hg hs2.mem g
      obtain ⟨e1, e2⟩ := grad_interior hg hk htr hs1 hs2 ra h
      obtain ⟨e3, e4⟩ := grad_interior hg hk htr hs1 hs2 rb h'
      rw [e1, div_eq_zero_iff, or_iff_left hne] at u1
      rw [e4, div_eq_zero_iff, or_iff_left hne] at u2
      rw [e2, e3, ← add_div, div_eq_zero_iff, or_iff_left hne] at u3
      refine ⟨_, _, _, rigid_of_aff h h' ?_ ?_ ?_⟩
      · apply mul_right_cancel₀ n2; linarith
      · apply mul_right_cancel₀ n2; linarith
      · apply mul_right_cancel₀ n2; linarith
    · obtain ⟨c1, p, q, h⟩ := aff_exists w hp hg hs1.mem f
      obtain ⟨c1', p', q', h'⟩ := aff_exists w hp hg hs1.mem g
      obtain ⟨e1, e2⟩ := grad_interior hg hk htr hs1 hs2 h ra
      obtain ⟨e3, e4⟩ := grad_interior hg hk htr hs1 hs2 h' rb
      rw [e1, div_eq_zero_iff, or_iff_left hne] at u1
      rw [e4, div_eq_zero_iff, or_iff_left hne] at u2
      rw [e2, e3, ← add_div, div_eq_zero_iff, or_iff_left hne] at u3
      refine ⟨_, _, _, rigid_of_aff h h' ?_ ?_ ?_⟩
      · apply mul_right_cancel₀ n1; linarith
      · apply mul_right_cancel₀ n1; linarith
      · apply mul_right_cancel₀ n1; linarith
    · exact ⟨a, b, c, hr⟩

theorem adjacent_symm {m : Mesh} {t t' : ℕ} (h : Adjacent m t t') : Adjacent m t' t := by
  obtain ⟨k, hk, h1, h2⟩ := h; exact ⟨k, hk, h2, h1⟩

theorem walk_symm {m : Mesh} {t t' : ℕ} (h : Relation.ReflTransGen (Adjacent m) t t') : Relation.ReflTransGen (Adjacent m) t' t := by
  induction h with
  | refl => exact .refl
  | tail _ h ih => exact .head (adjacent_symm h) ih

/-- every triangle moves rigidly -/
theorem rigid_all {m : Mesh} (w : WF m) (hp : Proper m) (hg : Planar m) {f g : ℕ → ℝ} (hu : ∀ k ∈ m.ekeys, Unstrained m f g k) {t : ℕ}
    (ht : t ∈ m.eids) : ∃ a b c, RigidOn m t f g a b c := by
  obtain ⟨k, hk, t0, htr, hw⟩ := boundary_exists w hp hg (fun e => Relation.ReflTransGen (Adjacent m) t e) (fun e e' h1 h2 => h1.tail h2) ht .refl
  have h0 := rigid_boundary w hp hg hk htr (hu k hk)
  have := walk_symm hw
  clear hw htr
  induction this with
  | refl => exact h0
  | tail _ h ih => exact rigid_adjacent w hp hg hu h (ih (by obtain ⟨k, hk, h1, _⟩ := h; exact (side_of w hp.distinct hk h1).choose_spec.1.mem))

/-- the same rigid motion on both sides of a common edge -/
theorem rigid_same {m : Mesh} (w : WF m) (hp : Proper m) (hg : Planar m) {f g : ℕ → ℝ} {t t' : ℕ} (hA : Adjacent m t t') {a b c a' b' c' : ℝ}
    (h : RigidOn m t f g a b c) (h' : RigidOn m t' f g a' b' c') : a' = a ∧ b' = b ∧ c' = c := by
  obtain ⟨k, hk, h1, h2⟩ := hA
  obtain ⟨o, hs, _⟩ := side_of w hp.distinct hk h1
  obtain ⟨o', hs', _⟩ := side_of w hp.distinct hk h2
  have h0 := cr_ne hg hs
  obtain ⟨x1, y1⟩ := h _ ((hs.corner_iff _).2 (Or.inl rfl))
  obtain ⟨x2, y2⟩ := h _ ((hs.corner_iff _).2 (Or.inr (Or.inl rfl)))
  obtain ⟨x1', y1'⟩ := h' _ ((hs'.corner_iff _).2 (Or.inl rfl))
  obtain ⟨x2', y2'⟩ := h' _ ((hs'.corner_iff _).2 (Or.inr (Or.inl rfl)))
  have e1 : (c - c') * (ny m k.2 - ny m k.1) = 0 := by linarith
  have e2 : (c - c') * (nx m k.2 - nx m k.1) = 0 := by linarith
  have hc : c - c' = 0 := by
    by_contra hc
    have q1 := (mul_eq_zero.1 e1).resolve_left hc
    have q2 := (mul_eq_zero.1 e2).resolve_left hc
    apply h0; unfold cr; rw [q1, q2]; ring
  have hc' : c' = c := by linarith
  subst hc'
  exact ⟨by linarith, by linarith, rfl⟩

/-- a pair of fields without smoothed strain is one rigid motion of the whole plate -/
theorem rigid_field {m : Mesh} (w : WF m) (hp : Proper m) (hg : Planar m) (ho : OnePiece m) {f g : ℕ → ℝ} (hu : ∀ k ∈ m.ekeys, Unstrained m f g k) :
    ∃ a b c, RigidField m f g a b c := by
  rcases hE : m.eids with _ | ⟨e0, l⟩
  · refine ⟨0, 0, 0, fun i hi => ?_⟩
    obtain ⟨e, he, _⟩ := ho.used i hi
    rw [hE] at he; simp at he
  have he0 : e0 ∈ m.eids := by rw [hE]; simp
  obtain ⟨a, b, c, h0⟩ := rigid_all w hp hg hu he0
  have hall : ∀ t, Relation.ReflTransGen (Adjacent m) e0 t → RigidOn m t f g a b c := by
    intro t ht
    induction ht with
    | refl => exact h0
    | tail _ hA ih =>
      obtain ⟨k, hk, _, h2⟩ := id hA
      obtain ⟨a', b', c', h'⟩ := rigid_all w hp hg hu ((side_of w hp.distinct hk h2).choose_spec.1.mem)
      obtain ⟨rfl, rfl, rfl⟩ := rigid_same w hp hg hA ih h'
      exact h'
  refine ⟨a, b, c, fun i hi => ?_⟩
  obtain ⟨e, he, hc⟩ := ho.used i hi
  exact hall e (ho.walk e0 he0 e he) i hc

end Meshless
