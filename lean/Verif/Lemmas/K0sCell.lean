import Verif.Lemmas.K0sLoop
import Verif.Lemmas.Numbered
import Verif.Lemmas.Geom
import Verif.Lemmas.GenCellS
import Verif.Lemmas.GenCellNS

/-! One triangle of the two cell-based shear methods. -/

set_option autoImplicit false

namespace Meshless
open Spec Finset

/-! ### characteristic length -/

/-- `max` of a Python list is its largest element -/
theorem pyMax_spec {l : List ℝ} {a : ℝ} : pyMax l = some a ↔ a ∈ l ∧ ∀ x ∈ l, x ≤ a := by
  have key : ∀ (l : List ℝ) (b : ℝ), (l.foldl max b ∈ b :: l) ∧ ∀ x ∈ b :: l, x ≤ l.foldl max b := by
    intro l
    induction l with
    | nil => intro b; simp
    | cons c l ih =>
      intro b
      obtain ⟨h1, h2⟩ := ih (max b c)
      rw [List.foldl_cons]
      constructor
      · rcases List.mem_cons.1 h1 with h | h
        · rw [h]
          rcases max_choice b c with e | e <;> rw [e] <;> simp
        · simp [h]
      · intro x hx
        have h3 := h2 (max b c) (by simp)
        rcases List.mem_cons.1 hx with rfl | hx
        · exact le_trans (le_max_left _ _) h3
        rcases List.mem_cons.1 hx with rfl | hx
        · exact le_trans (le_max_right _ _) h3
        · exact h2 x (by simp [hx])
  cases l with
  | nil => simp [pyMax]
  | cons b l =>
    simp only [pyMax, Option.some.injEq]
    obtain ⟨h1, h2⟩ := key l b
    constructor
    · rintro rfl; exact ⟨h1, h2⟩
    · rintro ⟨g1, g2⟩; exact le_antisymm (g2 _ h1) (h2 _ g1)

theorem dist2_comm (m : Mesh) (i j : ℕ) : dist2 m i j = dist2 m j i := by
  unfold dist2; congr 1; ring

/-- the 3D distance is the plane distance on a flat mesh -/
theorem norm_flat {m : Mesh} (hf : FlatMesh m) {i j : ℕ} (hi : i ∈ m.nids) (hj : j ∈ m.nids) :
    ((m.node i).xyz.sub (m.node j).xyz).norm = dist2 m i j := by
  unfold Vec3.norm Vec3.sub dist2 nx ny
  dsimp only
  rw [hf.flat i hi j hj]
  congr 1; ring

theorem edgeLen_eq {m : Mesh} (w : WF m) (hf : FlatMesh m) {e : ℕ} (he : e ∈ m.eids) {a b : ℕ} (hk : sortPair a b ∈ (m.tria e).edgeIds) :
    edgeLen m (sortPair a b) = dist2 m a b := by
  have hm := (w.mem_ekeys _).2 ⟨e, he, hk⟩
  unfold edgeLen
  rw [(w.en _ hm).1, (w.en _ hm).2, norm_flat hf (w.ends _ hm).1 (w.ends _ hm).2]
  unfold sortPair
  split
  · rfl
  · exact dist2_comm _ _ _

theorem triaArea_eq {m : Mesh} (w : WF m) (hf : FlatMesh m) {e : ℕ} (he : e ∈ m.eids) : m.triaArea e = triArea m e := by
  obtain ⟨h1, h2, h3⟩ := w.corners he
  have f1 := hf.flat _ h1 _ h2
  have f2 := hf.flat _ h1 _ h3
  have e1 : m.pos (m.tria e).n1 = _ := hf.basic _ h1
  have e2 : m.pos (m.tria e).n2 = _ := hf.basic _ h2
  have e3 : m.pos (m.tria e).n3 = _ := hf.basic _ h3
  unfold Mesh.triaArea triArea
  dsimp only
  rw [e1, e2, e3, sarea3, abs_div, abs_of_pos (by norm_num : (0 : ℝ) < 2)]
  simp only [mean_single, nx, ny]
  congr 1
  unfold Vec3.norm Vec3.cross Vec3.sub
  dsimp only
  rw [← Real.sqrt_sq_eq_abs, ← f1, ← f2]
  congr 1; ring

theorem cellMaxl_eq {m : Mesh} (w : WF m) (hf : FlatMesh m) {e : ℕ} (he : e ∈ m.eids) (fa : Bool) :
    cellMaxl m e (m.triaArea e) fa = .ok (charLen m fa e) := by
  unfold cellMaxl charLen
  cases fa with
  | true => simp [triaArea_eq w hf he]
  | false =>
    simp only [Bool.false_eq_true, if_false]
    have hl : ∀ x, x ∈ (m.tria e).edges.map (edgeLen m) ↔ x = dist2 m (m.tria e).n1 (m.tria e).n2 ∨ x = dist2 m (m.tria e).n2 (m.tria e).n3 ∨
        x = dist2 m (m.tria e).n3 (m.tria e).n1 := by
      intro x
      rw [((w.tedges e he).map _).mem_iff]
      simp only [Tria.edgeIds, List.map_cons, List.map_nil, List.mem_cons, List.not_mem_nil, or_false]
      rw [edgeLen_eq w hf he (by simp [Tria.edgeIds]), edgeLen_eq w hf he (by simp [Tria.edgeIds]), edgeLen_eq w hf he (by simp [Tria.edgeIds])]
    rw [show pyMax ((m.tria e).edges.map (edgeLen m)) = some (max (max (dist2 m (m.tria e).n1 (m.tria e).n2) (dist2 m (m.tria e).n2 (m.tria e).n3))
      (dist2 m (m.tria e).n3 (m.tria e).n1)) from ?_]
    rw [pyMax_spec]
    constructor
    · rw [hl]
      rcases max_choice (max (dist2 m (m.tria e).n1 (m.tria e).n2) (dist2 m (m.tria e).n2 (m.tria e).n3)) (dist2 m (m.tria e).n3 (m.tria e).n1) with h | h
      · rw [h]
        rcases max_choice (dist2 m (m.tria e).n1 (m.tria e).n2) (dist2 m (m.tria e).n2 (m.tria e).n3) with h | h <;> rw [h] <;> simp
      · rw [h]; simp
    · intro x hx
      rw [hl] at hx
      rcases hx with rfl | rfl | rfl <;> simp

/-! ### laminate data -/

/-- averaged data of a triangle -/
noncomputable def cShear (m : Mesh) (pn : Bool) (e : ℕ) : ShearProp :=
  ⟨cavg m pn e fun l => l.k13, cavg m pn e fun l => l.k23, cavg m pn e fun l => l.h, fun i j => cavg m pn e fun l => l.E i j⟩

theorem cavg_nodes {m : Mesh} {e a b c : ℕ} {p q r : Lam} (hp : [a, b, c].Perm (corners m e)) (h1 : (m.node a).prop = some p)
    (h2 : (m.node b).prop = some q) (h3 : (m.node c).prop = some r) (sel : Lam → ℝ) :
    cavg m true e sel = 1 / 3 * sel p + 1 / 3 * sel q + 1 / 3 * sel r := by
  unfold cavg mean
  rw [if_pos rfl, ← (hp.map _).sum_eq, ← hp.length_eq]
  simp only [List.map_cons, List.map_nil, List.sum_cons, List.sum_nil, h1, h2, h3, ofProp, List.length_cons, List.length_nil]
  push_cast
  ring

theorem cellShear_eq {m : Mesh} {pn : Bool} (hh : HasProps m pn) {e : ℕ} (he : e ∈ m.eids) {a b c : ℕ} (hp : [a, b, c].Perm (corners m e)) :
    cellShear m pn e a b c = .ok (cShear m pn e) := by
  unfold cellShear
  cases pn with
  | true =>
    rw [if_pos rfl]
    unfold HasProps at hh
    rw [if_pos rfl] at hh
    have hc : ∀ i ∈ [a, b, c], ∃ p, (m.node i).prop = some p := by
      intro i hi
      have := hp.mem_iff.1 hi
      exact Option.isSome_iff_exists.1 (hh e he i (by simpa [corners, IsCorner] using this))
    obtain ⟨p, h1⟩ := hc a (by simp)
    obtain ⟨q, h2⟩ := hc b (by simp)
    obtain ⟨r, h3⟩ := hc c (by simp)
    rw [h1, h2, h3]
    simp only [cShear, shear3, cavg_nodes hp h1 h2 h3]
    rfl
  | false =>
    unfold HasProps at hh
    simp only [Bool.false_eq_true, if_false] at hh ⊢
    obtain ⟨p, h⟩ := Option.isSome_iff_exists.1 (hh e he)
    rw [h]
    simp only [cShear, cavg, h, ofProp, Bool.false_eq_true, if_false]
    rfl

/-- `1 / (1 + alpha*maxl**2/h**2)` as a quotient -/
theorem stab_eq {al l h : ℝ} (hh : h ≠ 0) : stab al l h = h ^ 2 / (h ^ 2 + al * l ^ 2) := by
  unfold stab
  have : h ^ 2 ≠ 0 := pow_ne_zero 2 hh
  rw [show 1 + al * l ^ 2 / h ^ 2 = (h ^ 2 + al * l ^ 2) / h ^ 2 by field_simp, one_div_div]

/-! ### orientation -/

theorem mid_flat {m : Mesh} (w : WF m) (hf : FlatMesh m) {e : ℕ} (he : e ∈ m.eids) :
    (m.mid e).x = mean (nx m) (corners m e) ∧ (m.mid e).y = mean (ny m) (corners m e) := by
  obtain ⟨h1, h2, h3⟩ := w.corners he
  have e1 : m.pos (m.tria e).n1 = _ := hf.basic _ h1
  have e2 : m.pos (m.tria e).n2 = _ := hf.basic _ h2
  have e3 : m.pos (m.tria e).n3 = _ := hf.basic _ h3
  unfold Mesh.mid mean corners
  dsimp only
  rw [e1, e2, e3]
  simp only [List.map_cons, List.map_nil, List.sum_cons, List.sum_nil, List.length_cons, List.length_nil, nx, ny]
  constructor <;> push_cast <;> ring

theorem mean_corners' (m : Mesh) (e : ℕ) (f : ℕ → ℝ) : mean f (corners m e) = (f (m.tria e).n1 + f (m.tria e).n2 + f (m.tria e).n3) / 3 := by
  unfold mean corners
  simp only [List.map_cons, List.map_nil, List.sum_cons, List.sum_nil, List.length_cons, List.length_nil]
  push_cast; ring

/-- the corners in the order used by the code are counter-clockwise -/
structure Ccw (m : Mesh) (e a b c : ℕ) : Prop where
  perm : [a, b, c].Perm (corners m e)
  pos : 0 < sarea m [[a], [b], [c]]
  area : sarea m [[a], [b], [c]] = triArea m e

theorem ccw_of {m : Mesh} (hf : FlatMesh m) {e : ℕ} (he : e ∈ m.eids) :
    (0 < sarea m (tpoly m e) ∧ Ccw m e (m.tria e).n1 (m.tria e).n2 (m.tria e).n3) ∨
    (sarea m (tpoly m e) < 0 ∧ Ccw m e (m.tria e).n2 (m.tria e).n1 (m.tria e).n3) := by
  have hs : sarea m [[(m.tria e).n2], [(m.tria e).n1], [(m.tria e).n3]] = - sarea m [[(m.tria e).n1], [(m.tria e).n2], [(m.tria e).n3]] := by
    rw [sarea3, sarea3]; ring
  unfold tpoly
  rcases lt_or_gt_of_ne (hf.nondeg e he) with h | h
  · right
    refine ⟨h, List.Perm.swap _ _ _, by rw [hs]; linarith, ?_⟩
    rw [hs]; unfold triArea; rw [abs_of_neg h]
  · left
    exact ⟨h, List.Perm.refl _, h, by unfold triArea; rw [abs_of_pos h]⟩

theorem cellOrient_ccw {m : Mesh} (w : WF m) (hf : FlatMesh m) {e : ℕ} (he : e ∈ m.eids) :
    Ccw m e (cellOrient m e).1 (cellOrient m e).2.1 (cellOrient m e).2.2 := by
  have hsign : Vec3.dot (Vec3.cross ((m.node (m.tria e).n1).xyz.sub (m.mid e)) ((m.node (m.tria e).n2).xyz.sub (m.mid e))) zGlobal =
      2 / 3 * sarea m (tpoly m e) := by
    obtain ⟨hx, hy⟩ := mid_flat w hf he
    unfold tpoly
    rw [sarea3]
    simp only [Vec3.dot, Vec3.cross, Vec3.sub, zGlobal, hx, hy, mean_corners', mean_single, nx, ny]
    ring
  unfold cellOrient
  dsimp only
  rw [hsign]
  rcases ccw_of hf he with ⟨h, hc⟩ | ⟨h, hc⟩
  · rw [if_neg (by linarith)]; exact hc
  · rw [if_pos (by linarith)]; exact hc

theorem cellNSOrient_eq {m : Mesh} (e : ℕ) : cellNSOrient m e =
    if sarea m (tpoly m e) < 0 then ((m.tria e).n2, (m.tria e).n1, (m.tria e).n3) else ((m.tria e).n1, (m.tria e).n2, (m.tria e).n3) := by
  have hsign : Vec3.dot (Vec3.cross ((m.node (m.tria e).n2).xyz.sub (m.node (m.tria e).n1).xyz) ((m.node (m.tria e).n3).xyz.sub (m.node (m.tria e).n1).xyz)) zGlobal =
      2 * sarea m (tpoly m e) := by
    unfold tpoly
    rw [sarea3]
    simp only [Vec3.dot, Vec3.cross, Vec3.sub, zGlobal, mean_single, nx, ny]
    ring
  unfold cellNSOrient
  dsimp only
  rw [hsign]
  by_cases h : sarea m (tpoly m e) < 0
  · rw [if_pos (by linarith), if_pos h]
  · rw [if_neg (by linarith), if_neg h]

theorem cellNSOrient_ccw {m : Mesh} (hf : FlatMesh m) {e : ℕ} (he : e ∈ m.eids) :
    Ccw m e (cellNSOrient m e).1 (cellNSOrient m e).2.1 (cellNSOrient m e).2.2 := by
  rw [cellNSOrient_eq]
  rcases ccw_of hf he with ⟨h, hc⟩ | ⟨h, hc⟩
  · rw [if_neg (by linarith)]; exact hc
  · rw [if_pos (by linarith)]; exact hc

theorem Ccw.mem {m : Mesh} {e a b c : ℕ} (h : Ccw m e a b c) (w : WF m) (he : e ∈ m.eids) : a ∈ m.nids ∧ b ∈ m.nids ∧ c ∈ m.nids :=
  ⟨w.corner_mem he (h.perm.mem_iff.1 (by simp)), w.corner_mem he (h.perm.mem_iff.1 (by simp)), w.corner_mem he (h.perm.mem_iff.1 (by simp))⟩

theorem Ccw.mean {m : Mesh} {e a b c : ℕ} (h : Ccw m e a b c) (f : ℕ → ℝ) : mean f (corners m e) = (f a + f b + f c) / 3 := by
  unfold Spec.mean
  rw [← (h.perm.map _).sum_eq, ← h.perm.length_eq]
  simp only [List.map_cons, List.map_nil, List.sum_cons, List.sum_nil, List.length_cons, List.length_nil]
  push_cast; ring

end Meshless
