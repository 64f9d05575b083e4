import Verif.Lemmas.Turn
import Verif.Props.K0s

set_option autoImplicit false

namespace Meshless
open Spec Finset

section
variable {q : Fin 2 → Fin 2 → ℝ} {π σ : ℕ → ℕ} {a b : ℝ} {m m' : Mesh}

/-- `A'` lists the nodes called `A` in the other mesh -/
def SameVertex (π : ℕ → ℕ) (m : Mesh) (A A' : List ℕ) : Prop := A'.Perm (A.map π) ∧ InMesh m A

theorem SameVertex.single {i : ℕ} (hi : i ∈ m.nids) : SameVertex π m [i] [π i] := ⟨List.Perm.refl _, inMesh_single hi⟩

theorem SameVertex.mean_eq {A A' : List ℕ} (h : SameVertex π m A A') (f : ℕ → ℝ) : Spec.mean f A' = Spec.mean (fun i => f (π i)) A := by
  unfold Spec.mean
  rw [(h.1.map f).sum_eq, List.map_map, h.1.length_eq, List.length_map]
  rfl

theorem Spec.TurnedGeom.vx (h : TurnedGeom q π σ a b m m') {A A' : List ℕ} (hA : SameVertex π m A A') :
    Spec.mean (nx m') A' = q 0 0 * Spec.mean (nx m) A + q 0 1 * Spec.mean (ny m) A + a := by
  rw [hA.mean_eq]
  exact mean_affine _ _ _ _ _ _ hA.2.1 fun i hi => h.hx i (hA.2.2 i hi)

theorem Spec.TurnedGeom.vy (h : TurnedGeom q π σ a b m m') {A A' : List ℕ} (hA : SameVertex π m A A') :
    Spec.mean (ny m') A' = q 1 0 * Spec.mean (nx m) A + q 1 1 * Spec.mean (ny m) A + b := by
  rw [hA.mean_eq]
  exact mean_affine _ _ _ _ _ _ hA.2.1 fun i hi => h.hy i (hA.2.2 i hi)

theorem Spec.TurnedDisp.vw {z z' : ℕ → ℝ} (hz : TurnedDisp q π m m' z z') {A A' : List ℕ} (hA : SameVertex π m A A') :
    Spec.mean (disp m' z' 2) A' = Spec.mean (disp m z 2) A := by
  rw [hA.mean_eq]
  exact mean_congr fun i hi => hz.w i (hA.2.2 i hi)

theorem Spec.TurnedDisp.vphix {z z' : ℕ → ℝ} (hz : TurnedDisp q π m m' z z') {A A' : List ℕ} (hA : SameVertex π m A A') :
    Spec.mean (disp m' z' 3) A' = q 0 0 * Spec.mean (disp m z 3) A + q 0 1 * Spec.mean (disp m z 4) A := by
  rw [hA.mean_eq]
  exact mean_two _ _ _ _ _ hA.2.1 fun i hi => hz.phix i (hA.2.2 i hi)

theorem Spec.TurnedDisp.vphiy {z z' : ℕ → ℝ} (hz : TurnedDisp q π m m' z z') {A A' : List ℕ} (hA : SameVertex π m A A') :
    Spec.mean (disp m' z' 4) A' = q 1 0 * Spec.mean (disp m z 3) A + q 1 1 * Spec.mean (disp m z 4) A := by
  rw [hA.mean_eq]
  exact mean_two _ _ _ _ _ hA.2.1 fun i hi => hz.phiy i (hA.2.2 i hi)

theorem Spec.TurnedGeom.varea (h : TurnedGeom q π σ a b m m') {δ : ℝ} (h11 : q 1 1 = δ * q 0 0) (h10 : q 1 0 = -(δ * q 0 1)) (hq : Orthogonal q)
    {A B C A' B' C' : List ℕ} (hA : SameVertex π m A A') (hB : SameVertex π m B B') (hC : SameVertex π m C C') :
    sarea m' [A', B', C'] = δ * sarea m [A, B, C] := by
  rw [sarea3, sarea3, h.vx hA, h.vx hB, h.vx hC, h.vy hA, h.vy hB, h.vy hC, h11, h10]
  linear_combination (δ * ((Spec.mean (nx m) B - Spec.mean (nx m) A) * (Spec.mean (ny m) C - Spec.mean (ny m) A)
    - (Spec.mean (nx m) C - Spec.mean (nx m) A) * (Spec.mean (ny m) B - Spec.mean (ny m) A)) / 2) * hq.row0

/-- shear gaps do not depend on the axes -/
theorem Spec.TurnedGeom.gap (h : TurnedGeom q π σ a b m m') (hq : Orthogonal q) {z z' : ℕ → ℝ} (hz : TurnedDisp q π m m' z z') {A B A' B' : List ℕ}
    (hA : SameVertex π m A A') (hB : SameVertex π m B B') : Spec.gap m' z' A' B' = Spec.gap m z A B := by
  obtain ⟨δ, hδ, h11, h10⟩ := hq.det
  have h0 := hq.row0
  have h2 : δ * δ = 1 := by rcases hδ with rfl | rfl <;> norm_num
  unfold Spec.gap
  rw [h.vx hA, h.vx hB, h.vy hA, h.vy hB, hz.vw hA, hz.vw hB, hz.vphix hA, hz.vphix hB, hz.vphiy hA, hz.vphiy hB, h11, h10]
  generalize Spec.mean (disp m z 3) A = p1
  generalize Spec.mean (disp m z 3) B = p2
  generalize Spec.mean (disp m z 4) A = r1
  generalize Spec.mean (disp m z 4) B = r2
  generalize Spec.mean (nx m) A = x1
  generalize Spec.mean (nx m) B = x2
  generalize Spec.mean (ny m) A = y1
  generalize Spec.mean (ny m) B = y2
  linear_combination ((p1 + p2) / 2 * (x2 - x1) + (r1 + r2) / 2 * (y2 - y1)) * h0 +
    (-(q 0 1) * (p1 + p2) / 2 + q 0 0 * (r1 + r2) / 2) * (-(q 0 1) * (x2 - x1) + q 0 0 * (y2 - y1)) * h2

/-- discrete shear gap strains turn like vectors -/
theorem Spec.TurnedGeom.dsg (h : TurnedGeom q π σ a b m m') (hq : Orthogonal q) {z z' : ℕ → ℝ} (hz : TurnedDisp q π m m' z z') {A B C A' B' C' : List ℕ}
    (hA : SameVertex π m A A') (hB : SameVertex π m B B') (hC : SameVertex π m C C') :
    Spec.dsg m' z' A' B' C' 0 = q 0 0 * Spec.dsg m z A B C 0 + q 0 1 * Spec.dsg m z A B C 1 ∧
    Spec.dsg m' z' A' B' C' 1 = q 1 0 * Spec.dsg m z A B C 0 + q 1 1 * Spec.dsg m z A B C 1 := by
  obtain ⟨δ, hδ, h11, h10⟩ := hq.det
  simp only [Spec.dsg, Matrix.cons_val_zero, Matrix.cons_val_one, h.varea h11 h10 hq hA hB hC, h.gap hq hz hA hB, h.gap hq hz hA hC, h.vx hA, h.vx hB,
    h.vx hC, h.vy hA, h.vy hB, h.vy hC, h11, h10]
  generalize sarea m [A, B, C] = S
  rcases hδ with rfl | rfl
  · constructor <;> ring
  · simp only [neg_mul, one_mul, mul_neg, div_neg, neg_neg]
    constructor <;> ring

theorem corner_vertex (w : WF m) {e : ℕ} (he : e ∈ m.eids) (h : TurnedGeom q π σ a b m m') : SameVertex π m (corners m e) (corners m' (σ e)) :=
  ⟨h.tri e he, by simp [corners], fun _ hi => w.corner_mem he hi⟩

theorem corner_nids (w : WF m) {e : ℕ} (he : e ∈ m.eids) : (m.tria e).n1 ∈ m.nids ∧ (m.tria e).n2 ∈ m.nids ∧ (m.tria e).n3 ∈ m.nids :=
  ⟨w.corner_mem he (by simp [corners]), w.corner_mem he (by simp [corners]), w.corner_mem he (by simp [corners])⟩

theorem Spec.TurnedGeom.triArea (h : TurnedGeom q π σ a b m m') (hq : Orthogonal q) (w : WF m) {e : ℕ} (he : e ∈ m.eids) :
    Spec.triArea m' (σ e) = Spec.triArea m e := by
  obtain ⟨δ, hδ, h11, h10⟩ := hq.det
  obtain ⟨k1, k2, k3⟩ := corner_nids w he
  have habs : ∀ x : ℝ, |δ * x| = |x| := by intro x; rw [abs_mul]; rcases hδ with rfl | rfl <;> simp
  have s1 := SameVertex.single (π := π) k1
  have s2 := SameVertex.single (π := π) k2
  have s3 := SameVertex.single (π := π) k3
  unfold Spec.triArea
  rcases perm3_cases (h.tri e he).symm with ⟨h1, h2, h3⟩ | ⟨h1, h2, h3⟩ | ⟨h1, h2, h3⟩ | ⟨h1, h2, h3⟩ | ⟨h1, h2, h3⟩ | ⟨h1, h2, h3⟩ <;> rw [h1, h2, h3]
  · rw [h.varea h11 h10 hq s1 s2 s3, habs]
  all_goals first
    | rw [h.varea h11 h10 hq s1 s3 s2, habs, ← abs_neg, sarea3, sarea3]; congr 1; ring1
    | rw [h.varea h11 h10 hq s2 s1 s3, habs, ← abs_neg, sarea3, sarea3]; congr 1; ring1
    | rw [h.varea h11 h10 hq s3 s2 s1, habs, ← abs_neg, sarea3, sarea3]; congr 1; ring1
    | rw [h.varea h11 h10 hq s2 s3 s1, habs, sarea3, sarea3]; congr 1; ring1
    | rw [h.varea h11 h10 hq s3 s1 s2, habs, sarea3, sarea3]; congr 1; ring1

theorem cellGamma_sides (m : Mesh) (e : ℕ) (z : ℕ → ℝ) (r : Fin 2) : Spec.cellGamma m e z r =
    (|sarea m [corners m e, [(m.tria e).n1], [(m.tria e).n2]]| * Spec.dsg m z (corners m e) [(m.tria e).n1] [(m.tria e).n2] r +
      |sarea m [corners m e, [(m.tria e).n2], [(m.tria e).n3]]| * Spec.dsg m z (corners m e) [(m.tria e).n2] [(m.tria e).n3] r +
      |sarea m [corners m e, [(m.tria e).n3], [(m.tria e).n1]]| * Spec.dsg m z (corners m e) [(m.tria e).n3] [(m.tria e).n1] r) / Spec.triArea m e := by
  unfold cellGamma tpoly
  simp only [show sides [[(m.tria e).n1], [(m.tria e).n2], [(m.tria e).n3]] = [([(m.tria e).n1], [(m.tria e).n2]), ([(m.tria e).n2], [(m.tria e).n3]),
    ([(m.tria e).n3], [(m.tria e).n1])] from rfl, List.map_cons, List.map_nil, List.sum_cons, List.sum_nil]
  congr 1
  ring

/-- the smoothed shear strain of a triangle turns like a vector -/
theorem Spec.TurnedGeom.cellStrain (h : TurnedGeom q π σ a b m m') (hq : Orthogonal q) (w : WF m) {e : ℕ} (he : e ∈ m.eids) {z z' : ℕ → ℝ}
    (hz : TurnedDisp q π m m' z z') :
    Spec.cellStrain m' (σ e) z' 0 = q 0 0 * Spec.cellStrain m e z 0 + q 0 1 * Spec.cellStrain m e z 1 ∧
    Spec.cellStrain m' (σ e) z' 1 = q 1 0 * Spec.cellStrain m e z 0 + q 1 1 * Spec.cellStrain m e z 1 := by
  obtain ⟨k1, k2, k3⟩ := corner_nids w he
  have hc := corner_vertex w he h
  have hrot : ∀ r : Fin 2, rotSum m' (σ e) z' r = 3 * Spec.mean (disp m' z' (3 + r.val)) (corners m' (σ e)) := by
    intro r; unfold rotSum Spec.mean; simp [corners]; ring
  have hrot2 : ∀ r : Fin 2, rotSum m e z r = 3 * Spec.mean (disp m z (3 + r.val)) (corners m e) := by
    intro r; unfold rotSum Spec.mean; simp [corners]; ring
  set T' : ℕ → ℕ → Fin 2 → ℝ := fun i j r => |sarea m' [corners m' (σ e), [i], [j]]| * Spec.dsg m' z' (corners m' (σ e)) [i] [j] r with hT'
  set T : ℕ → ℕ → Fin 2 → ℝ := fun i j r => |sarea m [corners m e, [i], [j]]| * Spec.dsg m z (corners m e) [i] [j] r with hT
  have hTT : ∀ i ∈ m.nids, ∀ j ∈ m.nids, T' (π i) (π j) 0 = q 0 0 * T i j 0 + q 0 1 * T i j 1 ∧ T' (π i) (π j) 1 = q 1 0 * T i j 0 + q 1 1 * T i j 1 := by
    intro i hi j hj
    obtain ⟨d0, d1⟩ := h.dsg hq hz hc (SameVertex.single hi) (SameVertex.single hj)
    obtain ⟨δ, hδ, h11, h10⟩ := hq.det
    have ha : |sarea m' [corners m' (σ e), [π i], [π j]]| = |sarea m [corners m e, [i], [j]]| := by
      rw [h.varea h11 h10 hq hc (SameVertex.single hi) (SameVertex.single hj), abs_mul]
      rcases hδ with rfl | rfl <;> simp
    simp only [hT', hT, ha, d0, d1]
    constructor <;> ring
  have Tsymm : ∀ i j r, T i j r = T j i r := by
    intro i j r
    simp only [hT]
    rw [dsg_swap]
    congr 1
    rw [show sarea m [corners m e, [i], [j]] = - sarea m [corners m e, [j], [i]] by rw [sarea3, sarea3]; ring, abs_neg]
  have hsum : ∀ r : Fin 2, Spec.cellGamma m e z r = (T (m.tria e).n1 (m.tria e).n2 r + T (m.tria e).n2 (m.tria e).n3 r + T (m.tria e).n3 (m.tria e).n1 r) / Spec.triArea m e :=
    fun r => cellGamma_sides m e z r
  have hsum' : ∀ r : Fin 2, Spec.cellGamma m' (σ e) z' r =
      (T' (π (m.tria e).n1) (π (m.tria e).n2) r + T' (π (m.tria e).n2) (π (m.tria e).n3) r + T' (π (m.tria e).n3) (π (m.tria e).n1) r) / Spec.triArea m' (σ e) := by
    intro r
    have Tsymm' : ∀ i j, T' i j r = T' j i r := by
      intro i j
      simp only [hT']
      rw [dsg_swap]
      congr 1
      rw [show sarea m' [corners m' (σ e), [i], [j]] = - sarea m' [corners m' (σ e), [j], [i]] by rw [sarea3, sarea3]; ring, abs_neg]
    rw [cellGamma_sides]
    change (T' _ _ r + T' _ _ r + T' _ _ r) / _ = _
    congr 1
    rcases perm3_cases (h.tri e he).symm with ⟨h1, h2, h3⟩ | ⟨h1, h2, h3⟩ | ⟨h1, h2, h3⟩ | ⟨h1, h2, h3⟩ | ⟨h1, h2, h3⟩ | ⟨h1, h2, h3⟩ <;>
      rw [h1, h2, h3] <;> linarith [Tsymm' (π (m.tria e).n1) (π (m.tria e).n2), Tsymm' (π (m.tria e).n2) (π (m.tria e).n3), Tsymm' (π (m.tria e).n3) (π (m.tria e).n1)]
  unfold Spec.cellStrain
  simp only [hsum, hsum', hrot, hrot2, h.triArea hq w he, (hTT _ k1 _ k2).1, (hTT _ k1 _ k2).2, (hTT _ k2 _ k3).1, (hTT _ k2 _ k3).2, (hTT _ k3 _ k1).1, (hTT _ k3 _ k1).2]
  have e3 := hz.vphix hc
  have e4 := hz.vphiy hc
  simp only [show (3 + (0 : Fin 2).val) = 3 from rfl, show (3 + (1 : Fin 2).val) = 4 from rfl, e3, e4]
  constructor <;> ring

theorem Spec.LamRel.cavg {R : Lam → Lam → Prop} (hr : LamRel R π σ m m') (h : TurnedGeom q π σ a b m m') (w : WF m) (pn : Bool) {e : ℕ} (he : e ∈ m.eids)
    {sel sel' : Lam → ℝ} (hs : ∀ p p', R p p' → sel' p' = sel p) : Spec.cavg m' pn (σ e) sel' = Spec.cavg m pn e sel := by
  unfold Spec.cavg
  rw [(corner_vertex w he h).mean_eq, ofProp_rel hs (hr.tprop e he), mean_congr (l := corners m e) fun i hi => ofProp_rel hs (hr.nprop i (w.corner_mem he hi))]

theorem Spec.TurnedGeom.charLen (h : TurnedGeom q π σ a b m m') (hq : Orthogonal q) (w : WF m) (fa : Bool) {e : ℕ} (he : e ∈ m.eids) :
    Spec.charLen m' fa (σ e) = Spec.charLen m fa e := by
  obtain ⟨k1, k2, k3⟩ := corner_nids w he
  have hd : ∀ i ∈ m.nids, ∀ j ∈ m.nids, dist2 m' (π i) (π j) = dist2 m i j := by
    intro i hi j hj
    obtain ⟨δ, hδ, h11, h10⟩ := hq.det
    have h2 : δ * δ = 1 := by rcases hδ with rfl | rfl <;> norm_num
    unfold dist2
    rw [h.hx i hi, h.hx j hj, h.hy i hi, h.hy j hj, h11, h10]
    congr 1
    linear_combination ((nx m i - nx m j) ^ 2 + (ny m i - ny m j) ^ 2) * hq.row0 +
      (-(q 0 1) * (nx m i - nx m j) + q 0 0 * (ny m i - ny m j)) ^ 2 * h2
  unfold Spec.charLen
  rw [h.triArea hq w he]
  dsimp only
  congr 1
  rcases perm3_cases (h.tri e he).symm with ⟨h1, h2, h3⟩ | ⟨h1, h2, h3⟩ | ⟨h1, h2, h3⟩ | ⟨h1, h2, h3⟩ | ⟨h1, h2, h3⟩ | ⟨h1, h2, h3⟩ <;> rw [h1, h2, h3] <;>
    simp only [hd _ k1 _ k2, hd _ k2 _ k3, hd _ k3 _ k1, hd _ k2 _ k1, hd _ k3 _ k2, hd _ k1 _ k3]
  all_goals
    try simp only [dist2_comm m (m.tria e).n2 (m.tria e).n1, dist2_comm m (m.tria e).n3 (m.tria e).n2, dist2_comm m (m.tria e).n1 (m.tria e).n3]
    try simp only [max_comm, max_left_comm, max_assoc]

theorem Spec.TurnedGeom.shearMod (h : TurnedGeom q π σ a b m m') (hq : Orthogonal q) (hr : LamRel SameShear π σ m m') (w : WF m) (pn : Bool) (al : ℝ)
    (fa : Bool) {e : ℕ} (he : e ∈ m.eids) (r : Fin 2) : Spec.shearMod m' pn al fa (σ e) r = Spec.shearMod m pn al fa e r := by
  unfold Spec.shearMod
  rw [h.charLen hq w fa he, hr.cavg h w pn he (sel := fun l => l.h) (sel' := fun l => l.h) fun p p' hh => hh.1,
    hr.cavg h w pn he (sel := fun l => l.k13) (sel' := fun l => l.k13) fun p p' hh => hh.2.1,
    hr.cavg h w pn he (sel := fun l => l.k23) (sel' := fun l => l.k23) fun p p' hh => hh.2.2.1,
    hr.cavg h w pn he (sel := fun l => l.E 0 0) (sel' := fun l => l.E 0 0) fun p p' hh => hh.2.2.2.1,
    hr.cavg h w pn he (sel := fun l => l.E 1 1) (sel' := fun l => l.E 1 1) fun p p' hh => hh.2.2.2.2]

theorem cavg_congr (w : WF m) {P : Lam → Prop} (hP : AllLams m P) (pn : Bool) {e : ℕ} (he : e ∈ m.eids) {sel sel' : Lam → ℝ} (hs : ∀ p, P p → sel p = sel' p) :
    Spec.cavg m pn e sel = Spec.cavg m pn e sel' := by
  have hof : ∀ o : Option Lam, (∀ p, o = some p → P p) → ofProp sel o = ofProp sel' o := by
    intro o ho
    cases o with
    | none => rfl
    | some p => exact hs p (ho p rfl)
  unfold Spec.cavg
  rw [hof _ (hP.2 e he), mean_congr (l := corners m e) fun i hi => hof _ (hP.1 i (w.corner_mem he hi))]

/-- with equal shear moduli in all directions the shear energy does not depend on the axes -/
theorem Spec.TurnedGeom.shearEnergy (h : TurnedGeom q π σ a b m m') (hq : Orthogonal q) (hr : LamRel SameShear π σ m m') (w : WF m)
    (hiso : AllLams m ShearIsotropic) (pn : Bool) (al : ℝ) (fa : Bool) {v u v' u' : ℕ → ℝ} (hv : TurnedDisp q π m m' v v')
    (hu : TurnedDisp q π m m' u u') :
    Spec.shearEnergy m' pn al fa (Spec.cellStrain m') v' u' = Spec.shearEnergy m pn al fa (Spec.cellStrain m) v u := by
  obtain ⟨δ, hδ, h11, h10⟩ := hq.det
  have h2 : δ * δ = 1 := by rcases hδ with rfl | rfl <;> norm_num
  unfold Spec.shearEnergy
  rw [(h.eids.map _).sum_eq, List.map_map]
  congr 1
  refine List.map_congr_left fun e he => ?_
  have hE : Spec.shearMod m pn al fa e 1 = Spec.shearMod m pn al fa e 0 := by
    unfold Spec.shearMod
    dsimp only
    rw [if_neg (by decide), if_pos rfl, cavg_congr w hiso pn he (sel := fun l => l.k13) (sel' := fun l => l.k23) fun p hp => hp.1,
      cavg_congr w hiso pn he (sel := fun l => l.E 0 0) (sel' := fun l => l.E 1 1) fun p hp => hp.2]
  simp only [Function.comp, h.triArea hq w he, h.shearMod hq hr w pn al fa he, hE, (h.cellStrain hq w he hv).1, (h.cellStrain hq w he hv).2,
    (h.cellStrain hq w he hu).1, (h.cellStrain hq w he hu).2, h11, h10]
  generalize Spec.cellStrain m e v 0 = v0
  generalize Spec.cellStrain m e v 1 = v1
  generalize Spec.cellStrain m e u 0 = u0
  generalize Spec.cellStrain m e u 1 = u1
  generalize Spec.shearMod m pn al fa e 0 = G
  generalize Spec.triArea m e = S
  linear_combination S * G * (v0 * u0 + v1 * u1) * hq.row0 + S * G * (-(q 0 1) * v0 + q 0 0 * v1) * (-(q 0 1) * u0 + q 0 0 * u1) * h2

/-- the shear energy does not depend on numbering, orders and origin -/
theorem Spec.TurnedGeom.shearEnergy_id (h : TurnedGeom ![![1, 0], ![0, 1]] π σ a b m m') (hr : LamRel SameShear π σ m m') (w : WF m)
    (pn : Bool) (al : ℝ) (fa : Bool) {v u v' u' : ℕ → ℝ} (hv : TurnedDisp ![![1, 0], ![0, 1]] π m m' v v')
    (hu : TurnedDisp ![![1, 0], ![0, 1]] π m m' u u') :
    Spec.shearEnergy m' pn al fa (Spec.cellStrain m') v' u' = Spec.shearEnergy m pn al fa (Spec.cellStrain m) v u := by
  have hq : Orthogonal ![![1, 0], ![0, 1]] := ⟨by simp, by simp, by simp⟩
  unfold Spec.shearEnergy
  rw [(h.eids.map _).sum_eq, List.map_map]
  congr 1
  refine List.map_congr_left fun e he => ?_
  obtain ⟨v0, v1⟩ := h.cellStrain hq w he hv
  obtain ⟨u0, u1⟩ := h.cellStrain hq w he hu
  simp only [Matrix.cons_val_zero, Matrix.cons_val_one, one_mul, zero_mul, zero_add, add_zero] at v0 v1 u0 u1
  simp only [Function.comp, h.triArea hq w he, h.shearMod hq hr w pn al fa he, v0, v1, u0, u1]

end

end Meshless
