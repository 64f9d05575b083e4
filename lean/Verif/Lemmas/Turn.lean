import Verif.Spec.Turn
import Verif.Lemmas.Iso
import Mathlib.Algebra.BigOperators.Field

set_option autoImplicit false

namespace Meshless
open Spec Finset

/-! ### the map -/

theorem Spec.Orthogonal.det {q : Fin 2 → Fin 2 → ℝ} (h : Orthogonal q) : ∃ δ : ℝ, (δ = 1 ∨ δ = -1) ∧ q 1 1 = δ * q 0 0 ∧ q 1 0 = -(δ * q 0 1) := by
  refine ⟨q 0 0 * q 1 1 - q 0 1 * q 1 0, ?_, ?_, ?_⟩
  · have : (q 0 0 * q 1 1 - q 0 1 * q 1 0) ^ 2 = 1 := by
      have e : (q 0 0 * q 1 1 - q 0 1 * q 1 0) ^ 2 = (q 0 0 ^ 2 + q 0 1 ^ 2) * (q 1 0 ^ 2 + q 1 1 ^ 2) - (q 0 0 * q 1 0 + q 0 1 * q 1 1) ^ 2 := by ring
      rw [e, h.row0, h.row1, h.cross]; norm_num
    have : (q 0 0 * q 1 1 - q 0 1 * q 1 0 - 1) * (q 0 0 * q 1 1 - q 0 1 * q 1 0 + 1) = 0 := by linear_combination this
    rcases mul_eq_zero.1 this with h | h
    · left; linarith
    · right; linarith
  · linear_combination (-(q 1 1)) * h.row0 + q 0 1 * h.cross
  · linear_combination (-(q 1 0)) * h.row0 + q 0 0 * h.cross

theorem turnStrain_add (q : Fin 2 → Fin 2 → ℝ) (e f : Fin 6 → ℝ) : turnStrain q (e + f) = turnStrain q e + turnStrain q f := by
  funext i
  fin_cases i <;> simp [turnStrain] <;> ring

theorem specAbd_symm (p : Lam) (i j : Fin 6) : abd p i j = abd p j i := by
  fin_cases i <;> fin_cases j <;> rfl

theorem lamProd_symm (p : Lam) (x y : Fin 6 → ℝ) : lamProd p x y = lamProd p y x := by
  unfold lamProd
  rw [Finset.sum_comm]
  refine Finset.sum_congr rfl fun i _ => Finset.sum_congr rfl fun j _ => ?_
  rw [specAbd_symm p j i]; ring

theorem lamProd_add (p : Lam) (x y : Fin 6 → ℝ) : lamProd p (x + y) (x + y) = lamProd p x x + lamProd p y y + 2 * lamProd p x y := by
  have h : lamProd p (x + y) (x + y) = lamProd p x x + lamProd p y y + (lamProd p x y + lamProd p y x) := by
    unfold lamProd
    simp only [← Finset.sum_add_distrib]
    refine Finset.sum_congr rfl fun i _ => Finset.sum_congr rfl fun j _ => ?_
    simp only [Pi.add_apply]; ring
  rw [h, lamProd_symm p y x]; ring

theorem Spec.TurnedLam.prod {q : Fin 2 → Fin 2 → ℝ} {p p' : Lam} (h : TurnedLam q p p') (x y : Fin 6 → ℝ) :
    lamProd p' (turnStrain q x) (turnStrain q y) = lamProd p x y := by
  have h1 := h (x + y)
  rw [turnStrain_add, lamProd_add, lamProd_add, h x, h y] at h1
  linarith

/-! ### averages are linear -/

theorem ofProp_sum {ι : Type} (s : Finset ι) (c : ι → ℝ) (sel : ι → Lam → ℝ) (p : Option Lam) :
    ofProp (fun l => ∑ i ∈ s, c i * sel i l) p = ∑ i ∈ s, c i * ofProp (sel i) p := by
  cases p <;> simp [ofProp]

theorem mean_sum {ι : Type} (s : Finset ι) (c : ι → ℝ) (f : ι → ℕ → ℝ) (l : List ℕ) :
    Spec.mean (fun n => ∑ i ∈ s, c i * f i n) l = ∑ i ∈ s, c i * Spec.mean (f i) l := by
  unfold Spec.mean
  have : (l.map fun n => ∑ i ∈ s, c i * f i n).sum = ∑ i ∈ s, c i * (l.map (f i)).sum := by
    induction l with
    | nil => simp
    | cons a l ih => simp only [List.map_cons, List.sum_cons, ih, mul_add, Finset.sum_add_distrib]
  rw [this, Finset.sum_div]
  exact Finset.sum_congr rfl fun i _ => by rw [mul_div_assoc]

theorem listSum_sum {α ι : Type} (s : Finset ι) (c : ι → ℝ) (f : ι → α → ℝ) (l : List α) :
    (l.map fun n => ∑ i ∈ s, c i * f i n).sum = ∑ i ∈ s, c i * (l.map (f i)).sum := by
  induction l with
  | nil => simp
  | cons a l ih => simp only [List.map_cons, List.sum_cons, ih, mul_add, Finset.sum_add_distrib]

theorem avg_sum {ι : Type} (m : Mesh) (pn : Bool) (k : Key) (s : Finset ι) (c : ι → ℝ) (sel : ι → Lam → ℝ) :
    Spec.avg m pn k (fun l => ∑ i ∈ s, c i * sel i l) = ∑ i ∈ s, c i * Spec.avg m pn k (sel i) := by
  unfold Spec.avg
  cases pn with
  | true =>
    simp only [if_true]
    have h1 : ((Spec.dom m k).map (Spec.mean fun n => ofProp (fun l => ∑ i ∈ s, c i * sel i l) (m.node n).prop)).sum =
        ∑ i ∈ s, c i * ((Spec.dom m k).map (Spec.mean fun n => ofProp (sel i) (m.node n).prop)).sum := by
      rw [← listSum_sum]
      congr 1
      refine List.map_congr_left fun g _ => ?_
      simp only [ofProp_sum]
      exact mean_sum _ _ _ _
    rw [h1, Finset.sum_div]
    exact Finset.sum_congr rfl fun i _ => by rw [mul_div_assoc]
  | false =>
    simp only [Bool.false_eq_true, if_false]
    have h1 : ((m.edge k).trias.map fun t => triArea m t * ofProp (fun l => ∑ i ∈ s, c i * sel i l) (m.tria t).prop).sum =
        ∑ i ∈ s, c i * ((m.edge k).trias.map fun t => triArea m t * ofProp (sel i) (m.tria t).prop).sum := by
      rw [← listSum_sum]
      congr 1
      refine List.map_congr_left fun g _ => ?_
      rw [ofProp_sum, Finset.mul_sum]
      exact Finset.sum_congr rfl fun i _ => by ring
    rw [h1, Finset.sum_div]
    exact Finset.sum_congr rfl fun i _ => by rw [mul_div_assoc]

/-- the laminate energy of an edge is the average of the laminate energies -/
theorem avg_lamProd (m : Mesh) (pn : Bool) (k : Key) (x y : Fin 6 → ℝ) :
    ∑ p, ∑ q, x p * Spec.avg m pn k (fun l => abd l p q) * y q = Spec.avg m pn k (fun l => lamProd l x y) := by
  have h : (fun l : Lam => lamProd l x y) = fun l => ∑ i : Fin 6 × Fin 6, (x i.1 * y i.2) * abd l i.1 i.2 := by
    funext l
    unfold lamProd
    rw [Fintype.sum_prod_type]
    exact Finset.sum_congr rfl fun i _ => Finset.sum_congr rfl fun j _ => by ring
  rw [h, avg_sum, Fintype.sum_prod_type]
  exact Finset.sum_congr rfl fun i _ => Finset.sum_congr rfl fun j _ => by ring

/-! ### coordinates and laminates of `m'` on the connectivity of `m` -/

/-- the mesh `m` with the coordinates and laminates of `m'` -/
def glued (π σ : ℕ → ℕ) (m m' : Mesh) : Mesh :=
  { m with
    node := fun i => { m.node i with xyz := (m'.node (π i)).xyz, cp := (m'.node (π i)).cp, prop := (m'.node (π i)).prop }
    tria := fun e => { m.tria e with prop := (m'.tria (σ e)).prop } }

section
variable {π σ : ℕ → ℕ} {m m' : Mesh}

theorem glued_wf (w : WF m) : WF (glued π σ m m') :=
  ⟨w.nids_nodup, w.eids_nodup, w.ekeys_nodup, w.mem_ekeys, w.ends, w.en,
    fun k hk => (w.etrias k hk).trans (sideTrias_congr (fun _ _ => rfl) k), w.tedges⟩

theorem glued_proper (hp : Proper m) : Proper (glued π σ m m') := ⟨hp.distinct, hp.manifold, hp.simple⟩

theorem glued_dom (k : Key) : Spec.dom (glued π σ m m') k = Spec.dom m k := rfl
theorem glued_disp (v : ℕ → ℝ) (r i : ℕ) : disp (glued π σ m m') v r i = disp m v r i := rfl

/-- nodal vector of `m'` in the numbering of `m` -/
def pulled (π : ℕ → ℕ) (m m' : Mesh) (v : ℕ → ℝ) : ℕ → ℝ := fun j => disp m' v (j % 5) (π (m.nids.getD (j / 5) 0))

theorem pulled_disp (v : ℕ → ℝ) {r i : ℕ} (hr : r < 5) (hi : i ∈ m.nids) : disp m (pulled π m m' v) r i = disp m' v r (π i) := by
  have hl := List.idxOf_lt_length_iff.2 hi
  unfold pulled disp
  beta_reduce
  rw [show (5 * m.nids.idxOf i + r) % 5 = r by omega, show (5 * m.nids.idxOf i + r) / 5 = m.nids.idxOf i by omega, List.getD_eq_getElem _ _ hl,
    List.getElem_idxOf]
end

section
variable {q : Fin 2 → Fin 2 → ℝ} {π σ : ℕ → ℕ} {a b : ℝ} {m m' : Mesh}

theorem Spec.TurnedPlate.same (h : TurnedPlate q π σ a b m m') : SamePlate π σ 1 0 0 (glued π σ m m') m' :=
  ⟨h.nids, h.eids, h.tri, fun _ _ => rfl, fun i _ => by simp [nx, glued], fun i _ => by simp [ny, glued], fun _ _ => rfl⟩

/-- vertices of a polygon, given by groups of nodes of the mesh -/
def InMesh (m : Mesh) (A : List ℕ) : Prop := A ≠ [] ∧ ∀ i ∈ A, i ∈ m.nids

theorem mean_affine (f g h : ℕ → ℝ) (c d e : ℝ) {A : List ℕ} (hA : A ≠ []) (hh : ∀ i ∈ A, h i = c * f i + d * g i + e) :
    Spec.mean h A = c * Spec.mean f A + d * Spec.mean g A + e := by
  unfold Spec.mean
  have hl : (A.length : ℝ) ≠ 0 := by
    have := List.length_pos_iff.2 hA
    positivity
  have : (A.map h).sum = c * (A.map f).sum + d * (A.map g).sum + e * A.length := by
    clear hA hl
    induction A with
    | nil => simp
    | cons x l ih =>
      simp only [List.map_cons, List.sum_cons, List.length_cons, ih fun i hi => hh i (List.mem_cons_of_mem _ hi), hh x (by simp)]
      push_cast; ring
  rw [this]; field_simp

theorem mean_two (f g h : ℕ → ℝ) (c d : ℝ) {A : List ℕ} (hA : A ≠ []) (hh : ∀ i ∈ A, h i = c * f i + d * g i) :
    Spec.mean h A = c * Spec.mean f A + d * Spec.mean g A := by
  have := mean_affine f g h c d 0 hA (fun i hi => by rw [hh i hi, add_zero])
  rw [this, add_zero]

theorem Spec.TurnedPlate.meanX (h : TurnedPlate q π σ a b m m') {A : List ℕ} (hA : InMesh m A) :
    Spec.mean (nx (glued π σ m m')) A = q 0 0 * Spec.mean (nx m) A + q 0 1 * Spec.mean (ny m) A + a :=
  mean_affine _ _ _ _ _ _ hA.1 fun i hi => h.hx i (hA.2 i hi)

theorem Spec.TurnedPlate.meanY (h : TurnedPlate q π σ a b m m') {A : List ℕ} (hA : InMesh m A) :
    Spec.mean (ny (glued π σ m m')) A = q 1 0 * Spec.mean (nx m) A + q 1 1 * Spec.mean (ny m) A + b :=
  mean_affine _ _ _ _ _ _ hA.1 fun i hi => h.hy i (hA.2 i hi)

theorem inMesh_single {i : ℕ} (h : i ∈ m.nids) : InMesh m [i] := ⟨by simp, by simpa using h⟩

theorem inMesh_corners (w : WF m) (hp : Proper m) {e : ℕ} (he : e ∈ m.eids) : InMesh m (corners m e) :=
  ⟨by simp [corners], fun i hi => corner_mem w hp.distinct he ((isCorner_mem m e i).2 hi)⟩

theorem Spec.TurnedPlate.sarea3 (h : TurnedPlate q π σ a b m m') {δ : ℝ} (h11 : q 1 1 = δ * q 0 0) (h10 : q 1 0 = -(δ * q 0 1)) (hq : Orthogonal q)
    {A B C : List ℕ} (hA : InMesh m A) (hB : InMesh m B) (hC : InMesh m C) : Spec.sarea (glued π σ m m') [A, B, C] = δ * Spec.sarea m [A, B, C] := by
  rw [Meshless.sarea3, Meshless.sarea3, h.meanX hA, h.meanX hB, h.meanX hC, h.meanY hA, h.meanY hB, h.meanY hC, h11, h10]
  linear_combination (δ * ((Spec.mean (nx m) B - Spec.mean (nx m) A) * (Spec.mean (ny m) C - Spec.mean (ny m) A)
    - (Spec.mean (nx m) C - Spec.mean (nx m) A) * (Spec.mean (ny m) B - Spec.mean (ny m) A)) / 2) * hq.row0

/-- the shapes of a smoothing domain -/
theorem dom_shape (w : WF m) (hp : Proper m) {k : Key} (hk : k ∈ m.ekeys) :
    (∃ A B C, Spec.dom m k = [A, B, C] ∧ InMesh m A ∧ InMesh m B ∧ InMesh m C) ∨
    ∃ A B C D, Spec.dom m k = [A, B, C, D] ∧ InMesh m A ∧ InMesh m B ∧ InMesh m C ∧ InMesh m D := by
  rcases edge_shape w hp hk with ⟨t, o, htr, hs, _⟩ | ⟨t1, t2, o1, o2, htr, hs1, hs2, _, _, _, _⟩
  · left
    exact ⟨_, _, _, by simp only [Spec.dom, htr], inMesh_single hs.ina, inMesh_corners w hp hs.mem, inMesh_single hs.inb⟩
  · right
    exact ⟨_, _, _, _, by simp only [Spec.dom, htr], inMesh_single hs1.ina, inMesh_corners w hp hs1.mem, inMesh_single hs1.inb, inMesh_corners w hp hs2.mem⟩

theorem Spec.TurnedPlate.dom (h : TurnedPlate q π σ a b m m') {δ : ℝ} (h11 : q 1 1 = δ * q 0 0) (h10 : q 1 0 = -(δ * q 0 1)) (hq : Orthogonal q)
    (w : WF m) (hp : Proper m) {k : Key} (hk : k ∈ m.ekeys) :
    Spec.sarea (glued π σ m m') (Spec.dom m k) = δ * Spec.sarea m (Spec.dom m k) ∧
    (∀ f, circDy (glued π σ m m') (Spec.dom m k) f = q 1 0 * circDx m (Spec.dom m k) f + q 1 1 * circDy m (Spec.dom m k) f) ∧
    ∀ f, circDx (glued π σ m m') (Spec.dom m k) f = q 0 0 * circDx m (Spec.dom m k) f + q 0 1 * circDy m (Spec.dom m k) f := by
  rcases dom_shape w hp hk with ⟨A, B, C, hd, hA, hB, hC⟩ | ⟨A, B, C, D, hd, hA, hB, hC, hD⟩ <;> rw [hd]
  · refine ⟨h.sarea3 h11 h10 hq hA hB hC, fun f => ?_, fun f => ?_⟩
    · rw [circDy3, circDy3, circDx3, h.meanY hA, h.meanY hB, h.meanY hC]; ring
    · rw [circDx3, circDy3, circDx3, h.meanX hA, h.meanX hB, h.meanX hC]; ring
  · refine ⟨?_, fun f => ?_, fun f => ?_⟩
    · rw [sarea4, sarea4, h.sarea3 h11 h10 hq hA hB hC, h.sarea3 h11 h10 hq hA hC hD]; ring
    · rw [circDy4, circDy4, circDx4, h.meanY hA, h.meanY hB, h.meanY hC, h.meanY hD]; ring
    · rw [circDx4, circDy4, circDx4, h.meanX hA, h.meanX hB, h.meanX hC, h.meanX hD]; ring

/-- smoothed gradients turn like vectors -/
theorem Spec.TurnedPlate.grad (h : TurnedPlate q π σ a b m m') (hq : Orthogonal q) (w : WF m) (hp : Proper m) {k : Key} (hk : k ∈ m.ekeys) (f : ℕ → ℝ) :
    gradX (glued π σ m m') (Spec.dom m k) f = q 0 0 * gradX m (Spec.dom m k) f + q 0 1 * gradY m (Spec.dom m k) f ∧
    gradY (glued π σ m m') (Spec.dom m k) f = q 1 0 * gradX m (Spec.dom m k) f + q 1 1 * gradY m (Spec.dom m k) f := by
  obtain ⟨δ, hδ, h11, h10⟩ := hq.det
  obtain ⟨h1, h2, h3⟩ := h.dom h11 h10 hq w hp hk
  unfold gradX gradY
  rw [h1, h2, h3, h11, h10]
  rcases hδ with rfl | rfl <;> constructor <;> simp only [one_mul, neg_mul, neg_neg, div_neg] <;> ring

theorem circ_lin {k : Key} (w : WF m) (hp : Proper m) (hk : k ∈ m.ekeys) {f g h : ℕ → ℝ} {c d : ℝ} (hh : ∀ i ∈ m.nids, h i = c * f i + d * g i) :
    circDx m (Spec.dom m k) h = c * circDx m (Spec.dom m k) f + d * circDx m (Spec.dom m k) g ∧
    circDy m (Spec.dom m k) h = c * circDy m (Spec.dom m k) f + d * circDy m (Spec.dom m k) g := by
  have key : ∀ A, InMesh m A → Spec.mean h A = c * Spec.mean f A + d * Spec.mean g A := fun A hA => mean_two _ _ _ _ _ hA.1 fun i hi => hh i (hA.2 i hi)
  rcases dom_shape w hp hk with ⟨A, B, C, hd, hA, hB, hC⟩ | ⟨A, B, C, D, hd, hA, hB, hC, hD⟩ <;> rw [hd]
  · simp only [circDx3, circDy3, key _ hA, key _ hB, key _ hC]; constructor <;> ring
  · simp only [circDx4, circDy4, key _ hA, key _ hB, key _ hC, key _ hD]; constructor <;> ring

theorem grad_lin {k : Key} (w : WF m) (hp : Proper m) (hk : k ∈ m.ekeys) {f g h : ℕ → ℝ} {c d : ℝ} (hh : ∀ i ∈ m.nids, h i = c * f i + d * g i) :
    gradX m (Spec.dom m k) h = c * gradX m (Spec.dom m k) f + d * gradX m (Spec.dom m k) g ∧
    gradY m (Spec.dom m k) h = c * gradY m (Spec.dom m k) f + d * gradY m (Spec.dom m k) g := by
  obtain ⟨h1, h2⟩ := circ_lin w hp hk hh
  unfold gradX gradY
  rw [h1, h2]
  constructor <;> ring

/-- smoothed strains turn like tensors -/
theorem Spec.TurnedPlate.eps (h : TurnedPlate q π σ a b m m') (hq : Orthogonal q) (w : WF m) (hp : Proper m) {k : Key} (hk : k ∈ m.ekeys)
    {v v' : ℕ → ℝ} (hv : TurnedDisp q π m m' v v') : Spec.eps (glued π σ m m') k (pulled π m m' v') = turnStrain q (Spec.eps m k v) := by
  have e0 : ∀ i ∈ m.nids, disp m (pulled π m m' v') 0 i = q 0 0 * disp m v 0 i + q 0 1 * disp m v 1 i := fun i hi => by
    rw [pulled_disp v' (by norm_num) hi]; exact hv.u i hi
  have e1 : ∀ i ∈ m.nids, disp m (pulled π m m' v') 1 i = q 1 0 * disp m v 0 i + q 1 1 * disp m v 1 i := fun i hi => by
    rw [pulled_disp v' (by norm_num) hi]; exact hv.v i hi
  have e3 : ∀ i ∈ m.nids, disp m (pulled π m m' v') 3 i = q 0 0 * disp m v 3 i + q 0 1 * disp m v 4 i := fun i hi => by
    rw [pulled_disp v' (by norm_num) hi]; exact hv.phix i hi
  have e4 : ∀ i ∈ m.nids, disp m (pulled π m m' v') 4 i = q 1 0 * disp m v 3 i + q 1 1 * disp m v 4 i := fun i hi => by
    rw [pulled_disp v' (by norm_num) hi]; exact hv.phiy i hi
  obtain ⟨x0, y0⟩ := grad_lin w hp hk e0
  obtain ⟨x1, y1⟩ := grad_lin w hp hk e1
  obtain ⟨x3, y3⟩ := grad_lin w hp hk e3
  obtain ⟨x4, y4⟩ := grad_lin w hp hk e4
  have hd : ∀ r, disp (glued π σ m m') (pulled π m m' v') r = disp m (pulled π m m' v') r := fun r => rfl
  unfold Spec.eps turnStrain
  simp only [glued_dom, hd, (h.grad hq w hp hk _).1, (h.grad hq w hp hk _).2, x0, y0, x1, y1, x3, y3, x4, y4]
  funext p
  fin_cases p <;> simp <;> ring

theorem ofProp_rel {R : Lam → Lam → Prop} {sel sel' : Lam → ℝ} (hs : ∀ p p', R p p' → sel' p' = sel p) {o o' : Option Lam} (h : Option.Rel R o o') :
    ofProp sel' o' = ofProp sel o := by
  cases h with
  | some h => exact hs _ _ h
  | none => rfl

theorem Spec.TurnedPlate.tarea (h : TurnedPlate q π σ a b m m') (hq : Orthogonal q) (w : WF m) (hp : Proper m) {e : ℕ} (he : e ∈ m.eids) :
    Spec.triArea (glued π σ m m') e = Spec.triArea m e := by
  obtain ⟨δ, hδ, h11, h10⟩ := hq.det
  have hc := fun i hi => corner_mem w hp.distinct he (i := i) hi
  have := h.sarea3 h11 h10 hq (inMesh_single (hc _ (Or.inl rfl))) (inMesh_single (hc _ (Or.inr (Or.inl rfl)))) (inMesh_single (hc _ (Or.inr (Or.inr rfl))))
  unfold Spec.triArea
  change |Spec.sarea (glued π σ m m') [[(m.tria e).n1], [(m.tria e).n2], [(m.tria e).n3]]| = _
  rw [this, abs_mul]
  rcases hδ with rfl | rfl <;> simp

theorem trias_mem (w : WF m) (hp : Proper m) {k : Key} (hk : k ∈ m.ekeys) {t : ℕ} (ht : t ∈ (m.edge k).trias) : t ∈ m.eids := by
  rcases edge_shape w hp hk with ⟨t, o, htr, hs, _⟩ | ⟨t1, t2, o1, o2, htr, hs1, hs2, _, _, _, _⟩ <;> rw [htr] at ht <;>
    simp only [List.mem_cons, List.not_mem_nil, or_false] at ht
  · subst ht; exact hs.mem
  · rcases ht with rfl | rfl
    exacts [hs1.mem, hs2.mem]

theorem Spec.TurnedPlate.avg (h : TurnedPlate q π σ a b m m') (hq : Orthogonal q) (w : WF m) (hp : Proper m) {k : Key} (hk : k ∈ m.ekeys) (pn : Bool)
    {sel sel' : Lam → ℝ} (hs : ∀ p p', TurnedLam q p p' → sel' p' = sel p) : Spec.avg (glued π σ m m') pn k sel' = Spec.avg m pn k sel := by
  unfold Spec.avg
  cases pn with
  | true =>
    simp only [if_true, glued_dom]
    congr 2
    refine List.map_congr_left fun A hA => ?_
    have hin : InMesh m A := by
      rcases dom_shape w hp hk with ⟨A, B, C, hd, hA', hB, hC⟩ | ⟨A, B, C, D, hd, hA', hB, hC, hD⟩ <;> rw [hd] at hA <;>
        simp only [List.mem_cons, List.not_mem_nil, or_false] at hA
      · rcases hA with rfl | rfl | rfl <;> assumption
      · rcases hA with rfl | rfl | rfl | rfl <;> assumption
    unfold Spec.mean
    congr 2
    exact List.map_congr_left fun i hi => ofProp_rel hs (h.nprop i (hin.2 i hi))
  | false =>
    simp only [Bool.false_eq_true, if_false]
    have e1 : ((glued π σ m m').edge k).trias = (m.edge k).trias := rfl
    rw [e1]
    congr 2 <;> refine List.map_congr_left fun t ht => ?_
    · rw [h.tarea hq w hp (trias_mem w hp hk ht)]
      congr 1
      exact ofProp_rel hs (h.tprop t (trias_mem w hp hk ht))
    · exact h.tarea hq w hp (trias_mem w hp hk ht)

theorem Spec.TurnedPlate.darea (h : TurnedPlate q π σ a b m m') (hq : Orthogonal q) (w : WF m) (hp : Proper m) {k : Key} (hk : k ∈ m.ekeys) :
    |Spec.sarea (glued π σ m m') (Spec.dom m k)| = |Spec.sarea m (Spec.dom m k)| := by
  obtain ⟨δ, hδ, h11, h10⟩ := hq.det
  rw [(h.dom h11 h10 hq w hp hk).1, abs_mul]
  rcases hδ with rfl | rfl <;> simp

theorem Spec.TurnedPlate.gluedPlanar (h : TurnedPlate q π σ a b m m') (hq : Orthogonal q) (w : WF m) (hp : Proper m) (hg : Planar m)
    (hbasic : ∀ i ∈ m'.nids, (m'.node i).cp (m'.node i).xyz = (m'.node i).xyz)
    (hflat : ∀ i ∈ m'.nids, ∀ j ∈ m'.nids, (m'.node i).xyz.z = (m'.node j).xyz.z) : Planar (glued π σ m m') := by
  have hin : ∀ i ∈ m.nids, π i ∈ m'.nids := fun i hi => h.nids.mem_iff.2 (List.mem_map_of_mem hi)
  obtain ⟨δ, hδ, h11, h10⟩ := hq.det
  have h2 : δ * δ = 1 := by rcases hδ with rfl | rfl <;> norm_num
  refine ⟨fun i hi => hbasic _ (hin i hi), fun i hi j hj => hflat _ (hin i hi) _ (hin j hj), ?_, ?_⟩
  · intro e he h0
    have : Spec.triArea (glued π σ m m') e = 0 := by unfold Spec.triArea; rw [h0, abs_zero]
    rw [h.tarea hq w hp he] at this
    exact hg.nondeg e he (abs_eq_zero.1 this)
  · intro k hk t1 t2 ht
    have e1 := trias_mem w hp hk (t := t1) (by change (m.edge k).trias = _ at ht; rw [ht]; simp)
    have e2 := trias_mem w hp hk (t := t2) (by change (m.edge k).trias = _ at ht; rw [ht]; simp)
    obtain ⟨k1, k2⟩ := w.ends k hk
    have := hg.opposite k hk t1 t2 ht
    change Spec.sarea (glued π σ m m') [[k.1], [k.2], corners m t1] * Spec.sarea (glued π σ m m') [[k.1], [k.2], corners m t2] < 0
    rw [h.sarea3 h11 h10 hq (inMesh_single k1) (inMesh_single k2) (inMesh_corners w hp e1),
      h.sarea3 h11 h10 hq (inMesh_single k1) (inMesh_single k2) (inMesh_corners w hp e2)]
    calc _ = (δ * δ) * (Spec.sarea m [[k.1], [k.2], corners m t1] * Spec.sarea m [[k.1], [k.2], corners m t2]) := by ring
      _ < 0 := by rw [h2, one_mul]; exact this

/-- the energy of the turned plate -/
theorem Spec.TurnedPlate.energy (h : TurnedPlate q π σ a b m m') (hq : Orthogonal q) (w : WF m) (w' : WF m') (hp : Proper m) (hg : Planar m)
    (hbasic : ∀ i ∈ m'.nids, (m'.node i).cp (m'.node i).xyz = (m'.node i).xyz)
    (hflat : ∀ i ∈ m'.nids, ∀ j ∈ m'.nids, (m'.node i).xyz.z = (m'.node j).xyz.z) (pn : Bool)
    {v u v' u' : ℕ → ℝ} (hv : TurnedDisp q π m m' v v') (hu : TurnedDisp q π m m' u u') : Spec.energy m' pn v' u' = Spec.energy m pn v u := by
  have h1 := h.same.energy (glued_wf w) w' (glued_proper hp) (h.gluedPlanar hq w hp hg hbasic hflat) one_ne_zero pn
    (v := pulled π m m' v') (u := pulled π m m' u') (v' := v') (u' := u')
    (fun r hr i hi => (pulled_disp v' hr hi).symm) (fun r hr i hi => (pulled_disp u' hr hi).symm)
  rw [h1]
  unfold Spec.energy
  congr 1
  refine List.map_congr_left fun k hk => ?_
  rw [glued_dom, h.darea hq w hp hk, avg_lamProd, avg_lamProd, h.eps hq w hp hk hv, h.eps hq w hp hk hu]
  congr 1
  exact h.avg hq w hp hk pn fun p p' hpp => hpp.prod _ _

end

end Meshless
