import Verif.Lemmas.TurnKG
import Verif.Lemmas.TurnK0s
import Verif.Props.K0Inv

/-! C87–C89: the stiffness matrices in turned, mirrored, shifted axes and with other numbers. -/

set_option autoImplicit false

namespace Meshless
open Spec Finset

section
variable {q : Fin 2 → Fin 2 → ℝ} {π σ : ℕ → ℕ} {a b : ℝ} {m m' : Mesh}

theorem Spec.LamRel.hasProps {R : Lam → Lam → Prop} (hr : LamRel R π σ m m') (h : TurnedGeom q π σ a b m m') (w : WF m) {pn : Bool} (hh : HasProps m pn) :
    HasProps m' pn := by
  have some_of : ∀ {o o' : Option Lam}, Option.Rel R o o' → o.isSome → o'.isSome := by
    intro o o' h; cases h <;> simp
  have key : ∀ e' ∈ m'.eids, ∃ e ∈ m.eids, e' = σ e := by
    intro e' he'
    obtain ⟨e, he, rfl⟩ := List.mem_map.1 (h.eids.mem_iff.1 he')
    exact ⟨e, he, rfl⟩
  unfold HasProps at *
  cases pn with
  | true =>
    simp only [if_true] at *
    intro e' he' i' hi'
    obtain ⟨e, he, rfl⟩ := key e' he'
    obtain ⟨i, hi, rfl⟩ := List.mem_map.1 ((h.tri e he).mem_iff.1 ((isCorner_mem m' (σ e) i').1 hi'))
    exact some_of (hr.nprop i (w.corner_mem he hi)) (hh e he i ((isCorner_mem m e i).2 hi))
  | false =>
    simp only [Bool.false_eq_true, if_false] at *
    intro e' he'
    obtain ⟨e, he, rfl⟩ := key e' he'
    exact some_of (hr.tprop e he) (hh e he)

/-- C87: the matrix of the plate in turned (or mirrored) and shifted axes, with other numbers and orders, is the matrix of the plate in turned axes -/
theorem C87_turned (hr : Reachable m) (hr' : Reachable m') (hp : Proper m) (hg : Planar m) (hq : Orthogonal q)
    (h : TurnedPlate q π σ a b m m') (hbasic : ∀ i ∈ m'.nids, (m'.node i).cp (m'.node i).xyz = (m'.node i).xyz)
    (hflat : ∀ i ∈ m'.nids, ∀ j ∈ m'.nids, (m'.node i).xyz.z = (m'.node j).xyz.z) {pn : Bool} {K : Mat} (hK : (calcK0 m pn).2 = .ok K) :
    ∃ K', (calcK0 m' pn).2 = .ok K' ∧ K'.dim = K.dim ∧ ∀ v u v' u', TurnedDisp q π m m' v v' → TurnedDisp q π m m' u u' →
      form K'.dim K'.get v' u' = form K.dim K.get v u := by
  obtain ⟨_, _, hh, hne⟩ := calcK0_ok hr.wf hK
  have hp' := h.same.proper (glued_wf hr.wf) hr'.wf (glued_proper hp)
  have hg' := h.same.planar (glued_wf hr.wf) hr'.wf (glued_proper hp) (h.gluedPlanar hq hr.wf hp hg hbasic hflat) one_ne_zero hbasic hflat
  have hlen : m'.nids.length = m.nids.length := by rw [h.nids.length_eq, List.length_map]
  have hne' : m'.nids ≠ [] := by
    intro h0; apply hne; apply List.eq_nil_of_length_eq_zero; rw [← hlen, h0]; rfl
  obtain ⟨K', hK', hd'⟩ := C11_success hr' hp' hne' (h.toLamRel.hasProps h.toTurnedGeom hr.wf hh)
  have hd := (calcK0_sum hr.wf hK).1
  refine ⟨K', hK', by rw [hd', hd, hlen, mul_comm], fun v u v' u' hv hu => ?_⟩
  rw [C18_energy hr hp hg hK, C18_energy hr' hp' hg' hK']
  exact h.energy hq hr.wf hr'.wf hp hg hbasic hflat pn hv hu

/-! ### laminates that do not notice the turn -/

theorem lamProd_blocks (p : Lam) (x y : Fin 6 → ℝ) : lamProd p x y =
    (x 0 * p.A 0 0 * y 0 + x 0 * p.A 0 1 * y 1 + x 0 * p.A 0 2 * y 2 + x 1 * p.A 0 1 * y 0 + x 1 * p.A 1 1 * y 1 + x 1 * p.A 1 2 * y 2 +
      x 2 * p.A 0 2 * y 0 + x 2 * p.A 1 2 * y 1 + x 2 * p.A 2 2 * y 2) +
    (x 0 * p.B 0 0 * y 3 + x 0 * p.B 0 1 * y 4 + x 0 * p.B 0 2 * y 5 + x 1 * p.B 0 1 * y 3 + x 1 * p.B 1 1 * y 4 + x 1 * p.B 1 2 * y 5 +
      x 2 * p.B 0 2 * y 3 + x 2 * p.B 1 2 * y 4 + x 2 * p.B 2 2 * y 5) +
    (x 3 * p.B 0 0 * y 0 + x 3 * p.B 0 1 * y 1 + x 3 * p.B 0 2 * y 2 + x 4 * p.B 0 1 * y 0 + x 4 * p.B 1 1 * y 1 + x 4 * p.B 1 2 * y 2 +
      x 5 * p.B 0 2 * y 0 + x 5 * p.B 1 2 * y 1 + x 5 * p.B 2 2 * y 2) +
    (x 3 * p.D 0 0 * y 3 + x 3 * p.D 0 1 * y 4 + x 3 * p.D 0 2 * y 5 + x 4 * p.D 0 1 * y 3 + x 4 * p.D 1 1 * y 4 + x 4 * p.D 1 2 * y 5 +
      x 5 * p.D 0 2 * y 3 + x 5 * p.D 1 2 * y 4 + x 5 * p.D 2 2 * y 5) := by
  unfold lamProd
  simp only [Fin.sum_univ_six]
  change x 0 * p.A 0 0 * y 0 + x 0 * p.A 0 1 * y 1 + x 0 * p.A 0 2 * y 2 + x 0 * p.B 0 0 * y 3 + x 0 * p.B 0 1 * y 4 + x 0 * p.B 0 2 * y 5 +
    (x 1 * p.A 0 1 * y 0 + x 1 * p.A 1 1 * y 1 + x 1 * p.A 1 2 * y 2 + x 1 * p.B 0 1 * y 3 + x 1 * p.B 1 1 * y 4 + x 1 * p.B 1 2 * y 5) +
    (x 2 * p.A 0 2 * y 0 + x 2 * p.A 1 2 * y 1 + x 2 * p.A 2 2 * y 2 + x 2 * p.B 0 2 * y 3 + x 2 * p.B 1 2 * y 4 + x 2 * p.B 2 2 * y 5) +
    (x 3 * p.B 0 0 * y 0 + x 3 * p.B 0 1 * y 1 + x 3 * p.B 0 2 * y 2 + x 3 * p.D 0 0 * y 3 + x 3 * p.D 0 1 * y 4 + x 3 * p.D 0 2 * y 5) +
    (x 4 * p.B 0 1 * y 0 + x 4 * p.B 1 1 * y 1 + x 4 * p.B 1 2 * y 2 + x 4 * p.D 0 1 * y 3 + x 4 * p.D 1 1 * y 4 + x 4 * p.D 1 2 * y 5) +
    (x 5 * p.B 0 2 * y 0 + x 5 * p.B 1 2 * y 1 + x 5 * p.B 2 2 * y 2 + x 5 * p.D 0 2 * y 3 + x 5 * p.D 1 2 * y 4 + x 5 * p.D 2 2 * y 5) = _
  ring

/-- an isotropic laminate is the same in all axes -/
theorem isotropic_turned (hq : Orthogonal q) {p : Lam} (hp : Isotropic p) : TurnedLam q p p := by
  obtain ⟨δ, hδ, h11, h10⟩ := hq.det
  obtain ⟨⟨a1, a2, a3, a4⟩, ⟨b1, b2, b3, b4⟩, d1, d2, d3, d4⟩ := hp
  have h0 := hq.row0
  have h2 : δ * δ = 1 := by rcases hδ with rfl | rfl <;> norm_num
  intro e
  have tr : ∀ x y z : ℝ, (q 0 0 ^ 2 * x + q 0 1 ^ 2 * y + q 0 0 * q 0 1 * z) + (q 1 0 ^ 2 * x + q 1 1 ^ 2 * y + q 1 0 * q 1 1 * z) = x + y := by
    intro x y z
    rw [h11, h10]
    linear_combination (x + y) * h0 + (q 0 1 ^ 2 * x + q 0 0 ^ 2 * y - q 0 1 * q 0 0 * z) * h2
  have nrm : ∀ x y z x' y' z' : ℝ,
      (q 0 0 ^ 2 * x + q 0 1 ^ 2 * y + q 0 0 * q 0 1 * z) * (q 0 0 ^ 2 * x' + q 0 1 ^ 2 * y' + q 0 0 * q 0 1 * z') +
      (q 1 0 ^ 2 * x + q 1 1 ^ 2 * y + q 1 0 * q 1 1 * z) * (q 1 0 ^ 2 * x' + q 1 1 ^ 2 * y' + q 1 0 * q 1 1 * z') +
      (2 * (q 0 0 * q 1 0) * x + 2 * (q 0 1 * q 1 1) * y + (q 0 0 * q 1 1 + q 0 1 * q 1 0) * z) *
        (2 * (q 0 0 * q 1 0) * x' + 2 * (q 0 1 * q 1 1) * y' + (q 0 0 * q 1 1 + q 0 1 * q 1 0) * z') / 2 = x * x' + y * y' + z * z' / 2 := by
    intro x y z x' y' z'
    have e1 : (q 0 1) ^ 2 = 1 - q 0 0 ^ 2 := by linarith
    rw [h11, h10]
    rcases hδ with rfl | rfl <;> ring_nf <;>
    · have e2 : (q 0 1) ^ 3 = q 0 1 * (1 - q 0 0 ^ 2) := by rw [← e1]; ring
      have e3 : (q 0 1) ^ 4 = (1 - q 0 0 ^ 2) ^ 2 := by rw [← e1]; ring
      rw [e1, e3]
      try rw [e2]
      ring
  have key : ∀ x : Fin 6 → ℝ, lamProd p x x =
      p.A 0 1 * (x 0 + x 1) ^ 2 + (p.A 0 0 - p.A 0 1) * (x 0 * x 0 + x 1 * x 1 + x 2 * x 2 / 2) +
      2 * (p.B 0 1 * (x 0 + x 1) * (x 3 + x 4) + (p.B 0 0 - p.B 0 1) * (x 0 * x 3 + x 1 * x 4 + x 2 * x 5 / 2)) +
      (p.D 0 1 * (x 3 + x 4) ^ 2 + (p.D 0 0 - p.D 0 1) * (x 3 * x 3 + x 4 * x 4 + x 5 * x 5 / 2)) := by
    intro x
    rw [lamProd_blocks, a1, a2, a3, a4, b1, b2, b3, b4, d1, d2, d3, d4]
    ring
  rw [key, key]
  have t0 := tr (e 0) (e 1) (e 2)
  have t3 := tr (e 3) (e 4) (e 5)
  have n00 := nrm (e 0) (e 1) (e 2) (e 0) (e 1) (e 2)
  have n03 := nrm (e 0) (e 1) (e 2) (e 3) (e 4) (e 5)
  have n33 := nrm (e 3) (e 4) (e 5) (e 3) (e 4) (e 5)
  simp only [turnStrain, Matrix.cons_val_zero, Matrix.cons_val_one, Matrix.cons_val]
  rw [t0, t3, n00, n03, n33]

/-- a laminate without direct-shear coupling is the same in mirrored axes -/
theorem orthotropic_mirror {p : Lam} (hp : Orthotropic p) : TurnedLam mirror p p := by
  obtain ⟨⟨a1, a2⟩, ⟨b1, b2⟩, d1, d2⟩ := hp
  intro e
  rw [lamProd_blocks, lamProd_blocks, a1, a2, b1, b2, d1, d2]
  simp [turnStrain, mirror]

theorem mirror_orthogonal : Orthogonal mirror := ⟨by simp [mirror], by simp [mirror], by simp [mirror]⟩
theorem rotation_orthogonal {c s : ℝ} (h : c ^ 2 + s ^ 2 = 1) : Orthogonal (rotation c s) :=
  ⟨by simp [rotation, h], by simp only [rotation, Matrix.cons_val_one, Matrix.cons_val_zero]; linarith, by simp only [rotation, Matrix.cons_val_one, Matrix.cons_val_zero]; ring⟩

/-! ### the same script with turned coordinates -/

/-- a point in turned and shifted axes -/
def Spec.turnPt (q : Fin 2 → Fin 2 → ℝ) (c x : Vec3) : Vec3 := ⟨q 0 0 * x.x + q 0 1 * x.y + c.x, q 1 0 * x.x + q 1 1 * x.y + c.y, x.z + c.z⟩

/-- a nodal vector in turned axes: `(u, v)` and `(phix, phiy)` of every node turn, `w` stays -/
def Spec.turnVec (q : Fin 2 → Fin 2 → ℝ) (z : ℕ → ℝ) (j : ℕ) : ℝ :=
  if j % 5 = 0 ∨ j % 5 = 3 then q 0 0 * z j + q 0 1 * z (j + 1) else if j % 5 = 1 ∨ j % 5 = 4 then q 1 0 * z (j - 1) + q 1 1 * z j else z j

theorem turnVec_disp (q : Fin 2 → Fin 2 → ℝ) (z : ℕ → ℝ) (hn : m'.nids = m.nids) : TurnedDisp q id m m' z (turnVec q z) := by
  refine ⟨fun i _ => ?_, fun i _ => ?_, fun i _ => ?_, fun i _ => ?_, fun i _ => ?_⟩ <;> unfold disp turnVec <;> rw [hn] <;> simp only [id]
  · rw [if_pos (by omega)]
  · rw [if_neg (by omega), if_pos (by omega)]; rfl
  · rw [if_neg (by omega), if_neg (by omega)]
  · rw [if_pos (by omega)]
  · rw [if_neg (by omega), if_pos (by omega)]; rfl

/-- turning the coordinates of all nodes of a plate whose laminates are the same in the turned axes -/
theorem turned_script (hr : Reachable m) (hp : Proper m) (hg : Planar m) (hq : Orthogonal q) (hl : AllLams m fun p => TurnedLam q p p) (c : Vec3)
    (hb : ∀ i ∈ m.nids, (m.node i).cp (turnPt q c (m.node i).xyz) = turnPt q c (m.node i).xyz) {pn : Bool} {K : Mat} (hK : (calcK0 m pn).2 = .ok K) :
    ∃ K', (calcK0 (run m (m.nids.map fun i => .moveNode i (turnPt q c (m.node i).xyz))) pn).2 = .ok K' ∧ K'.dim = K.dim ∧
      ∀ v u, form K'.dim K'.get (turnVec q v) (turnVec q u) = form K.dim K.get v u := by
  obtain ⟨h1, h2, h3, h4⟩ := moves_spec (fun i => turnPt q c (m.node i).xyz) m.nids m (fun i hi => hi)
  have rel : ∀ o : Option Lam, (∀ p, o = some p → TurnedLam q p p) → Option.Rel (TurnedLam q) o o := by
    intro o ho
    cases o with
    | none => exact .none
    | some p => exact .some (ho p rfl)
  have ht : TurnedPlate q id id c.x c.y m (run m (m.nids.map fun i => .moveNode i (turnPt q c (m.node i).xyz))) :=
    { nids := by rw [h1, List.map_id]
      eids := by rw [h2, List.map_id]
      tri := fun e _ => by rw [List.map_id]; unfold corners; rw [h3]; exact List.Perm.refl _
      hx := fun i hi => by simp only [nx, id, (h4 i).1, if_pos hi]; rfl
      hy := fun i hi => by simp only [ny, id, (h4 i).1, if_pos hi]; rfl
      tprop := fun e he => by rw [h3]; exact rel _ (hl.2 e he)
      nprop := fun i hi => by simp only [id]; rw [(h4 i).2.2]; exact rel _ (hl.1 i hi) }
  obtain ⟨K', hK', hd, he⟩ := C87_turned hr (hr.run _) hp hg hq ht (by
    intro i hi
    rw [h1] at hi
    rw [(h4 i).1, (h4 i).2.1, if_pos hi]
    exact hb i hi) (by
    intro i hi j hj
    rw [h1] at hi hj
    rw [(h4 i).1, (h4 j).1, if_pos hi, if_pos hj]
    simp only [turnPt, hg.flat i hi j hj]) hK
  exact ⟨K', hK', hd, fun v u => he v u _ _ (turnVec_disp q v h1) (turnVec_disp q u h1)⟩

/-- C87: an isotropic plate turned by any angle (or mirrored) and moved has the turned matrix -/
theorem C87_isotropic (hr : Reachable m) (hp : Proper m) (hg : Planar m) (hq : Orthogonal q) (hl : AllLams m Isotropic) (c : Vec3)
    (hb : ∀ i ∈ m.nids, (m.node i).cp (turnPt q c (m.node i).xyz) = turnPt q c (m.node i).xyz) {pn : Bool} {K : Mat} (hK : (calcK0 m pn).2 = .ok K) :
    ∃ K', (calcK0 (run m (m.nids.map fun i => .moveNode i (turnPt q c (m.node i).xyz))) pn).2 = .ok K' ∧ K'.dim = K.dim ∧
      ∀ v u, form K'.dim K'.get (turnVec q v) (turnVec q u) = form K.dim K.get v u :=
  turned_script hr hp hg hq ⟨fun i hi p hp => isotropic_turned hq (hl.1 i hi p hp), fun e he p hp => isotropic_turned hq (hl.2 e he p hp)⟩ c hb hK

/-- C87: the mirror image of a plate without direct-shear coupling has the mirrored matrix -/
theorem C87_mirror (hr : Reachable m) (hp : Proper m) (hg : Planar m) (hl : AllLams m Orthotropic) (c : Vec3)
    (hb : ∀ i ∈ m.nids, (m.node i).cp (turnPt mirror c (m.node i).xyz) = turnPt mirror c (m.node i).xyz) {pn : Bool} {K : Mat} (hK : (calcK0 m pn).2 = .ok K) :
    ∃ K', (calcK0 (run m (m.nids.map fun i => .moveNode i (turnPt mirror c (m.node i).xyz))) pn).2 = .ok K' ∧ K'.dim = K.dim ∧
      ∀ v u, form K'.dim K'.get (turnVec mirror v) (turnVec mirror u) = form K.dim K.get v u :=
  turned_script hr hp hg mirror_orthogonal ⟨fun i hi p hp => orthotropic_mirror (hl.1 i hi p hp), fun e he p hp => orthotropic_mirror (hl.2 e he p hp)⟩ c hb hK

/-! ### C88 -/

/-- C88: with other numbers and orders, a shifted origin and coordinates in another unit (scale `s`), the matrix of `calc_kG` is the same up to
the factor `1 / s` -/
theorem C88_renumber {s : ℝ} (ha : AfterK0 m) (ha' : AfterK0 m') (hp : Proper m) (hg : Planar m) (h : SamePlate π σ s a b m m') (hs0 : s ≠ 0)
    (hbasic : ∀ i ∈ m'.nids, (m'.node i).cp (m'.node i).xyz = (m'.node i).xyz)
    (hflat : ∀ i ∈ m'.nids, ∀ j ∈ m'.nids, (m'.node i).xyz.z = (m'.node j).xyz.z) {pn : Bool} (hh : HasProps m pn) {d d' : List ℝ}
    (hd : d.length = 5 * m.nids.length) (hd' : d'.length = 5 * m'.nids.length)
    (hdd : ∀ r < 5, ∀ i ∈ m.nids, disp m' (vec d') r (π i) = disp m (vec d) r i) :
    ∃ K K', calcKG m d pn = .ok K ∧ calcKG m' d' pn = .ok K' ∧ K'.dim = K.dim ∧ ∀ i ∈ m.nids, ∀ j ∈ m.nids, ∀ r < 5, ∀ t < 5,
      K'.get (5 * m'.nids.idxOf (π i) + r) (5 * m'.nids.idxOf (π j) + t) = K.get (5 * m.nids.idxOf i + r) (5 * m.nids.idxOf j + t) / s := by
  have hp' := h.proper ha.wf ha'.wf hp
  have hg' := h.planar ha.wf ha'.wf hp hg hs0 hbasic hflat
  have hh' := h.hasProps ha.wf hp hh
  have hlen : m'.nids.length = m.nids.length := by rw [h.nids.length_eq, List.length_map]
  obtain ⟨K, hK, hKd⟩ := C49_kG ha hp hh hd
  obtain ⟨K', hK', hKd'⟩ := C49_kG ha' hp' hh' hd'
  refine ⟨K, K', hK, hK', by rw [hKd, hKd', hlen], ?_⟩
  intro i hi j hj r hr5 t ht5
  have li := List.idxOf_lt_length_iff.2 hi
  have lj := List.idxOf_lt_length_iff.2 hj
  have li' := List.idxOf_lt_length_iff.2 (h.mem_nids hi)
  have lj' := List.idxOf_lt_length_iff.2 (h.mem_nids hj)
  have e1 := C29_energy ha hp hg hh hd hK (single (5 * m.nids.idxOf i + r)) (single (5 * m.nids.idxOf j + t))
  have e2 := C29_energy ha' hp' hg' hh' hd' hK' (single (5 * m'.nids.idxOf (π i) + r)) (single (5 * m'.nids.idxOf (π j) + t))
  rw [form_single _ (by omega) (by omega)] at e1 e2
  rw [e1, e2]
  have hsingle : ∀ x ∈ m.nids, ∀ r < 5, ∀ y ∈ m.nids, disp m' (single (5 * m'.nids.idxOf (π x) + r)) 2 (π y) =
      disp m (single (5 * m.nids.idxOf x + r)) 2 y := by
    intro x hx r hr y hy
    by_cases hxy : y = x
    · subst hxy
      simp only [disp, single]
      by_cases hrq : 2 = r
      · subst hrq; simp
      · rw [if_neg (by omega), if_neg (by omega)]
    · rw [disp_single hy hxy 2 r (by norm_num) hr, disp_single (h.mem_nids hy) (fun e => hxy (h.inj ha'.wf hy hx e)) 2 r (by norm_num) hr]
  exact h.geometric ha.wf ha'.wf hp hg hs0 pn hdd (fun y hy => hsingle i hi r hr5 y hy) (fun y hy => hsingle j hj t ht5 y hy)

/-- C88: in turned (or mirrored) and shifted axes, for the displacement in the turned axes, `calc_kG` returns the matrix in turned axes; the stored
`A` and `B` have to be symmetric -/
theorem C88_turned (ha : AfterK0 m) (ha' : AfterK0 m') (hp : Proper m) (hg : Planar m) (hq : Orthogonal q)
    (h : TurnedPlate q π σ a b m m') (hs : AllLams m SymmetricAB) (hs' : AllLams m' SymmetricAB)
    (hbasic : ∀ i ∈ m'.nids, (m'.node i).cp (m'.node i).xyz = (m'.node i).xyz)
    (hflat : ∀ i ∈ m'.nids, ∀ j ∈ m'.nids, (m'.node i).xyz.z = (m'.node j).xyz.z) {pn : Bool} (hh : HasProps m pn) {d d' : List ℝ}
    (hd : d.length = 5 * m.nids.length) (hd' : d'.length = 5 * m'.nids.length) (hdd : TurnedDisp q π m m' (vec d) (vec d')) :
    ∃ K K', calcKG m d pn = .ok K ∧ calcKG m' d' pn = .ok K' ∧ K'.dim = K.dim ∧ ∀ v u v' u', TurnedDisp q π m m' v v' → TurnedDisp q π m m' u u' →
      form K'.dim K'.get v' u' = form K.dim K.get v u := by
  have hp' := h.same.proper (glued_wf ha.wf) ha'.wf (glued_proper hp)
  have hg' := h.same.planar (glued_wf ha.wf) ha'.wf (glued_proper hp) (h.gluedPlanar hq ha.wf hp hg hbasic hflat) one_ne_zero hbasic hflat
  have hh' := h.toLamRel.hasProps h.toTurnedGeom ha.wf hh
  have hlen : m'.nids.length = m.nids.length := by rw [h.nids.length_eq, List.length_map]
  obtain ⟨K, hK, hKd⟩ := C49_kG ha hp hh hd
  obtain ⟨K', hK', hKd'⟩ := C49_kG ha' hp' hh' hd'
  refine ⟨K, K', hK, hK', by rw [hKd, hKd', hlen], fun v u v' u' hv hu => ?_⟩
  rw [C29_energy ha hp hg hh hd hK, C29_energy ha' hp' hg' hh' hd' hK']
  exact h.geometric hq ha.wf ha'.wf hp hg hs hs' hbasic hflat pn hdd hv.w hu.w

/-! ### C89 -/

theorem Spec.TurnedGeom.shearHyps (h : TurnedGeom q π σ a b m m') (hq : Orthogonal q) (hr : LamRel SameShear π σ m m') (w : WF m) (hf : FlatMesh m)
    (hbasic : ∀ i ∈ m'.nids, (m'.node i).cp (m'.node i).xyz = (m'.node i).xyz)
    (hflat : ∀ i ∈ m'.nids, ∀ j ∈ m'.nids, (m'.node i).xyz.z = (m'.node j).xyz.z) {pn : Bool} (ht : Thick m pn) : FlatMesh m' ∧ Thick m' pn := by
  refine ⟨⟨hbasic, hflat, ?_⟩, ?_⟩
  · intro e' he' h0
    obtain ⟨e, he, rfl⟩ := List.mem_map.1 (h.eids.mem_iff.1 he')
    have := h.triArea hq w he
    unfold Spec.triArea at this
    rw [h0, abs_zero] at this
    exact hf.nondeg e he (abs_eq_zero.1 this.symm)
  · intro e' he'
    obtain ⟨e, he, rfl⟩ := List.mem_map.1 (h.eids.mem_iff.1 he')
    rw [hr.cavg h w pn he (sel := fun l => l.h) (sel' := fun l => l.h) fun p p' hh => hh.1]
    exact ht e he

/-- C89: with equal transverse shear moduli in both directions, the increment of the cell-based method in turned (or mirrored) and shifted axes, with
other numbers and orders, is the increment in turned axes -/
theorem C89_turned (hm : Numbered m) (hm' : Numbered m') (hq : Orthogonal q) (h : TurnedGeom q π σ a b m m') (hr : LamRel SameShear π σ m m')
    (hiso : AllLams m ShearIsotropic) (hf : FlatMesh m) (hbasic : ∀ i ∈ m'.nids, (m'.node i).cp (m'.node i).xyz = (m'.node i).xyz)
    (hflat : ∀ i ∈ m'.nids, ∀ j ∈ m'.nids, (m'.node i).xyz.z = (m'.node j).xyz.z) {pn : Bool} (hh : HasProps m pn) (ht : Thick m pn) (al : ℝ) (fa : Bool)
    {K K' : Mat} (hK : K.dim = 5 * m.nids.length) (hK' : K'.dim = 5 * m.nids.length) :
    ∃ L L', addK0s K m pn "cell-based" al fa = (L, none) ∧ addK0s K' m' pn "cell-based" al fa = (L', none) ∧ L.dim = K.dim ∧ L'.dim = K'.dim ∧
      ∀ v u v' u', TurnedDisp q π m m' v v' → TurnedDisp q π m m' u u' →
        form K'.dim (fun i j => L'.get i j - K'.get i j) v' u' = form K.dim (fun i j => L.get i j - K.get i j) v u := by
  have hlen : m'.nids.length = m.nids.length := by rw [h.nids.length_eq, List.length_map]
  obtain ⟨hf', ht'⟩ := h.shearHyps hq hr hm.wf hf hbasic hflat ht
  obtain ⟨L, l1, l2, l3⟩ := C38_energy hm hf hh ht al fa hK
  obtain ⟨L', l1', l2', l3'⟩ := C38_energy hm' hf' (hr.hasProps h hm.wf hh) ht' al fa (K := K') (by rw [hlen]; exact hK')
  refine ⟨L, L', l1, l1', l2, l2', fun v u v' u' hv hu => ?_⟩
  rw [l3, l3']
  exact h.shearEnergy hq hr hm.wf hiso pn al fa hv hu

/-- C89: the increment of the cell-based method does not depend on numbering, orders and origin, whatever the laminates -/
theorem C89_renumber (hm : Numbered m) (hm' : Numbered m') (h : SamePlate π σ 1 a b m m')
    (hf : FlatMesh m) (hbasic : ∀ i ∈ m'.nids, (m'.node i).cp (m'.node i).xyz = (m'.node i).xyz)
    (hflat : ∀ i ∈ m'.nids, ∀ j ∈ m'.nids, (m'.node i).xyz.z = (m'.node j).xyz.z) {pn : Bool} (hh : HasProps m pn) (ht : Thick m pn) (al : ℝ) (fa : Bool)
    {K K' : Mat} (hK : K.dim = 5 * m.nids.length) (hK' : K'.dim = 5 * m.nids.length) :
    ∃ L L', addK0s K m pn "cell-based" al fa = (L, none) ∧ addK0s K' m' pn "cell-based" al fa = (L', none) ∧ L.dim = K.dim ∧ L'.dim = K'.dim ∧
      ∀ i ∈ m.nids, ∀ j ∈ m.nids, ∀ r < 5, ∀ t < 5,
        L'.get (5 * m'.nids.idxOf (π i) + r) (5 * m'.nids.idxOf (π j) + t) - K'.get (5 * m'.nids.idxOf (π i) + r) (5 * m'.nids.idxOf (π j) + t) =
        L.get (5 * m.nids.idxOf i + r) (5 * m.nids.idxOf j + t) - K.get (5 * m.nids.idxOf i + r) (5 * m.nids.idxOf j + t) := by
  have hlen : m'.nids.length = m.nids.length := by rw [h.nids.length_eq, List.length_map]
  have hq : Orthogonal ![![1, 0], ![0, 1]] := ⟨by simp, by simp, by simp⟩
  have hg : TurnedGeom ![![1, 0], ![0, 1]] π σ a b m m' :=
    ⟨h.nids, h.eids, h.tri, fun i hi => by simp [h.hx i hi], fun i hi => by simp [h.hy i hi]⟩
  have rel : ∀ o o' : Option Lam, o' = o → Option.Rel SameShear o o' := by
    intro o o' ho
    subst ho
    cases o' with
    | none => exact .none
    | some p => exact .some ⟨rfl, rfl, rfl, rfl, rfl⟩
  have hr : LamRel SameShear π σ m m' := ⟨fun e he => rel _ _ (h.tprop e he), fun i hi => rel _ _ (h.nprop i hi)⟩
  obtain ⟨hf', ht'⟩ := hg.shearHyps hq hr hm.wf hf hbasic hflat ht
  obtain ⟨L, l1, l2, l3⟩ := C38_energy hm hf hh ht al fa hK
  obtain ⟨L', l1', l2', l3'⟩ := C38_energy hm' hf' (hr.hasProps hg hm.wf hh) ht' al fa (K := K') (by rw [hlen]; exact hK')
  refine ⟨L, L', l1, l1', l2, l2', ?_⟩
  intro i hi j hj r hr5 t ht5
  have li := List.idxOf_lt_length_iff.2 hi
  have lj := List.idxOf_lt_length_iff.2 hj
  have li' := List.idxOf_lt_length_iff.2 (h.mem_nids hi)
  have lj' := List.idxOf_lt_length_iff.2 (h.mem_nids hj)
  have e1 := l3 (single (5 * m.nids.idxOf i + r)) (single (5 * m.nids.idxOf j + t))
  have e2 := l3' (single (5 * m'.nids.idxOf (π i) + r)) (single (5 * m'.nids.idxOf (π j) + t))
  rw [form_single _ (by omega) (by omega)] at e1 e2
  rw [e1, e2]
  have hsingle : ∀ x ∈ m.nids, ∀ r < 5, ∀ s < 5, ∀ y ∈ m.nids, disp m' (single (5 * m'.nids.idxOf (π x) + r)) s (π y) =
      disp m (single (5 * m.nids.idxOf x + r)) s y := by
    intro x hx r hr s hs y hy
    by_cases hxy : y = x
    · subst hxy
      simp only [disp, single]
      by_cases hrq : s = r
      · subst hrq; simp
      · rw [if_neg (by omega), if_neg (by omega)]
    · rw [disp_single hy hxy s r hs hr, disp_single (h.mem_nids hy) (fun e => hxy (h.inj hm'.wf hy hx e)) s r hs hr]
  have hdisp : ∀ x ∈ m.nids, ∀ r < 5, TurnedDisp ![![1, 0], ![0, 1]] π m m' (single (5 * m.nids.idxOf x + r)) (single (5 * m'.nids.idxOf (π x) + r)) := by
    intro x hx r hr
    refine ⟨fun y hy => ?_, fun y hy => ?_, fun y hy => ?_, fun y hy => ?_, fun y hy => ?_⟩ <;> rw [hsingle x hx r hr _ (by norm_num) y hy] <;> simp
  exact hg.shearEnergy_id hr hm.wf pn al fa (hdisp i hi r hr5) (hdisp j hj t ht5)

end

/-! ### concrete cases -/

/-- an isotropic laminate with membrane-bending coupling -/
noncomputable def exSteel : Lam where
  A := ![![6, 2, 0], ![2, 6, 0], ![0, 0, 2]]
  B := ![![1, 1 / 2, 0], ![1 / 2, 1, 0], ![0, 0, 1 / 4]]
  D := ![![3, 1, 0], ![1, 3, 0], ![0, 0, 1]]
  E := fun i j => if i = j then 5 else 0
  h := 1 / 10
  k13 := 5 / 6
  k23 := 5 / 6

theorem exSteel_iso : Isotropic exSteel := by
  refine ⟨⟨rfl, rfl, rfl, ?_⟩, ⟨rfl, rfl, rfl, ?_⟩, rfl, rfl, rfl, ?_⟩
  · change (2 : ℝ) = (6 - 2) / 2; norm_num
  · change (1 / 4 : ℝ) = (1 - 1 / 2) / 2; norm_num
  · change (1 : ℝ) = (3 - 1) / 2; norm_num

theorem exSteel_sym : SymmetricAB exSteel := by
  constructor <;> intro i j <;> fin_cases i <;> fin_cases j <;> rfl

/-- an orthotropic laminate, not isotropic -/
noncomputable def exWood : Lam := { exSteel with A := ![![9, 1, 0], ![1, 2, 0], ![0, 0, 5]] }

theorem exWood_ortho : Orthotropic exWood := ⟨⟨rfl, rfl⟩, ⟨rfl, rfl⟩, rfl, rfl⟩

theorem exMesh_lams {P : Lam → Prop} {p1 p2 p3 p4 q1 q2 : Lam} (h1 : P p1) (h2 : P p2) (h3 : P p3) (h4 : P p4) (h5 : P q1) (h6 : P q2) :
    AllLams (exMesh p1 p2 p3 p4 q1 q2) P := by
  constructor
  · intro i hi p hp
    rw [exMesh_nids] at hi
    simp only [List.mem_cons, List.not_mem_nil, or_false] at hi
    obtain ⟨e1, e2, e3, e4⟩ := exMesh_nprop p1 p2 p3 p4 q1 q2
    rcases hi with rfl | rfl | rfl | rfl
    · rw [e1] at hp; cases hp; exact h1
    · rw [e2] at hp; cases hp; exact h2
    · rw [e3] at hp; cases hp; exact h3
    · rw [e4] at hp; cases hp; exact h4
  · intro e he p hp
    rw [exMesh_eids] at he
    simp only [List.mem_cons, List.not_mem_nil, or_false] at he
    rcases he with rfl | rfl
    · rw [exMesh_tria1] at hp; cases hp; exact h5
    · rw [exMesh_tria2] at hp; cases hp; exact h6

/-- the unit square of steel turned by `atan(4/3)` and moved by `(2, 0, 1)` -/
noncomputable def exTurned (p : Lam) : Mesh :=
  run (exMesh p p p p p p) [.moveNode 1 ⟨2, 0, 1⟩, .moveNode 2 ⟨13 / 5, 4 / 5, 1⟩, .moveNode 3 ⟨9 / 5, 7 / 5, 1⟩, .moveNode 4 ⟨6 / 5, 3 / 5, 1⟩]

theorem exTurned_eq (p : Lam) : exTurned p = run (exMesh p p p p p p) ((exMesh p p p p p p).nids.map fun i =>
    .moveNode i (turnPt (rotation (3 / 5) (4 / 5)) ⟨2, 0, 1⟩ ((exMesh p p p p p p).node i).xyz)) := by
  rw [exMesh_nids]
  simp only [List.map_cons, List.map_nil, exMesh_node1, exMesh_node2, exMesh_node3, exMesh_node4, turnPt, rotation, Matrix.cons_val_zero, Matrix.cons_val_one]
  norm_num [exTurned]

example (pn : Bool) : ∃ K K', (calcK0 (exMesh exSteel exSteel exSteel exSteel exSteel exSteel) pn).2 = .ok K ∧ (calcK0 (exTurned exSteel) pn).2 = .ok K' ∧
    ∀ v u, form K'.dim K'.get (turnVec (rotation (3 / 5) (4 / 5)) v) (turnVec (rotation (3 / 5) (4 / 5)) u) = form K.dim K.get v u := by
  obtain ⟨K, hK, _⟩ := exMesh_k0 exSteel exSteel exSteel exSteel exSteel exSteel pn
  obtain ⟨K', hK', _, h⟩ := C87_isotropic (exMesh_reachable ..) (exMesh_proper ..) (exMesh_planar ..) (rotation_orthogonal (c := 3 / 5) (s := 4 / 5) (by norm_num))
    (exMesh_lams exSteel_iso exSteel_iso exSteel_iso exSteel_iso exSteel_iso exSteel_iso) ⟨2, 0, 1⟩ (fun i hi => by rw [exMesh_cp _ _ _ _ _ _ i hi]; rfl) hK
  rw [← exTurned_eq] at hK'
  exact ⟨K, K', hK, hK', h⟩

/-- the mirror image of the unit square, with different laminates -/
example (pn : Bool) : ∃ K K', (calcK0 (exMesh exWood exSteel exWood exSteel exWood exSteel) pn).2 = .ok K ∧
    (calcK0 (run (exMesh exWood exSteel exWood exSteel exWood exSteel)
      [.moveNode 1 ⟨0, 0, 0⟩, .moveNode 2 ⟨1, 0, 0⟩, .moveNode 3 ⟨1, -1, 0⟩, .moveNode 4 ⟨0, -1, 0⟩]) pn).2 = .ok K' ∧
    ∀ v u, form K'.dim K'.get (turnVec mirror v) (turnVec mirror u) = form K.dim K.get v u := by
  obtain ⟨K, hK, _⟩ := exMesh_k0 exWood exSteel exWood exSteel exWood exSteel pn
  have hs : Orthotropic exSteel := ⟨⟨rfl, rfl⟩, ⟨rfl, rfl⟩, rfl, rfl⟩
  obtain ⟨K', hK', _, h⟩ := C87_mirror (exMesh_reachable ..) (exMesh_proper ..) (exMesh_planar ..)
    (exMesh_lams exWood_ortho hs exWood_ortho hs exWood_ortho hs) ⟨0, 0, 0⟩ (fun i hi => by rw [exMesh_cp _ _ _ _ _ _ i hi]; rfl) hK
  rw [exMesh_nids] at hK'
  simp only [List.map_cons, List.map_nil, exMesh_node1, exMesh_node2, exMesh_node3, exMesh_node4, turnPt, mirror, Matrix.cons_val_zero, Matrix.cons_val_one] at hK'
  norm_num at hK'
  exact ⟨K, K', hK, hK', h⟩

/-- the wood turned by 90 degrees -/
noncomputable def exWood90 : Lam := { exSteel with A := ![![2, 1, 0], ![1, 9, 0], ![0, 0, 5]] }

/-- a laminate that does notice the turn -/
example : TurnedLam (rotation 0 1) exWood exWood90 := by
  intro e
  rw [lamProd_blocks, lamProd_blocks]
  have hs : ∀ M : Fin 3 → Fin 3 → ℝ, M = exSteel.B ∨ M = exSteel.D → M 0 2 = 0 ∧ M 1 2 = 0 ∧ M 1 1 = M 0 0 := by
    rintro M (rfl | rfl) <;> exact ⟨rfl, rfl, rfl⟩
  obtain ⟨b1, b2, b3⟩ := hs exSteel.B (Or.inl rfl)
  obtain ⟨d1, d2, d3⟩ := hs exSteel.D (Or.inr rfl)
  have t : turnStrain (rotation 0 1) e = ![e 1, e 0, -e 2, e 4, e 3, -e 5] := by
    funext i; fin_cases i <;> simp [turnStrain, rotation]
  rw [t, show exWood.B = exSteel.B from rfl, show exWood.D = exSteel.D from rfl, show exWood90.B = exSteel.B from rfl, show exWood90.D = exSteel.D from rfl,
    b1, b2, b3, d1, d2, d3, show exWood.A 0 0 = 9 from rfl, show exWood.A 0 1 = 1 from rfl, show exWood.A 0 2 = 0 from rfl, show exWood.A 1 1 = 2 from rfl,
    show exWood.A 1 2 = 0 from rfl, show exWood.A 2 2 = 5 from rfl, show exWood90.A 0 0 = 2 from rfl, show exWood90.A 0 1 = 1 from rfl,
    show exWood90.A 0 2 = 0 from rfl, show exWood90.A 1 1 = 9 from rfl, show exWood90.A 1 2 = 0 from rfl, show exWood90.A 2 2 = 5 from rfl]
  simp only [Matrix.cons_val_zero, Matrix.cons_val_one, Matrix.cons_val]
  ring

section
variable (p : Lam)

theorem exTurned_reachable : Reachable (exTurned p) := (exMesh_reachable ..).run _

theorem exTurned_spec : (exTurned p).nids = [1, 2, 3, 4] ∧ (exTurned p).eids = [1, 2] ∧ (exTurned p).tria = (exMesh p p p p p p).tria ∧
    (∀ i ∈ [1, 2, 3, 4], ((exTurned p).node i).xyz = turnPt (rotation (3 / 5) (4 / 5)) ⟨2, 0, 1⟩ ((exMesh p p p p p p).node i).xyz) ∧
    (∀ i, ((exTurned p).node i).cp = ((exMesh p p p p p p).node i).cp) ∧ ∀ i, ((exTurned p).node i).prop = ((exMesh p p p p p p).node i).prop := by
  obtain ⟨h1, h2, h3, h4⟩ := moves_spec (fun i => turnPt (rotation (3 / 5) (4 / 5)) ⟨2, 0, 1⟩ ((exMesh p p p p p p).node i).xyz) (exMesh p p p p p p).nids
    (exMesh p p p p p p) (fun i hi => hi)
  rw [← exTurned_eq] at h1 h2 h3 h4
  exact ⟨h1.trans (exMesh_nids ..), h2.trans (exMesh_eids ..), h3, fun i hi => by rw [(h4 i).1, exMesh_nids, if_pos hi], fun i => (h4 i).2.1, fun i => (h4 i).2.2⟩

/-- after `calc_k0` -/
noncomputable def exTurned2 : Mesh := (calcK0 (exTurned p) true).1

theorem exTurned_nids : (exTurned2 p).nids = [1, 2, 3, 4] := by
  have s' : SameStatic (exTurned p) (exTurned2 p) := calcK0_static _ _ (exTurned_reachable p).wf
  rw [s'.nids, (exTurned_spec p).1]

theorem exTurned_geom : TurnedGeom (rotation (3 / 5) (4 / 5)) id id 2 0 (exAfter p p p p p p) (exTurned2 p) := by
  obtain ⟨h1, h2, h3, h4, h5, h6⟩ := exTurned_spec p
  have s := exAfter_static p p p p p p
  have s' : SameStatic (exTurned p) (exTurned2 p) := calcK0_static _ _ (exTurned_reachable p).wf
  refine ⟨?_, ?_, ?_, ?_, ?_⟩
  · rw [s'.nids, h1, exAfter_nids, List.map_id]
  · rw [s'.eids, h2, s.eids, exMesh_eids, List.map_id]
  · intro e _; rw [List.map_id]; unfold corners; rw [s'.tria, s.tria, h3]; exact List.Perm.refl _
  · intro i hi
    rw [exAfter_nids] at hi
    simp only [nx, ny, id, s'.xyz, s.xyz, h4 i hi, turnPt]
  · intro i hi
    rw [exAfter_nids] at hi
    simp only [nx, ny, id, s'.xyz, s.xyz, h4 i hi, turnPt]

theorem exTurned_rel {R : Lam → Lam → Prop} (hR : R p p) : LamRel R id id (exAfter p p p p p p) (exTurned2 p) := by
  obtain ⟨h1, h2, h3, h4, h5, h6⟩ := exTurned_spec p
  have s := exAfter_static p p p p p p
  have s' : SameStatic (exTurned p) (exTurned2 p) := calcK0_static _ _ (exTurned_reachable p).wf
  have rel : ∀ o : Option Lam, (∀ l, o = some l → R l l) → Option.Rel R o o := by
    intro o ho
    cases o with
    | none => exact .none
    | some p => exact .some (ho p rfl)
  obtain ⟨l1, l2⟩ := exMesh_lams (P := fun l => R l l) hR hR hR hR hR hR
  constructor
  · intro e he
    rw [s.eids] at he
    simp only [id]
    rw [s'.tria, s.tria, h3]; exact rel _ (l2 e he)
  · intro i hi
    rw [s.nids] at hi
    simp only [id]
    rw [s'.prop, s.prop, h6]; exact rel _ (l1 i hi)

theorem exTurned_lams {P : Lam → Prop} (h : P p) : AllLams (exTurned2 p) P ∧ AllLams (exAfter p p p p p p) P := by
  obtain ⟨h1, h2, h3, h4, h5, h6⟩ := exTurned_spec p
  have s := exAfter_static p p p p p p
  have s' : SameStatic (exTurned p) (exTurned2 p) := calcK0_static _ _ (exTurned_reachable p).wf
  obtain ⟨l1, l2⟩ := exMesh_lams (P := P) h h h h h h
  refine ⟨⟨fun i hi l hl => ?_, fun e he l hl => ?_⟩, fun i hi l hl => ?_, fun e he l hl => ?_⟩
  · rw [s'.nids, h1, ← exMesh_nids p p p p p p] at hi; rw [s'.prop, h6] at hl; exact l1 i hi l hl
  · rw [s'.eids, h2, ← exMesh_eids p p p p p p] at he; rw [s'.tria, h3] at hl; exact l2 e he l hl
  · rw [s.nids] at hi; rw [s.prop] at hl; exact l1 i hi l hl
  · rw [s.eids] at he; rw [s.tria] at hl; exact l2 e he l hl

theorem exTurned_basic : ∀ i ∈ (exTurned2 p).nids, ((exTurned2 p).node i).cp ((exTurned2 p).node i).xyz = ((exTurned2 p).node i).xyz := by
  obtain ⟨h1, h2, h3, h4, h5, h6⟩ := exTurned_spec p
  have s' : SameStatic (exTurned p) (exTurned2 p) := calcK0_static _ _ (exTurned_reachable p).wf
  intro i hi
  rw [s'.nids, h1, ← exMesh_nids p p p p p p] at hi
  rw [s'.cp, h5, exMesh_cp _ _ _ _ _ _ i hi]; rfl

theorem exTurned_flat : ∀ i ∈ (exTurned2 p).nids, ∀ j ∈ (exTurned2 p).nids, ((exTurned2 p).node i).xyz.z = ((exTurned2 p).node j).xyz.z := by
  obtain ⟨h1, h2, h3, h4, h5, h6⟩ := exTurned_spec p
  have s' : SameStatic (exTurned p) (exTurned2 p) := calcK0_static _ _ (exTurned_reachable p).wf
  intro i hi j hj
  rw [s'.nids, h1] at hi hj
  rw [s'.xyz, s'.xyz, h4 i hi, h4 j hj]
  have := (exMesh_planar p p p p p p).flat i (by rw [exMesh_nids]; exact hi) j (by rw [exMesh_nids]; exact hj)
  simp only [turnPt, this]

theorem exTurned_after (hp : Isotropic p) : AfterK0 (exTurned2 p) := by
  obtain ⟨K, hK, _⟩ := exMesh_k0 p p p p p p true
  obtain ⟨K', hK', _, h⟩ := C87_isotropic (exMesh_reachable ..) (exMesh_proper ..) (exMesh_planar ..) (rotation_orthogonal (c := 3 / 5) (s := 4 / 5) (by norm_num))
    (exMesh_lams hp hp hp hp hp hp) ⟨2, 0, 1⟩ (fun i hi => by rw [exMesh_cp _ _ _ _ _ _ i hi]; rfl) hK
  rw [← exTurned_eq] at hK'
  exact AfterK0.intro _ (exTurned_reachable p) true K' hK' [] (by simp)
end

/-- C88, concrete case: uniform stretching `u = x` of the unit square, seen in the turned axes -/
example : ∃ K K', calcKG (exAfter exSteel exSteel exSteel exSteel exSteel exSteel) [0, 0, 0, 0, 0, 1, 0, 0, 0, 0, 1, 0, 0, 0, 0, 0, 0, 0, 0, 0] true = .ok K ∧
    calcKG (exTurned2 exSteel) [0, 0, 0, 0, 0, 3 / 5, 4 / 5, 0, 0, 0, 3 / 5, 4 / 5, 0, 0, 0, 0, 0, 0, 0, 0] true = .ok K' ∧ K'.get 7 12 = K.get 7 12 := by
  have hq := rotation_orthogonal (c := 3 / 5) (s := 4 / 5) (by norm_num)
  have hp : TurnedPlate (rotation (3 / 5) (4 / 5)) id id 2 0 (exAfter exSteel exSteel exSteel exSteel exSteel exSteel) (exTurned2 exSteel) :=
    ⟨exTurned_geom exSteel, exTurned_rel exSteel (isotropic_turned hq exSteel_iso)⟩
  obtain ⟨K, K', h1, h2, h3, h4⟩ := C88_turned (exAfter_after ..) (exTurned_after exSteel exSteel_iso) (exAfter_proper ..) (exAfter_planar ..)
    hq hp (exTurned_lams exSteel exSteel_sym).2 (exTurned_lams exSteel exSteel_sym).1 (exTurned_basic exSteel) (exTurned_flat exSteel)
    (exAfter_props _ _ _ _ _ _ true) (d := [0, 0, 0, 0, 0, 1, 0, 0, 0, 0, 1, 0, 0, 0, 0, 0, 0, 0, 0, 0])
    (d' := [0, 0, 0, 0, 0, 3 / 5, 4 / 5, 0, 0, 0, 3 / 5, 4 / 5, 0, 0, 0, 0, 0, 0, 0, 0]) (by rw [exAfter_nids]; rfl) (by rw [exTurned_nids exSteel]; rfl) (by
      refine ⟨?_, ?_, ?_, ?_, ?_⟩ <;> intro i hi <;> rw [exAfter_nids] at hi <;> simp only [List.mem_cons, List.not_mem_nil, or_false] at hi <;>
        rcases hi with rfl | rfl | rfl | rfl <;> simp [disp, exAfter_nids, exTurned_nids exSteel, vec, rotation])
  refine ⟨K, K', h1, h2, ?_⟩
  have hd := C49_kG (exAfter_after exSteel exSteel exSteel exSteel exSteel exSteel) (exAfter_proper ..) (exAfter_props _ _ _ _ _ _ true)
    (d := [0, 0, 0, 0, 0, 1, 0, 0, 0, 0, 1, 0, 0, 0, 0, 0, 0, 0, 0, 0]) (by rw [exAfter_nids]; rfl)
  obtain ⟨K2, e1, e2⟩ := hd
  rw [h1] at e1
  cases e1
  rw [exAfter_nids] at e2
  have hsg : ∀ r, r = 7 ∨ r = 12 → TurnedDisp (rotation (3 / 5) (4 / 5)) id (exAfter exSteel exSteel exSteel exSteel exSteel exSteel) (exTurned2 exSteel) (single r) (single r) := by
    intro r hr
    have := turnVec_disp (m := exAfter exSteel exSteel exSteel exSteel exSteel exSteel) (m' := exTurned2 exSteel) (rotation (3 / 5) (4 / 5)) (single r) (by rw [exTurned_nids exSteel, exAfter_nids])
    have e : turnVec (rotation (3 / 5) (4 / 5)) (single r) = single r := by
      funext j
      unfold turnVec single
      by_cases c1 : j % 5 = 0 ∨ j % 5 = 3
      · rw [if_pos c1, if_neg (by omega), if_neg (by omega)]; ring
      · by_cases c2 : j % 5 = 1 ∨ j % 5 = 4
        · rw [if_neg c1, if_pos c2, if_neg (by omega), if_neg (by omega)]; ring
        · rw [if_neg c1, if_neg c2]
    rwa [e] at this
  have := h4 _ _ _ _ (hsg 7 (Or.inl rfl)) (hsg 12 (Or.inr rfl))
  rw [h3, e2] at this
  rw [form_single _ (by norm_num) (by norm_num), form_single _ (by norm_num) (by norm_num)] at this
  exact this

/-- C89, concrete case -/
example (al : ℝ) (fa : Bool) : ∃ L L', addK0s (Mat.zeros 20) (exAfter exSteel exSteel exSteel exSteel exSteel exSteel) false "cell-based" al fa = (L, none) ∧
    addK0s (Mat.zeros 20) (exTurned2 exSteel) false "cell-based" al fa = (L', none) ∧ ∀ v u,
      form 20 (fun i j => L'.get i j - (Mat.zeros 20).get i j) (turnVec (rotation (3 / 5) (4 / 5)) v) (turnVec (rotation (3 / 5) (4 / 5)) u) =
      form 20 (fun i j => L.get i j - (Mat.zeros 20).get i j) v u := by
  obtain ⟨L, L', h1, h2, h3, h4, h5⟩ := C89_turned (exAfter_numbered ..) (exTurned_after exSteel exSteel_iso).numbered
    (rotation_orthogonal (c := 3 / 5) (s := 4 / 5) (by norm_num)) (exTurned_geom exSteel) (exTurned_rel exSteel ⟨rfl, rfl, rfl, rfl, rfl⟩)
    (exTurned_lams exSteel (P := ShearIsotropic) ⟨rfl, rfl⟩).2 (exAfter_flat ..) (exTurned_basic exSteel) (exTurned_flat exSteel) (exAfter_props _ _ _ _ _ _ false)
    (exAfter_thick exSteel (by norm_num [exSteel]) false) al fa (K := Mat.zeros 20) (K' := Mat.zeros 20) (by rw [exAfter_nids]; rfl) (by rw [exAfter_nids]; rfl)
  exact ⟨L, L', h1, h2, fun v u => h5 v u _ _ (turnVec_disp _ v (by rw [exTurned_nids exSteel, exAfter_nids])) (turnVec_disp _ u (by rw [exTurned_nids exSteel, exAfter_nids]))⟩

section
variable (p1 p2 p3 p4 q1 q2 : Lam)

/-- the renumbered unit square after `calc_k0` -/
noncomputable def exAfter' : Mesh := (calcK0 (exMesh' p1 p2 p3 p4 q1 q2) true).1

theorem exMesh'_reachable : Reachable (exMesh' p1 p2 p3 p4 q1 q2) := .delaunay _ _ _ exRead'_ok (exOps p4 p3 p2 p1 q2 q1)

theorem exAfter'_static : SameStatic (exMesh' p1 p2 p3 p4 q1 q2) (exAfter' p1 p2 p3 p4 q1 q2) := calcK0_static _ _ (exMesh'_reachable ..).wf

theorem exAfter'_nids : (exAfter' p1 p2 p3 p4 q1 q2).nids = [1, 2, 3, 4] := by rw [(exAfter'_static ..).nids, exMesh'_nids]

theorem exMesh'_flat : (∀ i ∈ [1, 2, 3, 4], ((exMesh' p1 p2 p3 p4 q1 q2).node i).cp ((exMesh' p1 p2 p3 p4 q1 q2).node i).xyz = ((exMesh' p1 p2 p3 p4 q1 q2).node i).xyz) ∧
    ∀ i ∈ [1, 2, 3, 4], ((exMesh' p1 p2 p3 p4 q1 q2).node i).xyz.z = 0 := by
  constructor <;> intro i hi <;> simp only [List.mem_cons, List.not_mem_nil, or_false] at hi <;> rcases hi with rfl | rfl | rfl | rfl <;> rfl

theorem exAfter'_basic : ∀ i ∈ (exAfter' p1 p2 p3 p4 q1 q2).nids, ((exAfter' p1 p2 p3 p4 q1 q2).node i).cp ((exAfter' p1 p2 p3 p4 q1 q2).node i).xyz =
    ((exAfter' p1 p2 p3 p4 q1 q2).node i).xyz := by
  intro i hi
  rw [exAfter'_nids] at hi
  rw [(exAfter'_static ..).cp, (exAfter'_static ..).xyz]
  exact (exMesh'_flat ..).1 i hi

theorem exAfter'_flat : ∀ i ∈ (exAfter' p1 p2 p3 p4 q1 q2).nids, ∀ j ∈ (exAfter' p1 p2 p3 p4 q1 q2).nids,
    ((exAfter' p1 p2 p3 p4 q1 q2).node i).xyz.z = ((exAfter' p1 p2 p3 p4 q1 q2).node j).xyz.z := by
  intro i hi j hj
  rw [exAfter'_nids] at hi hj
  rw [(exAfter'_static ..).xyz, (exAfter'_static ..).xyz, (exMesh'_flat ..).2 i hi, (exMesh'_flat ..).2 j hj]

theorem exAfter'_same : SamePlate (fun i => 5 - i) (fun e => 3 - e) 1 0 0 (exAfter p1 p2 p3 p4 q1 q2) (exAfter' p1 p2 p3 p4 q1 q2) := by
  have h := exSame p1 p2 p3 p4 q1 q2
  have s := exAfter_static p1 p2 p3 p4 q1 q2
  have s' := exAfter'_static p1 p2 p3 p4 q1 q2
  refine ⟨?_, ?_, ?_, ?_, ?_, ?_, ?_⟩
  · rw [s'.nids, s.nids]; exact h.nids
  · rw [s'.eids, s.eids]; exact h.eids
  · intro e he; rw [s.eids] at he; unfold corners; rw [s'.tria, s.tria]; exact h.tri e he
  · intro e he; rw [s.eids] at he; rw [s'.tria, s.tria]; exact h.tprop e he
  · intro i hi; rw [s.nids] at hi; unfold nx; rw [s'.xyz, s.xyz]; exact h.hx i hi
  · intro i hi; rw [s.nids] at hi; unfold ny; rw [s'.xyz, s.xyz]; exact h.hy i hi
  · intro i hi; rw [s.nids] at hi; rw [s'.prop, s.prop]; exact h.nprop i hi

theorem exAfter'_after : AfterK0 (exAfter' p1 p2 p3 p4 q1 q2) := by
  obtain ⟨K, hK, _⟩ := exMesh_k0 p1 p2 p3 p4 q1 q2 true
  obtain ⟨K', hK', _, _⟩ := C67_renumber (exMesh_reachable p1 p2 p3 p4 q1 q2) (exMesh'_reachable p1 p2 p3 p4 q1 q2) (exMesh_proper ..)
    (exMesh_planar ..) (exSame p1 p2 p3 p4 q1 q2) one_ne_zero (fun i hi => (exMesh'_flat ..).1 i (by rw [← exMesh'_nids]; exact hi)) (fun i hi j hj => by
      rw [(exMesh'_flat ..).2 i (by rw [← exMesh'_nids]; exact hi), (exMesh'_flat ..).2 j (by rw [← exMesh'_nids]; exact hj)]) hK
  exact AfterK0.intro _ (exMesh'_reachable ..) true K' hK' [] (by simp)

/-- C88, concrete case for other numbers: uniform stretching `u = x` with nodes `i -> 5 - i` and the triangles exchanged -/
example : ∃ K K', calcKG (exAfter p1 p2 p3 p4 q1 q2) [0, 0, 0, 0, 0, 1, 0, 0, 0, 0, 1, 0, 0, 0, 0, 0, 0, 0, 0, 0] true = .ok K ∧
    calcKG (exAfter' p1 p2 p3 p4 q1 q2) [0, 0, 0, 0, 0, 1, 0, 0, 0, 0, 1, 0, 0, 0, 0, 0, 0, 0, 0, 0] true = .ok K' ∧ K'.get 17 12 = K.get 2 7 := by
  obtain ⟨K, K', h1, h2, _, h4⟩ := C88_renumber (exAfter_after p1 p2 p3 p4 q1 q2) (exAfter'_after p1 p2 p3 p4 q1 q2) (exAfter_proper ..) (exAfter_planar ..)
    (exAfter'_same p1 p2 p3 p4 q1 q2) one_ne_zero (exAfter'_basic _ _ _ _ _ _) (exAfter'_flat _ _ _ _ _ _) (exAfter_props _ _ _ _ _ _ true)
    (d := [0, 0, 0, 0, 0, 1, 0, 0, 0, 0, 1, 0, 0, 0, 0, 0, 0, 0, 0, 0]) (d' := [0, 0, 0, 0, 0, 1, 0, 0, 0, 0, 1, 0, 0, 0, 0, 0, 0, 0, 0, 0])
    (by rw [exAfter_nids]; rfl) (by rw [exAfter'_nids]; rfl) (by
      intro r hr i hi
      rw [exAfter_nids] at hi
      simp only [List.mem_cons, List.not_mem_nil, or_false] at hi
      simp only [disp, exAfter_nids, exAfter'_nids]
      interval_cases r <;> rcases hi with rfl | rfl | rfl | rfl <;> rfl)
  refine ⟨K, K', h1, h2, ?_⟩
  have := h4 1 (by rw [exAfter_nids]; simp) 2 (by rw [exAfter_nids]; simp) 2 (by norm_num) 2 (by norm_num)
  rw [exAfter_nids, exAfter'_nids, div_one] at this
  exact this
end

/-- steel with other transverse shear moduli in x than in y -/
noncomputable def exShearOrtho : Lam := { exSteel with k13 := 1 / 2, E := fun i j => if i = j then (if i = 0 then 1 else 2) else 0 }

/-- C89, concrete case for other numbers, with unequal transverse shear moduli -/
example (al : ℝ) (fa : Bool) : ∃ L L', addK0s (Mat.zeros 20) (exAfter exShearOrtho exShearOrtho exShearOrtho exShearOrtho exShearOrtho exShearOrtho) false "cell-based" al fa = (L, none) ∧
    addK0s (Mat.zeros 20) (exAfter' exShearOrtho exShearOrtho exShearOrtho exShearOrtho exShearOrtho exShearOrtho) false "cell-based" al fa = (L', none) ∧ L'.get 17 13 = L.get 2 8 := by
  obtain ⟨L, L', h1, h2, h3, h4, h5⟩ := C89_renumber (exAfter_numbered exShearOrtho exShearOrtho exShearOrtho exShearOrtho exShearOrtho exShearOrtho) (exAfter'_after exShearOrtho exShearOrtho exShearOrtho exShearOrtho exShearOrtho exShearOrtho).numbered
    (exAfter'_same ..) (exAfter_flat ..) (exAfter'_basic _ _ _ _ _ _) (exAfter'_flat _ _ _ _ _ _) (exAfter_props _ _ _ _ _ _ false)
    (exAfter_thick exShearOrtho (by norm_num [exShearOrtho, exSteel]) false) al fa (K := Mat.zeros 20) (K' := Mat.zeros 20) (by rw [exAfter_nids]; rfl) (by rw [exAfter_nids]; rfl)
  refine ⟨L, L', h1, h2, ?_⟩
  have := h5 1 (by rw [exAfter_nids]; simp) 2 (by rw [exAfter_nids]; simp) 2 (by norm_num) 3 (by norm_num)
  rw [exAfter_nids, exAfter'_nids] at this
  simpa [Mat.zeros] using this

end Meshless
