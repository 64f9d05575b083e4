import Verif.Spec.Units
import Verif.Props.TurnSolve

/-! The same plate in other units of length and force. -/

set_option autoImplicit false

namespace Meshless
open Spec Finset

section
variable {a f : ℝ} {m m' : Mesh}

theorem scaled_disp (s t : ℝ) (z : ℕ → ℝ) (i : ℕ) {r : ℕ} (hr : r < 5) : disp m (scaled s t z) r i = (if r < 3 then s else t) * disp m z r i := by
  unfold disp scaled
  rw [show (5 * m.nids.idxOf i + r) % 5 = r by omega]
  split_ifs <;> rfl

/-- the mesh `m` with the laminates of `m'` -/
def relaid (m m' : Mesh) : Mesh :=
  { m with
    node := fun i => { m.node i with prop := (m'.node i).prop }
    tria := fun e => { m.tria e with prop := (m'.tria e).prop } }

theorem relaid_wf (w : WF m) : WF (relaid m m') :=
  ⟨w.nids_nodup, w.eids_nodup, w.ekeys_nodup, w.mem_ekeys, w.ends, w.en,
    fun k hk => (w.etrias k hk).trans (sideTrias_congr (fun _ _ => rfl) k), w.tedges⟩

theorem relaid_proper (hp : Proper m) : Proper (relaid m m') := ⟨hp.distinct, hp.manifold, hp.simple⟩
theorem relaid_planar (hg : Planar m) : Planar (relaid m m') := ⟨hg.basic, hg.flat, hg.nondeg, hg.opposite⟩

theorem Spec.UnitPlate.same (h : UnitPlate a f m m') : SamePlate id id a 0 0 (relaid m m') m' where
  nids := by rw [h.nids, List.map_id]; rfl
  eids := by rw [h.eids, List.map_id]; rfl
  tri e he := by rw [List.map_id]; exact (h.tri e he) ▸ .refl _
  tprop _ _ := rfl
  hx i hi := by rw [add_zero]; exact h.hx i hi
  hy i hi := by rw [add_zero]; exact h.hy i hi
  nprop _ _ := rfl

theorem ofProp_scaled {R : Lam → Lam → Prop} {c : ℝ} {sel sel' : Lam → ℝ} (hs : ∀ p p', R p p' → sel' p' = c * sel p) {o o' : Option Lam} (h : Option.Rel R o o') :
    ofProp sel' o' = c * ofProp sel o := by
  cases h with
  | some h => exact hs _ _ h
  | none => simp [ofProp]

theorem mean_scaled {c : ℝ} {F G : ℕ → ℝ} {A : List ℕ} (h : ∀ i ∈ A, G i = c * F i) : Spec.mean G A = c * Spec.mean F A := by
  unfold Spec.mean
  rw [List.map_congr_left h, List.sum_map_mul_left, mul_div_assoc]

theorem relaid_avg {R : Lam → Lam → Prop} (h : LamRel R id id m m') (w : WF m) (hp : Proper m) {k : Key} (hk : k ∈ m.ekeys) (pn : Bool) {c : ℝ}
    {sel sel' : Lam → ℝ} (hs : ∀ p p', R p p' → sel' p' = c * sel p) : Spec.avg (relaid m m') pn k sel' = c * Spec.avg m pn k sel := by
  unfold Spec.avg
  cases pn with
  | true =>
    simp only [if_true]
    rw [← mul_div_assoc, ← List.sum_map_mul_left]
    congr 2
    refine List.map_congr_left fun A hA => ?_
    have hin : InMesh m A := by
      have hA : A ∈ Spec.dom m k := hA
      rcases dom_shape w hp hk with ⟨A, B, C, hd, hA', hB, hC⟩ | ⟨A, B, C, D, hd, hA', hB, hC, hD⟩ <;> rw [hd] at hA <;>
        simp only [List.mem_cons, List.not_mem_nil, or_false] at hA
      · rcases hA with rfl | rfl | rfl <;> assumption
      · rcases hA with rfl | rfl | rfl | rfl <;> assumption
    exact mean_scaled fun i hi => ofProp_scaled hs (h.nprop i (hin.2 i hi))
  | false =>
    simp only [Bool.false_eq_true, if_false]
    rw [← mul_div_assoc, ← List.sum_map_mul_left]
    congr 2
    refine List.map_congr_left fun t ht => ?_
    change Spec.triArea m t * ofProp sel' (m'.tria t).prop = c * (Spec.triArea m t * ofProp sel (m.tria t).prop)
    have e := ofProp_scaled hs (h.tprop t (trias_mem w hp hk ht))
    rw [id] at e
    rw [e]
    ring

theorem relaid_gradX (k : Key) (c : ℝ) (F : ℕ → ℝ) : gradX (relaid m m') (Spec.dom (relaid m m') k) (fun i => c * F i) = c * gradX m (Spec.dom m k) F := by
  change gradX m (Spec.dom m k) _ = _
  unfold gradX circDy
  rw [← mul_div_assoc, ← List.sum_map_mul_left]
  congr 2
  refine List.map_congr_left fun s _ => ?_
  rw [mean_scaled (fun i _ => rfl), mean_scaled (A := s.2) (fun i _ => rfl)]; ring

theorem relaid_gradY (k : Key) (c : ℝ) (F : ℕ → ℝ) : gradY (relaid m m') (Spec.dom (relaid m m') k) (fun i => c * F i) = c * gradY m (Spec.dom m k) F := by
  change gradY m (Spec.dom m k) _ = _
  unfold gradY circDx
  rw [mul_div_assoc', mul_neg, ← List.sum_map_mul_left]
  congr 3
  refine List.map_congr_left fun s _ => ?_
  rw [mean_scaled (fun i _ => rfl), mean_scaled (A := s.2) (fun i _ => rfl)]; ring

theorem relaid_eps (k : Key) (v : ℕ → ℝ) (p : Fin 6) : Spec.eps (relaid m m') k (inLength a v) p = (if p.val < 3 then a else 1) * Spec.eps m k v p := by
  have hd : ∀ r < 5, disp (relaid m m') (inLength a v) r = fun i => (if r < 3 then a else 1) * disp m v r i := by
    intro r hr; funext i; exact scaled_disp (m := relaid m m') a 1 v i hr
  unfold Spec.eps
  rw [hd 0 (by norm_num), hd 1 (by norm_num), hd 3 (by norm_num), hd 4 (by norm_num), relaid_gradX, relaid_gradX, relaid_gradX, relaid_gradX,
    relaid_gradY, relaid_gradY, relaid_gradY, relaid_gradY]
  fin_cases p <;> simp [mul_add]

theorem Spec.UnitLam.abd {p p' : Lam} (h : UnitLam a f p p') (i j : Fin 6) :
    Spec.abd p' i j = (if i.val < 3 ∧ j.val < 3 then f / a else if 3 ≤ i.val ∧ 3 ≤ j.val then f * a else f) * Spec.abd p i j := by
  have hA : sym3 p'.A = fun i j => f / a * sym3 p.A i j := by funext i j; unfold sym3; split_ifs <;> exact h.A ..
  have hB : sym3 p'.B = fun i j => f * sym3 p.B i j := by funext i j; unfold sym3; split_ifs <;> exact h.B ..
  have hD : sym3 p'.D = fun i j => f * a * sym3 p.D i j := by funext i j; unfold sym3; split_ifs <;> exact h.D ..
  unfold Spec.abd
  dsimp only
  rw [hA, hB, hD]
  split_ifs <;> rfl

/-- the membrane and bending energy is a force times a length -/
theorem Spec.UnitPlate.energy (h : UnitPlate a f m m') (w : WF m) (w' : WF m') (hp : Proper m) (hg : Planar m) (ha : a ≠ 0) (pn : Bool) (v u : ℕ → ℝ) :
    Spec.energy m' pn (inLength a v) (inLength a u) = f * a * Spec.energy m pn v u := by
  have hd : ∀ z : ℕ → ℝ, ∀ r < 5, ∀ i ∈ (relaid m m').nids, disp m' z r (id i) = disp (relaid m m') z r i := by
    intro z r _ i _
    unfold disp
    rw [h.nids]; rfl
  rw [h.same.energy (relaid_wf w) w' (relaid_proper hp) (relaid_planar hg) ha pn (hd _) (hd _)]
  unfold Spec.energy
  rw [← List.sum_map_mul_left]
  congr 1
  refine List.map_congr_left fun k hk => ?_
  rw [mul_left_comm]
  refine congrArg (fun x => |Spec.sarea m (Spec.dom m k)| * x) ?_
  rw [Finset.mul_sum]
  refine Finset.sum_congr rfl fun p _ => ?_
  rw [Finset.mul_sum]
  refine Finset.sum_congr rfl fun q _ => ?_
  rw [relaid_eps, relaid_eps, relaid_avg h.toLamRel w hp hk pn (fun p' p'' hh => hh.abd p q)]
  split_ifs <;> first | omega | (field_simp)

theorem Spec.UnitPlate.membrane (h : UnitPlate a f m m') (w : WF m) (hp : Proper m) (ha : a ≠ 0) {k : Key} (hk : k ∈ m.ekeys) (pn : Bool) (d : ℕ → ℝ) (i : Fin 3) :
    Spec.membrane (relaid m m') pn k (inLength a d) i = f * Spec.membrane m pn k d i := by
  unfold Spec.membrane
  rw [Finset.mul_sum]
  refine Finset.sum_congr rfl fun j _ => ?_
  rw [relaid_eps, relaid_eps, relaid_avg h.toLamRel w hp hk pn (fun p p' hh => hh.A i j), relaid_avg h.toLamRel w hp hk pn (fun p p' hh => hh.B i j), if_pos (by simp), if_neg (by simp)]
  field_simp

/-- the work of the membrane forces is a force times a length -/
theorem Spec.UnitPlate.geometric (h : UnitPlate a f m m') (w : WF m) (w' : WF m') (hp : Proper m) (hg : Planar m) (ha : a ≠ 0) (pn : Bool) {d d' : ℕ → ℝ}
    (hdd : ∀ r < 5, ∀ i ∈ m.nids, disp m' d' r i = disp m (inLength a d) r i) (v u : ℕ → ℝ) :
    Spec.geometric m' pn d' (inLength a v) (inLength a u) = f * a * Spec.geometric m pn d v u := by
  have hd : ∀ z : ℕ → ℝ, ∀ i ∈ (relaid m m').nids, disp m' z 2 (id i) = disp (relaid m m') z 2 i := by
    intro z i _
    unfold disp
    rw [h.nids]; rfl
  rw [h.same.geometric (relaid_wf w) w' (relaid_proper hp) (relaid_planar hg) ha pn (d := inLength a d) hdd (hd _) (hd _)]
  unfold Spec.geometric
  rw [← List.sum_map_mul_left, div_eq_mul_inv, ← List.sum_map_mul_right]
  congr 1
  refine List.map_congr_left fun k hk => ?_
  have hk : k ∈ m.ekeys := hk
  dsimp only
  rw [h.membrane w hp ha hk, h.membrane w hp ha hk, h.membrane w hp ha hk]
  have hz : ∀ z : ℕ → ℝ, disp (relaid m m') (inLength a z) 2 = fun i => a * disp m z 2 i := by
    intro z; funext i; exact scaled_disp (m := relaid m m') a 1 z i (by norm_num)
  rw [hz, hz, relaid_gradX, relaid_gradX, relaid_gradY, relaid_gradY]
  change |Spec.sarea m (Spec.dom m k)| * _ * _ = _
  field_simp

/-! ### transverse shear -/

theorem Spec.UnitPlate.mnx (h : UnitPlate a f m m') {A : List ℕ} (hA : InMesh m A) : Spec.mean (nx m') A = a * Spec.mean (nx m) A :=
  mean_scaled fun i hi => h.hx i (hA.2 i hi)

theorem Spec.UnitPlate.mny (h : UnitPlate a f m m') {A : List ℕ} (hA : InMesh m A) : Spec.mean (ny m') A = a * Spec.mean (ny m) A :=
  mean_scaled fun i hi => h.hy i (hA.2 i hi)

theorem Spec.UnitPlate.mdisp (h : UnitPlate a f m m') (z : ℕ → ℝ) {r : ℕ} (hr : r < 5) (A : List ℕ) :
    Spec.mean (disp m' (inLength a z) r) A = (if r < 3 then a else 1) * Spec.mean (disp m z r) A :=
  mean_scaled fun i _ => by
    rw [← scaled_disp (m := m) a 1 z i hr]
    unfold disp
    rw [h.nids]; rfl

theorem Spec.UnitPlate.sarea3 (h : UnitPlate a f m m') {A B C : List ℕ} (hA : InMesh m A) (hB : InMesh m B) (hC : InMesh m C) :
    Spec.sarea m' [A, B, C] = a ^ 2 * Spec.sarea m [A, B, C] := by
  rw [Meshless.sarea3, Meshless.sarea3, h.mnx hA, h.mnx hB, h.mnx hC, h.mny hA, h.mny hB, h.mny hC]
  ring

theorem Spec.UnitPlate.gap (h : UnitPlate a f m m') (z : ℕ → ℝ) {A B : List ℕ} (hA : InMesh m A) (hB : InMesh m B) :
    Spec.gap m' (inLength a z) A B = a * Spec.gap m z A B := by
  unfold Spec.gap
  rw [h.mdisp z (by norm_num), h.mdisp z (by norm_num), h.mdisp z (by norm_num), h.mdisp z (by norm_num), h.mdisp z (by norm_num), h.mdisp z (by norm_num),
    h.mnx hA, h.mnx hB, h.mny hA, h.mny hB]
  norm_num
  ring

theorem Spec.UnitPlate.dsg (h : UnitPlate a f m m') (ha : a ≠ 0) (z : ℕ → ℝ) {A B C : List ℕ} (hA : InMesh m A) (hB : InMesh m B) (hC : InMesh m C) :
    Spec.dsg m' (inLength a z) A B C = Spec.dsg m z A B C := by
  unfold Spec.dsg
  rw [h.gap z hA hB, h.gap z hA hC, h.sarea3 hA hB hC, h.mnx hA, h.mnx hB, h.mnx hC, h.mny hA, h.mny hB, h.mny hC]
  congr 1
  · rw [show 2 * (a ^ 2 * Spec.sarea m [A, B, C]) = a ^ 2 * (2 * Spec.sarea m [A, B, C]) by ring, ← mul_div_mul_left _ (2 * Spec.sarea m [A, B, C]) (pow_ne_zero 2 ha)]
    congr 1; ring
  · congr 1
    rw [show 2 * (a ^ 2 * Spec.sarea m [A, B, C]) = a ^ 2 * (2 * Spec.sarea m [A, B, C]) by ring, ← mul_div_mul_left _ (2 * Spec.sarea m [A, B, C]) (pow_ne_zero 2 ha)]
    congr 1; ring

theorem Spec.UnitPlate.nodes (h : UnitPlate a f m m') {e : ℕ} (he : e ∈ m.eids) :
    (m'.tria e).n1 = (m.tria e).n1 ∧ (m'.tria e).n2 = (m.tria e).n2 ∧ (m'.tria e).n3 = (m.tria e).n3 := by
  have := h.tri e he
  simpa [corners] using this

theorem Spec.UnitPlate.tpoly (h : UnitPlate a f m m') {e : ℕ} (he : e ∈ m.eids) : Spec.tpoly m' e = Spec.tpoly m e := by
  obtain ⟨h1, h2, h3⟩ := h.nodes he
  unfold Spec.tpoly
  rw [h1, h2, h3]

theorem tnodes_in (w : WF m) (hd : ∀ e ∈ m.eids, (m.tria e).Distinct) {e : ℕ} (he : e ∈ m.eids) :
    InMesh m [(m.tria e).n1] ∧ InMesh m [(m.tria e).n2] ∧ InMesh m [(m.tria e).n3] ∧ InMesh m (corners m e) := by
  have h1 := corner_mem w hd he (i := (m.tria e).n1) (Or.inl rfl)
  have h2 := corner_mem w hd he (i := (m.tria e).n2) (Or.inr (Or.inl rfl))
  have h3 := corner_mem w hd he (i := (m.tria e).n3) (Or.inr (Or.inr rfl))
  refine ⟨inMesh_single h1, inMesh_single h2, inMesh_single h3, by simp [corners], fun i hi => ?_⟩
  simp only [corners, List.mem_cons, List.not_mem_nil, or_false] at hi
  rcases hi with rfl | rfl | rfl <;> assumption

theorem Spec.UnitPlate.triArea (h : UnitPlate a f m m') (w : WF m) (hd : ∀ e ∈ m.eids, (m.tria e).Distinct) {e : ℕ} (he : e ∈ m.eids) :
    Spec.triArea m' e = a ^ 2 * Spec.triArea m e := by
  obtain ⟨i1, i2, i3, _⟩ := tnodes_in w hd he
  obtain ⟨h1, h2, h3⟩ := h.nodes he
  unfold Spec.triArea
  rw [h1, h2, h3, h.sarea3 i1 i2 i3, abs_mul, abs_of_nonneg (pow_two_nonneg a)]

theorem Spec.UnitPlate.cell (h : UnitPlate a f m m') (ha : a ≠ 0) (w : WF m) (hd : ∀ e ∈ m.eids, (m.tria e).Distinct) {e : ℕ} (he : e ∈ m.eids) (z : ℕ → ℝ) (r : Fin 2) :
    cellStrain m' e (inLength a z) r = cellStrain m e z r := by
  obtain ⟨i1, i2, i3, ic⟩ := tnodes_in w hd he
  unfold cellStrain
  congr 1
  · unfold cellGamma
    rw [h.triArea w hd he, h.tpoly he, h.tri e he, ← mul_div_mul_left _ (Spec.triArea m e) (pow_ne_zero 2 ha), ← List.sum_map_mul_left]
    congr 2
    refine List.map_congr_left fun s hs => ?_
    have hs' : InMesh m s.1 ∧ InMesh m s.2 := by
      simp only [Spec.tpoly, sides, List.rotate_cons_succ, List.rotate_zero, List.cons_append, List.nil_append, List.zip_cons_cons, List.zip_nil_right, List.mem_cons,
        List.not_mem_nil, or_false] at hs
      rcases hs with rfl | rfl | rfl
      exacts [⟨i1, i2⟩, ⟨i2, i3⟩, ⟨i3, i1⟩]
    rw [h.sarea3 ic hs'.1 hs'.2, h.dsg ha z ic hs'.1 hs'.2, abs_mul, abs_of_nonneg (pow_two_nonneg a), mul_assoc]
  · congr 1
    unfold rotSum
    rw [h.tri e he]
    congr 1
    refine List.map_congr_left fun i _ => ?_
    have := scaled_disp (m := m) a 1 z i (r := 3 + r.val) (by omega)
    rw [if_neg (by omega), one_mul] at this
    rw [← this]
    unfold disp
    rw [h.nids]; rfl

theorem Spec.UnitPlate.whole (h : UnitPlate a f m m') (ha : a ≠ 0) (w : WF m) (hd : ∀ e ∈ m.eids, (m.tria e).Distinct) {e : ℕ} (he : e ∈ m.eids) (z : ℕ → ℝ) :
    wholeGamma m' e (inLength a z) = wholeGamma m e z := by
  obtain ⟨i1, i2, i3, _⟩ := tnodes_in w hd he
  obtain ⟨h1, h2, h3⟩ := h.nodes he
  unfold wholeGamma
  dsimp only
  rw [h.tpoly he, h1, h2, h3, h.dsg ha z i1 i2 i3, h.dsg ha z i2 i1 i3]
  unfold Spec.tpoly
  rw [h.sarea3 i1 i2 i3]
  have hiff : 0 < a ^ 2 * Spec.sarea m [[(m.tria e).n1], [(m.tria e).n2], [(m.tria e).n3]] ↔ 0 < Spec.sarea m [[(m.tria e).n1], [(m.tria e).n2], [(m.tria e).n3]] :=
    mul_pos_iff_of_pos_left (by positivity)
  simp only [hiff]

theorem relaid_cavg {R : Lam → Lam → Prop} (h : LamRel R id id m m') (htri : ∀ e ∈ m.eids, corners m' e = corners m e) (w : WF m)
    (hd : ∀ e ∈ m.eids, (m.tria e).Distinct) (pn : Bool) {e : ℕ} (he : e ∈ m.eids) {c : ℝ} {sel sel' : Lam → ℝ} (hs : ∀ p p', R p p' → sel' p' = c * sel p) : Spec.cavg m' pn e sel' = c * Spec.cavg m pn e sel := by
  obtain ⟨_, _, _, ic⟩ := tnodes_in w hd he
  unfold Spec.cavg
  cases pn with
  | true =>
    simp only [if_true]
    rw [htri e he]
    exact mean_scaled fun i hi => ofProp_scaled hs (h.nprop i (ic.2 i hi))
  | false => exact ofProp_scaled hs (h.tprop e he)

theorem Spec.UnitPlate.dist2 (h : UnitPlate a f m m') (ha : 0 < a) {i j : ℕ} (hi : i ∈ m.nids) (hj : j ∈ m.nids) : Spec.dist2 m' i j = a * Spec.dist2 m i j := by
  unfold Spec.dist2
  rw [h.hx i hi, h.hx j hj, h.hy i hi, h.hy j hj,
    show (a * nx m i - a * nx m j) ^ 2 + (a * ny m i - a * ny m j) ^ 2 = a ^ 2 * ((nx m i - nx m j) ^ 2 + (ny m i - ny m j) ^ 2) by ring,
    Real.sqrt_mul (by positivity), Real.sqrt_sq ha.le]

theorem Spec.UnitPlate.charLen (h : UnitPlate a f m m') (ha : 0 < a) (w : WF m) (hd : ∀ e ∈ m.eids, (m.tria e).Distinct) (fa : Bool) {e : ℕ} (he : e ∈ m.eids) :
    Spec.charLen m' fa e = a * Spec.charLen m fa e := by
  obtain ⟨i1, i2, i3, _⟩ := tnodes_in w hd he
  obtain ⟨h1, h2, h3⟩ := h.nodes he
  unfold Spec.charLen
  cases fa with
  | true =>
    simp only [if_true]
    rw [h.triArea w hd he, Real.sqrt_mul (by positivity), Real.sqrt_sq ha.le]
  | false =>
    simp only [Bool.false_eq_true, if_false]
    have m1 := i1.2 _ (List.mem_singleton.2 rfl)
    have m2 := i2.2 _ (List.mem_singleton.2 rfl)
    have m3 := i3.2 _ (List.mem_singleton.2 rfl)
    rw [h1, h2, h3, h.dist2 ha m1 m2, h.dist2 ha m2 m3, h.dist2 ha m3 m1, mul_max_of_nonneg _ _ ha.le, mul_max_of_nonneg _ _ ha.le]

theorem Spec.UnitPlate.shearMod (h : UnitPlate a f m m') (ha : 0 < a) (w : WF m) (hd : ∀ e ∈ m.eids, (m.tria e).Distinct) (pn : Bool) (al : ℝ) (fa : Bool)
    {e : ℕ} (he : e ∈ m.eids) (r : Fin 2) : Spec.shearMod m' pn al fa e r = f / a * Spec.shearMod m pn al fa e r := by
  unfold Spec.shearMod
  dsimp only
  rw [relaid_cavg h.toLamRel h.tri w hd pn he (c := a) (sel := fun l => l.h) (sel' := fun l => l.h) (fun p p' hh => hh.h), h.charLen ha w hd fa he,
    relaid_cavg h.toLamRel h.tri w hd pn he (c := 1) (sel := fun l => l.k23) (sel' := fun l => l.k23) (fun p p' hh => by rw [hh.k23, one_mul]),
    relaid_cavg h.toLamRel h.tri w hd pn he (c := 1) (sel := fun l => l.k13) (sel' := fun l => l.k13) (fun p p' hh => by rw [hh.k13, one_mul]),
    relaid_cavg h.toLamRel h.tri w hd pn he (c := f / a) (sel := fun l => l.E 0 0) (sel' := fun l => l.E 0 0) (fun p p' hh => hh.E 0 0),
    relaid_cavg h.toLamRel h.tri w hd pn he (c := f / a) (sel := fun l => l.E 1 1) (sel' := fun l => l.E 1 1) (fun p p' hh => hh.E 1 1),
    show (a * Spec.cavg m pn e fun l => l.h) ^ 2 = a ^ 2 * (Spec.cavg m pn e fun l => l.h) ^ 2 by ring,
    show a ^ 2 * (Spec.cavg m pn e fun l => l.h) ^ 2 + al * (a * Spec.charLen m fa e) ^ 2 =
      a ^ 2 * ((Spec.cavg m pn e fun l => l.h) ^ 2 + al * Spec.charLen m fa e ^ 2) by ring, mul_div_mul_left _ _ (pow_ne_zero 2 ha.ne')]
  split_ifs <;> ring

/-- the transverse shear energy is a force times a length -/
theorem Spec.UnitPlate.shearEnergy (h : UnitPlate a f m m') (ha : 0 < a) (w : WF m) (hd : ∀ e ∈ m.eids, (m.tria e).Distinct) (pn : Bool) (al : ℝ) (fa : Bool)
    {g g' : ℕ → (ℕ → ℝ) → Fin 2 → ℝ} (hgg : ∀ e ∈ m.eids, ∀ z r, g' e (inLength a z) r = g e z r) (v u : ℕ → ℝ) :
    Spec.shearEnergy m' pn al fa g' (inLength a v) (inLength a u) = f * a * Spec.shearEnergy m pn al fa g v u := by
  unfold Spec.shearEnergy
  rw [h.eids, ← List.sum_map_mul_left]
  congr 1
  refine List.map_congr_left fun e he => ?_
  rw [h.triArea w hd he, hgg e he, hgg e he, hgg e he, hgg e he, h.shearMod ha w hd pn al fa he, h.shearMod ha w hd pn al fa he]
  have := ha.ne'
  field_simp

end

end Meshless
