import Verif.Spec.Nearby
import Verif.Spec.Geometric
import Verif.Lemmas.Units
import Verif.Lemmas.TurnKG
import Verif.Lemmas.ConsistShear
import Mathlib.Topology.Algebra.Monoid

/-! Continuity of the energies in coordinates, laminates and displacements. -/

set_option autoImplicit false

namespace Meshless
open Spec Filter Topology

variable {ι : Type} {l : Filter ι}

theorem tendsto_mapSum {α : Type} {L : List α} {f : ι → α → ℝ} {g : α → ℝ} (h : ∀ a ∈ L, Tendsto (fun n => f n a) l (𝓝 (g a))) :
    Tendsto (fun n => (L.map (f n)).sum) l (𝓝 (L.map g).sum) := by
  induction L with
  | nil => simpa using tendsto_const_nhds
  | cons a L ih =>
    simp only [List.map_cons, List.sum_cons]
    exact (h a (by simp)).add (ih fun b hb => h b (by simp [hb]))

theorem tendsto_mean {A : List ℕ} {F : ι → ℕ → ℝ} {f : ℕ → ℝ} (h : ∀ i ∈ A, Tendsto (fun n => F n i) l (𝓝 (f i))) :
    Tendsto (fun n => Spec.mean (F n) A) l (𝓝 (Spec.mean f A)) := (tendsto_mapSum h).div_const _

theorem tendsto_ofProp {os : ι → Option Lam} {o : Option Lam} (h : PropTends l os o) {sel : Lam → ℝ}
    (hs : ∀ ps p, LamTends l ps p → Tendsto (fun n => sel (ps n)) l (𝓝 (sel p))) : Tendsto (fun n => ofProp sel (os n)) l (𝓝 (ofProp sel o)) := by
  rcases h with ⟨rfl, h⟩ | ⟨ps, p, rfl, h, ht⟩
  · simp only [h, ofProp]; exact tendsto_const_nhds
  · simp only [h, ofProp]; exact hs _ _ ht

theorem Spec.LamTends.abd {ps : ι → Lam} {p : Lam} (h : LamTends l ps p) (i j : Fin 6) : Tendsto (fun n => Spec.abd (ps n) i j) l (𝓝 (Spec.abd p i j)) := by
  unfold Spec.abd sym3
  dsimp only
  split_ifs
  exacts [h.A _ _, h.A _ _, h.D _ _, h.D _ _, h.B _ _, h.B _ _]

section
variable {m : Mesh} {g : ι → Mesh} (hx : ∀ i ∈ m.nids, Tendsto (fun n => nx (g n) i) l (𝓝 (nx m i))) (hy : ∀ i ∈ m.nids, Tendsto (fun n => ny (g n) i) l (𝓝 (ny m i)))
include hx hy

theorem tendsto_sarea {P : List (List ℕ)} (hP : ∀ A ∈ P, InMesh m A) : Tendsto (fun n => sarea (g n) P) l (𝓝 (sarea m P)) := by
  unfold sarea
  refine (tendsto_mapSum fun s hs => ?_).div_const 2
  have h1 := hP _ (List.of_mem_zip hs).1
  have h2 := hP _ (List.mem_rotate.1 (List.of_mem_zip hs).2)
  exact ((tendsto_mean fun i hi => hx i (h1.2 i hi)).mul (tendsto_mean fun i hi => hy i (h2.2 i hi))).sub
    ((tendsto_mean fun i hi => hx i (h2.2 i hi)).mul (tendsto_mean fun i hi => hy i (h1.2 i hi)))

theorem tendsto_grad {P : List (List ℕ)} (hP : ∀ A ∈ P, InMesh m A) (h0 : sarea m P ≠ 0) {F : ι → ℕ → ℝ} {f : ℕ → ℝ}
    (hf : ∀ i ∈ m.nids, Tendsto (fun n => F n i) l (𝓝 (f i))) :
    Tendsto (fun n => gradX (g n) P (F n)) l (𝓝 (gradX m P f)) ∧ Tendsto (fun n => gradY (g n) P (F n)) l (𝓝 (gradY m P f)) := by
  have ha := tendsto_sarea hx hy hP
  constructor
  · refine Tendsto.div (tendsto_mapSum fun s hs => ?_) ha h0
    have h1 := hP _ (List.of_mem_zip hs).1
    have h2 := hP _ (List.mem_rotate.1 (List.of_mem_zip hs).2)
    exact (((tendsto_mean fun i hi => hf i (h1.2 i hi)).add (tendsto_mean fun i hi => hf i (h2.2 i hi))).div_const 2).mul
      ((tendsto_mean fun i hi => hy i (h2.2 i hi)).sub (tendsto_mean fun i hi => hy i (h1.2 i hi)))
  · refine Tendsto.div (tendsto_mapSum fun s hs => ?_).neg ha h0
    have h1 := hP _ (List.of_mem_zip hs).1
    have h2 := hP _ (List.mem_rotate.1 (List.of_mem_zip hs).2)
    exact (((tendsto_mean fun i hi => hf i (h1.2 i hi)).add (tendsto_mean fun i hi => hf i (h2.2 i hi))).div_const 2).mul
      ((tendsto_mean fun i hi => hx i (h2.2 i hi)).sub (tendsto_mean fun i hi => hx i (h1.2 i hi)))

end

/-! ### the plates of the family on the edges of the limit -/

section
variable {ms : ι → Mesh} {m : Mesh} {pn : Bool} (h : PlateTends l pn ms m) (w : WF m) (hp : Proper m) (hg : Planar m)

theorem Spec.PlateTends.same (h : PlateTends l pn ms m) (n : ι) : SamePlate id id 1 0 0 (glued id id m (ms n)) (ms n) :=
  ⟨by rw [h.nids n]; simp [glued], by rw [h.eids n]; simp [glued], fun e he => by rw [id, h.tri n e he]; simp [glued, corners],
    fun _ _ => rfl, fun i _ => by simp [nx, glued], fun i _ => by simp [ny, glued], fun _ _ => rfl⟩

theorem Spec.PlateTends.gx (h : PlateTends l pn ms m) : ∀ i ∈ m.nids, Tendsto (fun n => nx (glued id id m (ms n)) i) l (𝓝 (nx m i)) := h.hx
theorem Spec.PlateTends.gy (h : PlateTends l pn ms m) : ∀ i ∈ m.nids, Tendsto (fun n => ny (glued id id m (ms n)) i) l (𝓝 (ny m i)) := h.hy

include w hp in
theorem tpoly_in {e : ℕ} (he : e ∈ m.eids) : ∀ A ∈ [[(m.tria e).n1], [(m.tria e).n2], [(m.tria e).n3]], InMesh m A := by
  obtain ⟨h1, h2, h3, _⟩ := tnodes_in w hp.distinct he
  intro A hA
  simp only [List.mem_cons, List.not_mem_nil, or_false] at hA
  rcases hA with rfl | rfl | rfl <;> assumption

include w hp hg in
/-- near the limit the plates are valid -/
theorem Spec.PlateTends.planar (h : PlateTends l pn ms m) : ∀ᶠ n in l, Planar (glued id id m (ms n)) := by
  have h1 : ∀ᶠ n in l, ∀ e ∈ m.eids.toFinset, sarea (glued id id m (ms n)) [[(m.tria e).n1], [(m.tria e).n2], [(m.tria e).n3]] ≠ 0 := by
    rw [Filter.eventually_all_finset]
    intro e he
    rw [List.mem_toFinset] at he
    exact (tendsto_sarea h.gx h.gy (tpoly_in w hp he)).eventually_ne (hg.nondeg e he)
  have h2 : ∀ᶠ n in l, ∀ k ∈ m.ekeys.toFinset, ∀ t1 t2, (m.edge k).trias = [t1, t2] →
      sarea (glued id id m (ms n)) [[k.1], [k.2], corners m t1] * sarea (glued id id m (ms n)) [[k.1], [k.2], corners m t2] < 0 := by
    rw [Filter.eventually_all_finset]
    intro k hk
    rw [List.mem_toFinset] at hk
    rcases edge_shape w hp hk with ⟨t, o, htr, _⟩ | ⟨t1, t2, o1, o2, htr, hs1, hs2, _, _, _, _⟩
    · exact Filter.Eventually.of_forall fun n t1 t2 ht => by rw [htr] at ht; simp at ht
    · have hin : ∀ t, t ∈ m.eids → ∀ A ∈ [[k.1], [k.2], corners m t], InMesh m A := fun t ht A hA => by
        simp only [List.mem_cons, List.not_mem_nil, or_false] at hA
        rcases hA with rfl | rfl | rfl
        exacts [inMesh_single hs1.ina, inMesh_single hs1.inb, inMesh_corners w hp ht]
      have := ((tendsto_sarea h.gx h.gy (hin t1 hs1.mem)).mul (tendsto_sarea h.gx h.gy (hin t2 hs2.mem))).eventually (gt_mem_nhds (hg.opposite k hk t1 t2 htr))
      filter_upwards [this] with n hn a b hab
      rw [htr] at hab
      simp only [List.cons.injEq, and_true] at hab
      obtain ⟨rfl, rfl⟩ := hab
      exact hn
  filter_upwards [h1, h2] with n a b
  refine ⟨fun i hi => ?_, fun i hi j hj => ?_, fun e he => a e (List.mem_toFinset.2 he), fun k hk => b k (List.mem_toFinset.2 hk)⟩
  · exact h.basic n i (by rw [h.nids n]; exact hi)
  · exact h.flat n i (by rw [h.nids n]; exact hi) j (by rw [h.nids n]; exact hj)

theorem tendsto_disp {V : ι → ℕ → ℝ} {v : ℕ → ℝ} (hV : ∀ i, Tendsto (fun n => V n i) l (𝓝 (v i))) (r i : ℕ) :
    Tendsto (fun n => disp (glued id id m (ms n)) (V n) r i) l (𝓝 (disp m v r i)) := hV _

include w hp hg in
theorem Spec.PlateTends.eps (h : PlateTends l pn ms m) {V : ι → ℕ → ℝ} {v : ℕ → ℝ} (hV : ∀ i, Tendsto (fun n => V n i) l (𝓝 (v i))) {k : Key} (hk : k ∈ m.ekeys) (p : Fin 6) :
    Tendsto (fun n => Spec.eps (glued id id m (ms n)) k (V n) p) l (𝓝 (Spec.eps m k v p)) := by
  have H := fun r => tendsto_grad h.gx h.gy (P := dom m k) (fun A hA => dom_inMesh w hp hk hA) (sarea_dom_ne w hp hg hk) (F := fun n => disp (glued id id m (ms n)) (V n) r)
    (f := disp m v r) fun i _ => tendsto_disp hV r i
  unfold Spec.eps
  fin_cases p
  exacts [(H 0).1, (H 1).2, (H 0).2.add (H 1).1, (H 3).1, (H 4).2, (H 3).2.add (H 4).1]

include w hp in
theorem Spec.PlateTends.triArea (h : PlateTends l pn ms m) {e : ℕ} (he : e ∈ m.eids) : Tendsto (fun n => Spec.triArea (glued id id m (ms n)) e) l (𝓝 (Spec.triArea m e)) :=
  (tendsto_sarea h.gx h.gy (tpoly_in w hp he)).abs

include w hp hg in
theorem Spec.PlateTends.avg (h : PlateTends l pn ms m) {k : Key} (hk : k ∈ m.ekeys) {sel : Lam → ℝ}
    (hs : ∀ ps p, LamTends l ps p → Tendsto (fun n => sel (ps n)) l (𝓝 (sel p))) :
    Tendsto (fun n => Spec.avg (glued id id m (ms n)) pn k sel) l (𝓝 (Spec.avg m pn k sel)) := by
  cases pn with
  | true =>
    simp only [Spec.avg, if_true]
    exact (tendsto_mapSum fun A hA => tendsto_mean fun i hi => tendsto_ofProp (h.nprop rfl i ((dom_inMesh w hp hk hA).2 i hi)) hs).div_const _
  | false =>
    simp only [Spec.avg, Bool.false_eq_true, if_false]
    refine Tendsto.div (tendsto_mapSum fun t ht => (h.triArea w hp (trias_mem w hp hk ht)).mul (tendsto_ofProp (h.tprop rfl t (trias_mem w hp hk ht)) hs))
      (tendsto_mapSum fun t ht => h.triArea w hp (trias_mem w hp hk ht)) ?_
    have hpos : ∀ t ∈ (m.edge k).trias, 0 < Spec.triArea m t := fun t ht => abs_pos.2 (hg.nondeg t (trias_mem w hp hk ht))
    rcases edge_shape w hp hk with ⟨t, o, htr, _⟩ | ⟨t1, t2, o1, o2, htr, _⟩
    · have := hpos t (by rw [htr]; simp)
      rw [htr]; simpa using this.ne'
    · have h1 := hpos t1 (by rw [htr]; simp)
      have h2 := hpos t2 (by rw [htr]; simp)
      rw [htr]; simp; linarith

include w hp hg in
theorem Spec.PlateTends.energy (h : PlateTends l pn ms m) (wn : ∀ n, WF (ms n)) (v u : ℕ → ℝ) :
    Tendsto (fun n => Spec.energy (ms n) pn v u) l (𝓝 (Spec.energy m pn v u)) := by
  have h1 : Tendsto (fun n => Spec.energy (glued id id m (ms n)) pn v u) l (𝓝 (Spec.energy m pn v u)) := by
    refine tendsto_mapSum fun k hk => ?_
    refine (tendsto_sarea h.gx h.gy fun A hA => dom_inMesh w hp hk hA).abs.mul (tendsto_finsetSum _ fun p _ => tendsto_finsetSum _ fun q _ => ?_)
    exact ((h.eps w hp hg (V := fun _ => v) (fun _ => tendsto_const_nhds) hk p).mul (h.avg w hp hg hk fun ps lam ht => ht.abd p q)).mul (h.eps w hp hg (V := fun _ => u) (fun _ => tendsto_const_nhds) hk q)
  refine h1.congr' ?_
  filter_upwards [h.planar w hp hg] with n hn
  exact ((h.same n).energy (glued_wf w) (wn n) (glued_proper hp) hn one_ne_zero pn (fun r hr i hi => by unfold disp; rw [h.nids n]; rfl)
    (fun r hr i hi => by unfold disp; rw [h.nids n]; rfl)).symm

include w hp hg in
theorem Spec.PlateTends.geometric (h : PlateTends l pn ms m) (wn : ∀ n, WF (ms n)) {D : ι → ℕ → ℝ} {d : ℕ → ℝ} (hD : ∀ i, Tendsto (fun n => D n i) l (𝓝 (d i)))
    (v u : ℕ → ℝ) : Tendsto (fun n => Spec.geometric (ms n) pn (D n) v u) l (𝓝 (Spec.geometric m pn d v u)) := by
  have h1 : Tendsto (fun n => Spec.geometric (glued id id m (ms n)) pn (D n) v u) l (𝓝 (Spec.geometric m pn d v u)) := by
    refine tendsto_mapSum fun k hk => ?_
    have hN : ∀ i, Tendsto (fun n => membrane (glued id id m (ms n)) pn k (D n) i) l (𝓝 (membrane m pn k d i)) := fun i =>
      tendsto_finsetSum _ fun j _ => ((h.avg w hp hg hk fun ps p ht => ht.A _ _).mul (h.eps w hp hg hD hk _)).add
        ((h.avg w hp hg hk fun ps p ht => ht.B _ _).mul (h.eps w hp hg hD hk _))
    have H := fun z : ℕ → ℝ => tendsto_grad h.gx h.gy (P := dom m k) (fun A hA => dom_inMesh w hp hk hA) (sarea_dom_ne w hp hg hk) (F := fun n => disp (glued id id m (ms n)) z 2)
      (f := disp m z 2) fun i _ => tendsto_const_nhds
    exact (tendsto_sarea h.gx h.gy fun A hA => dom_inMesh w hp hk hA).abs.mul
      ((((((H v).1.mul (hN 0)).mul (H u).1).add (((H v).1.mul (hN 2)).mul (H u).2)).add (((H v).2.mul (hN 2)).mul (H u).1)).add (((H v).2.mul (hN 1)).mul (H u).2))
  refine h1.congr' ?_
  filter_upwards [h.planar w hp hg] with n hn
  rw [(h.same n).geometric (glued_wf w) (wn n) (glued_proper hp) hn one_ne_zero pn (d' := D n) (d := D n) (v := v) (v' := v) (u := u) (u' := u)
    (fun r hr i hi => by unfold disp; rw [h.nids n]; rfl) (fun i hi => by unfold disp; rw [h.nids n]; rfl) (fun i hi => by unfold disp; rw [h.nids n]; rfl), div_one]

/-! ### shear -/

theorem Spec.PlateTends.nodes (h : PlateTends l pn ms m) (n : ι) {e : ℕ} (he : e ∈ m.eids) :
    ((ms n).tria e).n1 = (m.tria e).n1 ∧ ((ms n).tria e).n2 = (m.tria e).n2 ∧ ((ms n).tria e).n3 = (m.tria e).n3 := by
  have := h.tri n e he
  simpa [corners] using this

theorem Spec.PlateTends.disp (h : PlateTends l pn ms m) (n : ι) : Spec.disp (ms n) = Spec.disp m := by
  funext v r i; unfold Spec.disp; rw [h.nids n]

theorem tendsto_gap (h : PlateTends l pn ms m) (z : ℕ → ℝ) {P Q : List ℕ} (hP : InMesh m P) (hQ : InMesh m Q) : Tendsto (fun n => gap (ms n) z P Q) l (𝓝 (gap m z P Q)) := by
  unfold gap
  simp only [h.disp]
  exact (tendsto_const_nhds.add (tendsto_const_nhds.mul ((tendsto_mean fun i hi => h.hx i (hQ.2 i hi)).sub (tendsto_mean fun i hi => h.hx i (hP.2 i hi))))).add
    (tendsto_const_nhds.mul ((tendsto_mean fun i hi => h.hy i (hQ.2 i hi)).sub (tendsto_mean fun i hi => h.hy i (hP.2 i hi))))

theorem in3 {P Q R : List ℕ} (hP : InMesh m P) (hQ : InMesh m Q) (hR : InMesh m R) : ∀ A ∈ [P, Q, R], InMesh m A := by
  intro A hA
  simp only [List.mem_cons, List.not_mem_nil, or_false] at hA
  rcases hA with rfl | rfl | rfl <;> assumption

theorem tendsto_dsg (h : PlateTends l pn ms m) (z : ℕ → ℝ) {P Q R : List ℕ} (hP : InMesh m P) (hQ : InMesh m Q) (hR : InMesh m R) (h0 : sarea m [P, Q, R] ≠ 0) (r : Fin 2) :
    Tendsto (fun n => dsg (ms n) z P Q R r) l (𝓝 (dsg m z P Q R r)) := by
  have hx : ∀ {A}, InMesh m A → Tendsto (fun n => Spec.mean (nx (ms n)) A) l (𝓝 (Spec.mean (nx m) A)) := fun hA => tendsto_mean fun i hi => h.hx i (hA.2 i hi)
  have hy : ∀ {A}, InMesh m A → Tendsto (fun n => Spec.mean (ny (ms n)) A) l (𝓝 (Spec.mean (ny m) A)) := fun hA => tendsto_mean fun i hi => h.hy i (hA.2 i hi)
  have ha := (tendsto_sarea h.hx h.hy (in3 hP hQ hR)).const_mul 2
  have h2 : 2 * sarea m [P, Q, R] ≠ 0 := mul_ne_zero two_ne_zero h0
  have g1 := tendsto_gap h z hP hQ
  have g2 := tendsto_gap h z hP hR
  unfold dsg
  fin_cases r
  · exact ((g1.mul ((hy hR).sub (hy hP))).sub (g2.mul ((hy hQ).sub (hy hP)))).div ha h2
  · exact ((g2.mul ((hx hQ).sub (hx hP))).sub (g1.mul ((hx hR).sub (hx hP)))).div ha h2

include w hp in
theorem Spec.PlateTends.area (h : PlateTends l pn ms m) {e : ℕ} (he : e ∈ m.eids) : Tendsto (fun n => Spec.triArea (ms n) e) l (𝓝 (Spec.triArea m e)) := by
  refine (h.triArea w hp he).congr fun n => ?_
  obtain ⟨h1, h2, h3⟩ := h.nodes n he
  unfold Spec.triArea
  rw [h1, h2, h3]; rfl

include w hp hg in
theorem tendsto_cell (h : PlateTends l pn ms m) {e : ℕ} (he : e ∈ m.eids) (z : ℕ → ℝ) (r : Fin 2) : Tendsto (fun n => cellStrain (ms n) e z r) l (𝓝 (cellStrain m e z r)) := by
  have hin := (tnodes_in w hp.distinct he).2.2.2
  have hA : 0 < Spec.triArea m e := abs_pos.2 (hg.nondeg e he)
  have ht : ∀ n, tpoly (ms n) e = tpoly m e := fun n => by obtain ⟨h1, h2, h3⟩ := h.nodes n he; unfold tpoly; rw [h1, h2, h3]
  unfold cellStrain cellGamma
  refine Tendsto.add (Tendsto.div ?_ (h.area w hp he) hA.ne') ?_
  · simp only [ht, h.tri _ e he]
    refine tendsto_mapSum fun t hts => ?_
    obtain ⟨ha, i, j, hi, hj, rfl⟩ := sub_area t hts
    have hi' := inMesh_single (corner_mem w hp.distinct he hi)
    have hj' := inMesh_single (corner_mem w hp.distinct he hj)
    refine (tendsto_sarea h.hx h.hy (in3 hin hi' hj')).abs.mul (tendsto_dsg h z hin hi' hj' ?_ r)
    rw [← abs_pos, ha]; positivity
  · unfold rotSum
    simp only [h.tri _ e he, h.disp]
    exact tendsto_const_nhds

include w hp hg in
theorem tendsto_whole (h : PlateTends l pn ms m) {e : ℕ} (he : e ∈ m.eids) (z : ℕ → ℝ) (r : Fin 2) : Tendsto (fun n => wholeGamma (ms n) e z r) l (𝓝 (wholeGamma m e z r)) := by
  obtain ⟨i1, i2, i3, _⟩ := tnodes_in w hp.distinct he
  have h0 := hg.nondeg e he
  have ht : ∀ n, tpoly (ms n) e = tpoly m e := fun n => by obtain ⟨h1, h2, h3⟩ := h.nodes n he; unfold tpoly; rw [h1, h2, h3]
  have hs := tendsto_sarea h.hx h.hy (P := tpoly m e) (tpoly_in w hp he)
  unfold wholeGamma
  rcases lt_or_gt_of_ne h0 with h1 | h1
  · have h1' : sarea m (tpoly m e) < 0 := h1
    rw [if_neg (not_lt.2 h1'.le)]
    have sw : sarea m [[(m.tria e).n2], [(m.tria e).n1], [(m.tria e).n3]] = -sarea m [[(m.tria e).n1], [(m.tria e).n2], [(m.tria e).n3]] := by rw [sarea3, sarea3]; ring
    refine (tendsto_dsg h z i2 i1 i3 (by rw [sw]; exact neg_ne_zero.2 h0) r).congr' ?_
    filter_upwards [hs.eventually (gt_mem_nhds h1')] with n hn
    obtain ⟨a, b, c⟩ := h.nodes n he
    rw [ht n, if_neg (not_lt.2 (le_of_lt hn)), a, b, c]
  · have h1' : 0 < sarea m (tpoly m e) := h1
    rw [if_pos h1']
    refine (tendsto_dsg h z i1 i2 i3 h0 r).congr' ?_
    filter_upwards [hs.eventually (lt_mem_nhds h1')] with n hn
    obtain ⟨a, b, c⟩ := h.nodes n he
    rw [ht n, if_pos hn, a, b, c]

include w hp in
theorem tendsto_cavg (h : PlateTends l pn ms m) {e : ℕ} (he : e ∈ m.eids) {sel : Lam → ℝ}
    (hs : ∀ ps p, LamTends l ps p → Tendsto (fun n => sel (ps n)) l (𝓝 (sel p))) : Tendsto (fun n => cavg (ms n) pn e sel) l (𝓝 (cavg m pn e sel)) := by
  unfold cavg
  cases pn with
  | true =>
    simp only [if_true, h.tri _ e he]
    exact tendsto_mean fun i hi => tendsto_ofProp (h.nprop rfl i ((tnodes_in w hp.distinct he).2.2.2.2 i hi)) hs
  | false => simpa using tendsto_ofProp (h.tprop rfl e he) hs

include w hp in
theorem tendsto_charLen (h : PlateTends l pn ms m) (fa : Bool) {e : ℕ} (he : e ∈ m.eids) : Tendsto (fun n => charLen (ms n) fa e) l (𝓝 (charLen m fa e)) := by
  obtain ⟨i1, i2, i3, _⟩ := tnodes_in w hp.distinct he
  have d : ∀ {i j}, InMesh m [i] → InMesh m [j] → Tendsto (fun n => dist2 (ms n) i j) l (𝓝 (dist2 m i j)) := fun {i j} hi hj => by
    have hi := hi.2 i (by simp)
    have hj := hj.2 j (by simp)
    exact ((((h.hx i hi).sub (h.hx j hj)).pow 2).add (((h.hy i hi).sub (h.hy j hj)).pow 2)).sqrt
  unfold charLen
  cases fa with
  | true => simpa using (h.area w hp he).sqrt
  | false =>
    simp only [Bool.false_eq_true, if_false]
    have : ∀ n, ((ms n).tria e).n1 = (m.tria e).n1 ∧ ((ms n).tria e).n2 = (m.tria e).n2 ∧ ((ms n).tria e).n3 = (m.tria e).n3 := fun n => h.nodes n he
    simp only [(this _).1, (this _).2.1, (this _).2.2]
    exact ((d i1 i2).max (d i2 i3)).max (d i3 i1)

include w hp in
theorem tendsto_shearMod (h : PlateTends l pn ms m) (fa : Bool) {e : ℕ} (he : e ∈ m.eids) (hh : cavg m pn e (fun p => p.h) ≠ 0) {als : ι → ℝ} {al : ℝ}
    (hal : Tendsto als l (𝓝 al)) (ha : 0 ≤ al) (r : Fin 2) : Tendsto (fun n => shearMod (ms n) pn (als n) fa e r) l (𝓝 (shearMod m pn al fa e r)) := by
  have h1 := (tendsto_cavg w hp h he (sel := fun p => p.h) fun ps p ht => ht.h).pow 2
  have h2 := hal.mul ((tendsto_charLen w hp h fa he).pow 2)
  unfold shearMod
  dsimp only
  refine (h1.div (h1.add h2) ?_).mul ?_
  · have := pow_two_pos_of_ne_zero hh
    have := mul_nonneg ha (pow_two_nonneg (charLen m fa e))
    exact ne_of_gt (by linarith)
  · split_ifs
    · exact (tendsto_cavg w hp h he (sel := fun p => p.k23) fun ps p ht => ht.k23).mul (tendsto_cavg w hp h he (sel := fun p => p.E 0 0) fun ps p ht => ht.E 0 0)
    · exact (tendsto_cavg w hp h he (sel := fun p => p.k13) fun ps p ht => ht.k13).mul (tendsto_cavg w hp h he (sel := fun p => p.E 1 1) fun ps p ht => ht.E 1 1)

include w hp in
theorem tendsto_shearEnergy (h : PlateTends l pn ms m) (fa : Bool) (hh : Thick m pn) {als : ι → ℝ} {al : ℝ} (hal : Tendsto als l (𝓝 al)) (ha : 0 ≤ al)
    {gam : Mesh → ℕ → (ℕ → ℝ) → Fin 2 → ℝ} (hgam : ∀ e ∈ m.eids, ∀ z r, Tendsto (fun n => gam (ms n) e z r) l (𝓝 (gam m e z r))) (v u : ℕ → ℝ) :
    Tendsto (fun n => shearEnergy (ms n) pn (als n) fa (gam (ms n)) v u) l (𝓝 (shearEnergy m pn al fa (gam m) v u)) := by
  unfold shearEnergy
  simp only [h.eids]
  refine tendsto_mapSum fun e he => (h.area w hp he).mul ?_
  have hm := tendsto_shearMod w hp h fa he (hh e he) hal ha
  exact (((hgam e he v 0).mul (hm 0)).mul (hgam e he u 0)).add (((hgam e he v 1).mul (hm 1)).mul (hgam e he u 1))

end

end Meshless
