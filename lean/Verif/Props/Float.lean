import Verif.Lemmas.FloatFlow
import Verif.Props.Buckling

/-!
C105-C110: analyses in floating-point arithmetic. `R` is the rounding rule (Model/Float.lean) and `R.u` its unit roundoff; binary64 has
`R.u = 2^-53`. `R.run m ops` is the mesh a script leaves when everything is computed with rounding.
-/

set_option autoImplicit false

namespace Meshless
open Spec Finset

/-! ### C105: what is computed does not depend on rounding -/

/-- C105: a script leaves the same nodes, triangles, edges, properties and node numbers whatever the rounding -/
theorem C105_script (R : Rounding) (m0 : Mesh) (ops : List Op) :
    (R.run m0 ops).nids = (run m0 ops).nids ∧ (R.run m0 ops).node = (run m0 ops).node ∧ (R.run m0 ops).eids = (run m0 ops).eids ∧
    (R.run m0 ops).tria = (run m0 ops).tria ∧ (R.run m0 ops).ekeys = (run m0 ops).ekeys ∧
    ∀ k, ((R.run m0 ops).edge k).n1 = ((run m0 ops).edge k).n1 ∧ ((R.run m0 ops).edge k).n2 = ((run m0 ops).edge k).n2 ∧
      ((R.run m0 ops).edge k).trias = ((run m0 ops).edge k).trias := by
  have h := likeMesh_run R ops (LikeMesh.refl m0)
  exact ⟨h.nids, h.node, h.eids, h.tria, h.ekeys, fun k => ⟨(h.edge k).n1, (h.edge k).n2, (h.edge k).trias⟩⟩

/-- C105: `calc_k0` after any script raises the same exception, or returns a matrix of the same size -/
theorem C105_k0 (R : Rounding) (m0 : Mesh) (ops : List Op) (pn : Bool) : SameResult (calcK0 (run m0 ops) pn).2 (R.calcK0 (R.run m0 ops) pn).2 := by
  obtain ⟨h1, _, h3⟩ := Rounding.calcK0_like (R := Rounding.exact) (R' := R) (likeMesh_run R ops (LikeMesh.refl m0)) pn
  rw [Rounding.exact_calcK0] at h1 h3
  exact sameResult_of h1 h3

/-- C105: the same for `add_k0s`, for any two matrices of equal size -/
theorem C105_k0s (R : Rounding) (m0 : Mesh) (ops : List Op) (pn : Bool) (method : String) (al : ℝ) (fa : Bool) {K F : Mat} (hd : F.dim = K.dim) :
    (R.addK0s F (R.run m0 ops) pn method al fa).2 = (addK0s K (run m0 ops) pn method al fa).2 ∧
    (R.addK0s F (R.run m0 ops) pn method al fa).1.dim = (addK0s K (run m0 ops) pn method al fa).1.dim := by
  have := Rounding.addK0s_like (R := Rounding.exact) (R' := R) (likeMesh_run R ops (LikeMesh.refl m0)) pn method al fa hd
  rwa [Rounding.exact_addK0s] at this

/-- C105: the same for `calc_kG`, for any two displacement vectors of equal length -/
theorem C105_kG (R : Rounding) (m0 : Mesh) (ops : List Op) (pn : Bool) {d d' : List ℝ} (hl : d'.length = d.length) :
    SameResult (calcKG (run m0 ops) d pn) (R.calcKG (R.run m0 ops) d' pn) := by
  obtain ⟨h1, h2⟩ := Rounding.calcKG_like (R := Rounding.exact) (R' := R) (likeMesh_run R ops (LikeMesh.refl m0)) hl pn
  rw [Rounding.exact_calcKG] at h1 h2
  exact sameResult_of h1 h2

/-! ### C106: accuracy of k0 -/

section
variable {m0 : Mesh} (hr : Reachable m0) (ops : List Op) {pn : Bool} (hp : Proper (run m0 ops)) (hg : Planar (run m0 ops))

include hr hp hg in
/-- C106: the computed stiffness matrix differs from the exact one by at most a constant times the unit roundoff -/
theorem C106_k0 (hh : HasProps (run m0 ops) pn) (hne : (run m0 ops).nids ≠ []) : ∃ K, (calcK0 (run m0 ops) pn).2 = .ok K ∧
    ∃ C u0 : ℝ, 0 < u0 ∧ ∀ R : Rounding, R.u ≤ u0 → ∃ F, (R.calcK0 (R.run m0 ops) pn).2 = .ok F ∧ F.dim = K.dim ∧
      ∀ i < K.dim, ∀ j < K.dim, |F.get i j - K.get i j| ≤ C * R.u := by
  obtain ⟨_, K, F, h1, h2, h3, h4⟩ := calcK0_acc (fun R : Rounding => R) (hr.run ops).wf hp hg hh hne (fun R => likeMesh_run R ops (LikeMesh.refl m0))
  obtain ⟨C, u0, hu, hC⟩ := h4.uniform
  exact ⟨K, h1, C, u0, hu, fun R hR => ⟨F R, h2 R, h3 R, hC R hR⟩⟩

/-! ### C107: accuracy of kG -/

include hr hp hg in
/-- C107: the geometric stiffness matrix of a displacement vector known up to roundoff differs from the exact one by at most a constant times the
unit roundoff -/
theorem C107_kG {K0 : Mat} (h0 : (calcK0 (run m0 ops) pn).2 = .ok K0) {d : List ℝ} {G : Mat} (hG : calcKG (calcK0 (run m0 ops) pn).1 d pn = .ok G) (c : ℝ) :
    ∃ C u0 : ℝ, 0 < u0 ∧ ∀ R : Rounding, R.u ≤ u0 → ∀ d' : List ℝ, d'.length = d.length → (∀ i < d.length, |vec d' i - vec d i| ≤ c * R.u) →
      ∃ F, R.calcKG (R.calcK0 (R.run m0 ops) pn).1 d' pn = .ok F ∧ F.dim = G.dim ∧ ∀ i < G.dim, ∀ j < G.dim, |F.get i j - G.get i j| ≤ C * R.u := by
  obtain ⟨_, _, hh, hne⟩ := calcK0_ok (hr.run ops).wf h0
  let κ := {p : Rounding × List ℝ // p.2.length = d.length ∧ ∀ i < d.length, |vec p.2 i - vec d i| ≤ c * p.1.u}
  obtain ⟨hran, _⟩ := calcK0_acc (fun R : Rounding => R) (hr.run ops).wf hp hg hh hne (fun R => likeMesh_run R ops (LikeMesh.refl m0))
  have hD : AccD (fun p : κ => p.1.1) (fun p : κ => p.1.2) d := by
    refine ⟨fun p => p.2.1, fun n => ?_⟩
    by_cases hn : n < d.length
    · exact acc_of_le fun p => p.2.2 n hn
    · refine (Acc.const _).congr (Filter.Eventually.of_forall fun p => ?_)
      rw [List.getD_eq_default _ _ (by rw [p.2.1]; omega), List.getD_eq_default _ _ (by omega)]
  obtain ⟨F, f1, f2, f3⟩ := calcKG_acc (hran.comp fun p : κ => p.1.1) hD hG
  obtain ⟨C, u0, hu, hC⟩ := f3.uniform
  exact ⟨C, u0, hu, fun R hR d' hl hd => ⟨F ⟨(R, d'), hl, hd⟩, f1 ⟨(R, d'), hl, hd⟩, f2 _, hC ⟨(R, d'), hl, hd⟩ hR⟩⟩

/-! ### C108: accuracy of the shear terms -/

include hr hp hg in
/-- C108: `add_k0s` applied to a matrix known up to roundoff, all three methods: the result differs from the exact one by at most a constant times
the unit roundoff -/
theorem C108_k0s {K0 : Mat} (h0 : (calcK0 (run m0 ops) pn).2 = .ok K0) {method : String} (ht : ThickFor method (run m0 ops) pn) {al : ℝ} (hal : 0 ≤ al) {fa : Bool}
    {K K' : Mat} (hK : addK0s K (calcK0 (run m0 ops) pn).1 pn method al fa = (K', none)) (c : ℝ) :
    ∃ C u0 : ℝ, 0 < u0 ∧ ∀ R : Rounding, R.u ≤ u0 → ∀ F : Mat, F.dim = K.dim → (∀ i j, |F.get i j - K.get i j| ≤ c * R.u) →
      ∃ F', R.addK0s F (R.calcK0 (R.run m0 ops) pn).1 pn method al fa = (F', none) ∧ F'.dim = K'.dim ∧
        ∀ i < K'.dim, ∀ j < K'.dim, |F'.get i j - K'.get i j| ≤ C * R.u := by
  obtain ⟨hs, _, hh, hne⟩ := calcK0_ok (hr.run ops).wf h0
  let κ := {p : Rounding × Mat // p.2.dim = K.dim ∧ ∀ i j, |p.2.get i j - K.get i j| ≤ c * p.1.u}
  obtain ⟨hran, _⟩ := calcK0_acc (fun R : Rounding => R) (hr.run ops).wf hp hg hh hne (fun R => likeMesh_run R ops (LikeMesh.refl m0))
  have hF : AccMat (fun p : κ => p.1.1) (fun p : κ => p.1.2) K := ⟨Filter.Eventually.of_forall fun p => p.2.1, fun r s => acc_of_le fun p => p.2.2 r s⟩
  have hacc := addK0s_acc (hran.comp fun p : κ => p.1.1) hal fa method (hs.thickFor ht) hF (by rw [hK])
  rw [hK] at hacc
  obtain ⟨C, u0, hu, hC⟩ := hacc.uniform
  refine ⟨C, u0, hu, fun R hR F hd hF => ?_⟩
  have hl := Rounding.addK0s_like (R := Rounding.exact) (R' := R) (hran.like R) pn method al fa hd
  rw [Rounding.exact_addK0s, hK] at hl
  exact ⟨_, Prod.ext rfl hl.1, hl.2, hC ⟨(R, F), hd, hF⟩ hR⟩

include hr hp hg in
/-- C108: `calc_k0` followed by `add_k0s` -/
theorem C108_assembled {method : String} (ht : ThickFor method (run m0 ops) pn) {al : ℝ} (hal : 0 ≤ al) {fa : Bool} {K : Mat}
    (hK : Assembled (run m0 ops) pn method al fa K) :
    ∃ C u0 : ℝ, 0 < u0 ∧ ∀ R : Rounding, R.u ≤ u0 → ∃ F, FlAssembled R (R.run m0 ops) pn method al fa F ∧ F.dim = K.dim ∧
      ∀ i < K.dim, ∀ j < K.dim, |F.get i j - K.get i j| ≤ C * R.u := by
  obtain ⟨_, F, f1, f2, f3⟩ := assembled_acc (fun R : Rounding => R) (hr.run ops) hp hg ht hal hK (fun R => likeMesh_run R ops (LikeMesh.refl m0))
  obtain ⟨C, u0, hu, hC⟩ := f3.uniform
  exact ⟨C, u0, hu, fun R hR => ⟨F R, f1 R, f2 R, hC R hR⟩⟩

/-! ### C109, C110: static solution and pre-stress -/

theorem flAssembled_fun {R : Rounding} {m : Mesh} {method : String} {al : ℝ} {fa : Bool} {K K' : Mat} (h : FlAssembled R m pn method al fa K)
    (h' : FlAssembled R m pn method al fa K') : K = K' := by
  obtain ⟨K0, a, b⟩ := h
  obtain ⟨K0', a', b'⟩ := h'
  rw [a] at a'; cases a'
  rw [b] at b'; cases b'
  rfl

theorem Spec.Stable.inj {K : Mat} {S : Set ℕ} (hS : Stable K S) : ∀ d : ℕ → ℝ, (∀ i < K.dim, i ∈ S → d i = 0) →
    (∀ i < K.dim, i ∉ S → ∑ j ∈ range K.dim, K.get i j * d j = 0) → ∀ i < K.dim, d i = 0 := by
  intro d h0 h1
  by_contra hcon
  push Not at hcon
  have := hS d h0 hcon
  rw [form_work (f := fun _ => 0) h0 h1] at this
  simp at this

include hr hp hg in
/-- C109: on a stable supported plate the computed stiffness matrix gives a uniquely solvable static problem, and every computed solution - for loads
known up to roundoff, with a residual of the size of the roundoff - differs from the exact solution by at most a constant times the unit roundoff -/
theorem C109_static {method : String} (ht : ThickFor method (run m0 ops) pn) {al : ℝ} (hal : 0 ≤ al) {fa : Bool} {K : Mat}
    (hK : Assembled (run m0 ops) pn method al fa K) {S : Set ℕ} (hS : Stable K S) {f d : ℕ → ℝ} (hd : StaticSol K S f d) (c : ℝ) :
    ∃ C u0 : ℝ, 0 < u0 ∧ ∀ R : Rounding, R.u ≤ u0 → ∃ F, FlAssembled R (R.run m0 ops) pn method al fa F ∧ F.dim = K.dim ∧
      (∀ f', ∃ d', StaticSol F S f' d' ∧ ∀ d'', StaticSol F S f' d'' → ∀ i < F.dim, d'' i = d' i) ∧
      ∀ f' d', (∀ i < K.dim, |f' i - f i| ≤ c * R.u) → SolvedUpTo F S f' d' (c * R.u) → ∀ i < K.dim, |d' i - d i| ≤ C * R.u := by
  obtain ⟨_, F, f1, f2, f3⟩ := assembled_acc (fun R : Rounding => R) (hr.run ops) hp hg ht hal hK (fun R => likeMesh_run R ops (LikeMesh.refl m0))
  have hnear := solve_near (n := K.dim) (K := K.get) S hS.inj (F := fun R => (F R).get) (fun r _ c _ => f3.get r c)
  obtain ⟨u1, hu1, hsol⟩ := smallU_iff.1 hnear
  let κ := {p : Rounding × (ℕ → ℝ) × (ℕ → ℝ) // (∀ i < K.dim, |p.2.1 i - f i| ≤ c * p.1.u) ∧ SolvedUpTo (F p.1) S p.2.1 p.2.2 (c * p.1.u)}
  have hacc := solve_acc (π := fun p : κ => p.1.1) (n := K.dim) (K := K.get) (S := S) hS.inj (F := fun p => (F p.1.1).get)
    (fun r _ s _ => (f3.get r s).comp fun p : κ => p.1.1) (f := f) (f' := fun p => p.1.2.1) (fun r hr => acc_of_le fun p => p.2.1 r hr) (c := c)
    (D := fun p => p.1.2.2) (fun p r hr hrS => p.2.2.1 r (by rw [f2]; exact hr) hrS)
    (fun p r hr hrS => by have := p.2.2.2 r (by rw [f2]; exact hr) hrS; rwa [f2] at this) hd.1 hd.2
  obtain ⟨C, _, hC⟩ := acc_uniform hacc
  obtain ⟨u2, hu2, hC⟩ := smallU_iff.1 hC
  refine ⟨C, min u1 u2, lt_min hu1 hu2, fun R hR => ⟨F R, f1 R, f2 R, fun f' => ?_, fun f' d' h1 h2 => ?_⟩⟩
  · obtain ⟨d', a, b⟩ := solve_inj (n := K.dim) (F R).get S (hsol R (hR.trans (min_le_left _ _))) f'
    refine ⟨d', ⟨?_, ?_⟩, fun d'' h => ?_⟩
    · unfold Supported; rw [f2]; exact a.1
    · rw [f2]; exact a.2
    · have h1 := h.1
      have h2 := h.2
      unfold Supported at h1
      rw [f2] at h1 h2 ⊢
      exact b d'' ⟨h1, h2⟩
  · exact hC ⟨(R, f', d'), h1, h2⟩ (hR.trans (min_le_right _ _))

include hr hp hg in
/-- C110: the whole chain `calc_k0`, `add_k0s`, solution of the static problem, `calc_kG` of the solution: the computed geometric stiffness matrix differs
from the exact one by at most a constant times the unit roundoff -/
theorem C110_prestress {method : String} (ht : ThickFor method (run m0 ops) pn) {al : ℝ} (hal : 0 ≤ al) {fa : Bool} {K : Mat}
    (hK : Assembled (run m0 ops) pn method al fa K) {S : Set ℕ} (hS : Stable K S) {f : ℕ → ℝ} {d : List ℝ} (hl : d.length = K.dim)
    (hd : StaticSol K S f (vec d)) {G : Mat} (hG : calcKG (calcK0 (run m0 ops) pn).1 d pn = .ok G) (c : ℝ) :
    ∃ C u0 : ℝ, 0 < u0 ∧ ∀ R : Rounding, R.u ≤ u0 → ∀ F, FlAssembled R (R.run m0 ops) pn method al fa F →
      ∀ (f' : ℕ → ℝ) (d' : List ℝ), d'.length = F.dim → (∀ i < K.dim, |f' i - f i| ≤ c * R.u) → SolvedUpTo F S f' (vec d') (c * R.u) →
      ∃ G', R.calcKG (R.calcK0 (R.run m0 ops) pn).1 d' pn = .ok G' ∧ G'.dim = G.dim ∧ ∀ i < G.dim, ∀ j < G.dim, |G'.get i j - G.get i j| ≤ C * R.u := by
  obtain ⟨C1, u1, h1, hst⟩ := C109_static hr ops hp hg ht hal hK hS hd c
  obtain ⟨K0, h0, _⟩ := hK
  obtain ⟨C2, u2, h2, hkg⟩ := C107_kG hr ops hp hg h0 hG C1
  refine ⟨C2, min u1 u2, lt_min h1 h2, fun R hR F hF f' d' hl' hf' hsol => ?_⟩
  obtain ⟨F', g1, g2, _, g4⟩ := hst R (hR.trans (min_le_left _ _))
  obtain rfl := flAssembled_fun hF g1
  exact hkg R (hR.trans (min_le_right _ _)) d' (by rw [hl', g2, hl]) fun i hi => g4 f' (vec d') hf' hsol i (by rw [← hl]; exact hi)

end

/-- positive thicknesses have positive averages -/
theorem thickFor_of {m : Mesh} (w : WF m) (hp : Proper m) (hg : Planar m) {pn : Bool} (hh : HasProps m pn) (hl : ∀ l, InUse m pn l → 0 < l.h) (method : String) :
    ThickFor method m pn := by
  unfold ThickFor
  split
  · intro k hk
    obtain ⟨L, h1, h2, h3⟩ := avg_weights w hp hg pn hk
    rw [h3]
    refine (sum_pos_of (g := fun o => ofProp (fun l => l.h) o) (fun z hz => (h1 z hz).1) h2 fun z hz => ?_).ne'
    obtain ⟨l, e⟩ := slot_some hh (h1 z hz).2
    have hs := (h1 z hz).2
    rw [e] at hs ⊢
    exact hl l (slot_inUse w hp hs)
  · exact fun e he => (cavg_pos w hh he hl).ne'

theorem Stiffness.assembled {m : Mesh} {pn : Bool} {method : String} {al : ℝ} {fa : Bool} {K : Mat} (h : Stiffness m pn method al fa K) :
    Assembled m pn method al fa K := h.2

/-- C109 for a plate of positive definite laminates, with the supports described on the mesh -/
theorem C109_plate {m0 : Mesh} (hr : Reachable m0) (ops : List Op) {pn : Bool} (hg : GoodPlate (run m0 ops) pn) {method : String} {al : ℝ} (hal : 0 ≤ al) {fa : Bool}
    {K : Mat} (hK : Stiffness (run m0 ops) pn method al fa K) {S : Set ℕ} (hS : Held (run m0 ops) S) (f : ℕ → ℝ) (c : ℝ) :
    ∃ d, StaticSol K S f d ∧ ∃ C u0 : ℝ, 0 < u0 ∧ ∀ R : Rounding, R.u ≤ u0 → ∃ F, FlAssembled R (R.run m0 ops) pn method al fa F ∧ F.dim = K.dim ∧
      (∀ f', ∃ d', StaticSol F S f' d' ∧ ∀ d'', StaticSol F S f' d'' → ∀ i < F.dim, d'' i = d' i) ∧
      ∀ f' d', (∀ i < K.dim, |f' i - f i| ≤ c * R.u) → SolvedUpTo F S f' d' (c * R.u) → ∀ i < K.dim, |d' i - d i| ≤ C * R.u := by
  have hr' := hr.run ops
  obtain ⟨d, hd, _⟩ := C76_static hr' hg hal hK hS f
  obtain ⟨K0, h0, _⟩ := hK.assembled
  obtain ⟨_, _, hh, _⟩ := calcK0_ok hr'.wf h0
  exact ⟨d, hd, C109_static hr ops hg.proper hg.planar (thickFor_of hr'.wf hg.proper hg.planar hh (fun l h => (hg.shear l h).1) method) hal hK.assembled
    (held_stable hr' hg hal hK hS) hd c⟩

/-! ### concrete cases: the unit square of two triangles, clamped at its left side -/

theorem exSq_thickFor (method : String) (pn : Bool) : ThickFor method exSq pn :=
  thickFor_of (exMesh_reachable exIso exIso exIso exIso exIso exIso).wf (exMesh_proper ..) (exMesh_planar ..) (exMesh_props ..)
    (fun l h => by rw [exSq_inUse h]; exact exIso_shear.1) method

theorem exRead_reachable : Reachable exRead := by
  have := Reachable.delaunay exPts (toInts exTris) exRead exRead_ok []
  rw [run, List.foldl_nil] at this
  exact this

/-- the script that gives the unit square its laminates -/
noncomputable def sqOps : List Op := exOps exIso exIso exIso exIso exIso exIso

theorem sqOps_run : run exRead sqOps = exSq := rfl

/-- C105: in binary64 the same script on the same two triangles succeeds, too, and fails before properties are assigned -/
example (ops : List Op) (pn : Bool) : SameResult (calcK0 (run exRead ops) pn).2 (Rounding.binary64.calcK0 (Rounding.binary64.run exRead ops) pn).2 :=
  C105_k0 _ _ _ _

example (pn : Bool) : ∃ F, (Rounding.binary64.calcK0 (Rounding.binary64.run exRead sqOps) pn).2 = .ok F ∧ F.dim = 20 := by
  obtain ⟨K, hK, hd⟩ := C11_success (exMesh_reachable exIso exIso exIso exIso exIso exIso) (exMesh_proper ..) (by rw [exMesh_nids]; simp) (exMesh_props _ _ _ _ _ _ pn)
  have := C105_k0 Rounding.binary64 exRead sqOps pn
  rw [sqOps_run, hK] at this
  rcases h : (Rounding.binary64.calcK0 (Rounding.binary64.run exRead sqOps) pn).2 with e | F
  · rw [h] at this; exact this.elim
  · rw [h] at this
    exact ⟨F, rfl, by rw [show F.dim = K.dim from this, hd, exMesh_nids]; rfl⟩

/-- C106 -/
example (pn : Bool) : ∃ K, (calcK0 exSq pn).2 = .ok K ∧ ∃ C u0 : ℝ, 0 < u0 ∧ ∀ R : Rounding, R.u ≤ u0 → ∃ F, (R.calcK0 (R.run exRead sqOps) pn).2 = .ok F ∧ F.dim = K.dim ∧
    ∀ i < K.dim, ∀ j < K.dim, |F.get i j - K.get i j| ≤ C * R.u :=
  C106_k0 exRead_reachable sqOps (exMesh_proper ..) (exMesh_planar ..) (exMesh_props ..) (by rw [sqOps_run, exMesh_nids]; simp)

/-- C107: a displacement vector of 20 numbers -/
example (pn : Bool) (d : List ℝ) (hd : d.length = 20) (c : ℝ) : ∃ K0 G, (calcK0 exSq pn).2 = .ok K0 ∧ calcKG (calcK0 exSq pn).1 d pn = .ok G ∧
    ∃ C u0 : ℝ, 0 < u0 ∧ ∀ R : Rounding, R.u ≤ u0 → ∀ d' : List ℝ, d'.length = d.length → (∀ i < d.length, |vec d' i - vec d i| ≤ c * R.u) →
      ∃ F, R.calcKG (R.calcK0 (R.run exRead sqOps) pn).1 d' pn = .ok F ∧ F.dim = G.dim ∧ ∀ i < G.dim, ∀ j < G.dim, |F.get i j - G.get i j| ≤ C * R.u := by
  have hr := exMesh_reachable exIso exIso exIso exIso exIso exIso
  obtain ⟨K, hK, _⟩ := C11_success hr (exMesh_proper ..) (by rw [exMesh_nids]; simp) (exMesh_props _ _ _ _ _ _ pn)
  obtain ⟨G, hG, _⟩ := (C49_after hr (exMesh_proper ..) hK [] (by simp)).2 d (by rw [hd, exMesh_nids]; rfl)
  exact ⟨K, G, hK, hG, C107_kG exRead_reachable sqOps (exMesh_proper ..) (exMesh_planar ..) hK hG c⟩

/-- C108: the three methods -/
example (pn : Bool) (al : ℝ) (hal : 0 ≤ al) (fa : Bool) : ∀ method ∈ ["cell-based", "cell-based-no-smoothing", "edge-based"], ∃ K, Assembled exSq pn method al fa K ∧
    ∃ C u0 : ℝ, 0 < u0 ∧ ∀ R : Rounding, R.u ≤ u0 → ∃ F, FlAssembled R (R.run exRead sqOps) pn method al fa F ∧ F.dim = K.dim ∧
      ∀ i < K.dim, ∀ j < K.dim, |F.get i j - K.get i j| ≤ C * R.u := by
  intro method hm
  have hr := exMesh_reachable exIso exIso exIso exIso exIso exIso
  obtain ⟨K0, hK0, _⟩ := C11_success hr (exMesh_proper ..) (by rw [exMesh_nids]; simp) (exMesh_props _ _ _ _ _ _ pn)
  have hK : Assembled exSq pn method al fa (addK0s K0 (calcK0 exSq pn).1 pn method al fa).1 :=
    ⟨K0, hK0, Prod.ext rfl ((C49_after hr (exMesh_proper ..) hK0 [] (by simp)).1 method hm al fa K0 rfl)⟩
  exact ⟨_, hK, C108_assembled exRead_reachable sqOps (exMesh_proper ..) (exMesh_planar ..) (exSq_thickFor method pn) hal hK⟩

/-- C109: a force on the free side -/
example (pn : Bool) (f : ℕ → ℝ) : ∃ K d, Stiffness exSq pn "cell-based" 0 true K ∧ StaticSol K {x | x < 5 ∨ 15 ≤ x} f d ∧
    ∃ C u0 : ℝ, 0 < u0 ∧ ∀ R : Rounding, R.u ≤ u0 → ∃ F, FlAssembled R (R.run exRead sqOps) pn "cell-based" 0 true F ∧
      ∀ d', SolvedUpTo F {x | x < 5 ∨ 15 ≤ x} f d' (100 * R.u) → ∀ i < K.dim, |d' i - d i| ≤ C * R.u := by
  obtain ⟨K, hK⟩ := exSq_stiffness (Or.inl rfl) pn 0 true
  obtain ⟨d, hd, C, u0, hu, h⟩ := C109_plate exRead_reachable sqOps (exSq_good pn) le_rfl hK exSq_held f 100
  refine ⟨K, d, hK, hd, C, u0, hu, fun R hR => ?_⟩
  obtain ⟨F, h1, _, _, h4⟩ := h R hR
  refine ⟨F, h1, fun d' hd' => h4 f d' (fun i _ => ?_) hd'⟩
  rw [sub_self, abs_zero]
  exact mul_nonneg (by norm_num) R.u_nonneg

/-- C110 -/
example (pn : Bool) (f : ℕ → ℝ) : ∃ K G d, Stiffness exSq pn "cell-based" 0 true K ∧ StaticSol K {x | x < 5 ∨ 15 ≤ x} f (vec d) ∧
    calcKG (calcK0 exSq pn).1 d pn = .ok G ∧
    ∃ C u0 : ℝ, 0 < u0 ∧ ∀ R : Rounding, R.u ≤ u0 → ∀ F, FlAssembled R (R.run exRead sqOps) pn "cell-based" 0 true F →
      ∀ (f' : ℕ → ℝ) (d' : List ℝ), d'.length = F.dim → (∀ i < K.dim, |f' i - f i| ≤ 100 * R.u) → SolvedUpTo F {x | x < 5 ∨ 15 ≤ x} f' (vec d') (100 * R.u) →
      ∃ G', R.calcKG (R.calcK0 (R.run exRead sqOps) pn).1 d' pn = .ok G' ∧ G'.dim = G.dim ∧ ∀ i < G.dim, ∀ j < G.dim, |G'.get i j - G.get i j| ≤ C * R.u := by
  have hr := exMesh_reachable exIso exIso exIso exIso exIso exIso
  obtain ⟨K, hK⟩ := exSq_stiffness (Or.inl rfl) pn 0 true
  obtain ⟨d, hd, _⟩ := C76_static hr (exSq_good pn) le_rfl hK exSq_held f
  obtain ⟨hdim, K0, hK0, _⟩ := stiffness_energy hr (exSq_good pn) hK
  have hdim' : K.dim = 20 := by rw [hdim, exMesh_nids]; rfl
  have hv : ∀ i < K.dim, vec ((List.range 20).map d) i = d i := by
    intro i hi
    rw [hdim'] at hi
    simp [vec, List.getD, hi]
  have hd' : StaticSol K {x | x < 5 ∨ 15 ≤ x} f (vec ((List.range 20).map d)) := by
    refine ⟨fun i hi h => by rw [hv i hi]; exact hd.1 i hi h, fun i hi h => ?_⟩
    rw [← hd.2 i hi h]
    exact Finset.sum_congr rfl fun j hj => by rw [hv j (Finset.mem_range.1 hj)]
  obtain ⟨G, hG, _⟩ := (C49_after hr (exMesh_proper ..) hK0 [] (by simp)).2 ((List.range 20).map d) (by rw [exMesh_nids]; simp)
  exact ⟨K, G, _, hK, hd', hG, C110_prestress exRead_reachable sqOps (exMesh_proper ..) (exMesh_planar ..) (exSq_thickFor _ pn) le_rfl hK.assembled
    (held_stable hr (exSq_good pn) le_rfl hK exSq_held) (by simp [hdim']) hd' hG 100⟩

end Meshless
