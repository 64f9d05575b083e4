import Verif.Lemmas.IeeeK0s
import Verif.Spec.Ieee
import Verif.Props.Float

/-!
C150: floating-point formats with largest and smallest numbers, infinities and NaN. `f.u` is the unit roundoff of the format, `f.eta` the
absolute error at underflow and `f.big` its largest finite number; `Fmt.binary64` is the format of Python and numpy.
-/

set_option autoImplicit false

namespace Meshless
open Spec Filter

theorem LimMat.uniform {ι : Type} {φ : ι → Fmt} {F : ι → FMat} {K : Mat} (h : LimMat φ F K) :
    ∃ C t0 B : ℝ, 0 < t0 ∧ ∀ i, (φ i).t ≤ t0 → B ≤ (φ i).big → CloseTo (F i) K (C * (φ i).t) := by
  have h1 : ∀ r c, ∃ C : ℝ, ∀ᶠ i in good φ, ∃ x, (F i).get r c = .fin x ∧ |x - K.get r c| ≤ C * (φ i).t := fun r c => by
    obtain ⟨C, t0, B, ht, hC⟩ := lim_iff.1 (h.get r c)
    exact ⟨C, good_iff.2 ⟨t0, ht, B, hC⟩⟩
  choose C hC using h1
  have h2 : ∀ᶠ i in good φ, ∀ r ∈ Finset.range K.dim, ∀ c ∈ Finset.range K.dim, ∃ x, (F i).get r c = .fin x ∧ |x - K.get r c| ≤ C r c * (φ i).t := by
    rw [Filter.eventually_all_finset]
    intro r _
    rw [Filter.eventually_all_finset]
    exact fun c _ => hC r c
  obtain ⟨t0, ht, B, hB⟩ := good_iff.1 (h2.and h.dim)
  refine ⟨∑ r ∈ Finset.range K.dim, ∑ c ∈ Finset.range K.dim, |C r c|, t0, B, ht, fun i a b => ⟨(hB i a b).2, fun r hr c hc => ?_⟩⟩
  obtain ⟨x, e, hx⟩ := (hB i a b).1 r (Finset.mem_range.2 hr) c (Finset.mem_range.2 hc)
  refine ⟨x, e, hx.trans (mul_le_mul_of_nonneg_right ?_ (add_nonneg (φ i).u_nonneg (φ i).eta_nonneg))⟩
  refine (le_abs_self _).trans ?_
  refine (Finset.single_le_sum (f := fun c => |C r c|) (fun _ _ => abs_nonneg _) (Finset.mem_range.2 hc)).trans ?_
  exact Finset.single_le_sum (f := fun r => ∑ c ∈ Finset.range K.dim, |C r c|) (fun _ _ => Finset.sum_nonneg fun _ _ => abs_nonneg _) (Finset.mem_range.2 hr)

theorem Lim.of_le {ι : Type} {φ : ι → Fmt} {x : ι → ℝ} {l c : ℝ} (h : ∀ i, |x i - l| ≤ c * ((φ i).u + (φ i).eta)) : Lim φ (fun i => .fin (x i)) l :=
  lim_iff.2 ⟨c, 1, 0, one_pos, fun i _ _ => ⟨x i, rfl, h i⟩⟩

section
variable {m0 : Mesh} (hr : Reachable m0) (ops : List Op) {pn : Bool} (hp : Proper (run m0 ops)) (hg : Planar (run m0 ops))
include hr hp hg

theorem ranF {K0 : Mat} (h0 : (calcK0 (run m0 ops) pn).2 = .ok K0) : RanF (calcK0 (run m0 ops) pn).1 pn := by
  have w := (hr.run ops).wf
  obtain ⟨_, _, hh, hne⟩ := calcK0_ok w h0
  obtain ⟨K, _, _, k3, k4, _⟩ := calcK0_proper w hp hh hne
  exact ⟨k3.wf w, k3.proper hp, k3.planar hg, k4, k3.hasProps hh⟩

/-- C150: in every sufficiently fine and wide format all entries of k0 are finite and differ from the exact ones by at most a constant times
`u + eta` -/
theorem C150_k0 (hh : HasProps (run m0 ops) pn) (hne : (run m0 ops).nids ≠ []) : ∃ K, (calcK0 (run m0 ops) pn).2 = .ok K ∧
    ∃ C t0 B : ℝ, 0 < t0 ∧ ∀ f : Fmt, f.u + f.eta ≤ t0 → B ≤ f.big → ∃ F, (f.calcK0 (run m0 ops) pn).2.2 = .ok F ∧ CloseTo F K (C * (f.u + f.eta)) := by
  obtain ⟨K, F, h1, h2, h3⟩ := calcK0_lim (fun f : Fmt => f) (hr.run ops).wf hp hg hh hne
  obtain ⟨C, t0, B, ht, hC⟩ := h3.uniform
  obtain ⟨t1, ht1, B1, h2⟩ := good_iff.1 h2
  exact ⟨K, h1, C, min t0 t1, max B B1, lt_min ht ht1, fun f a b => ⟨F f, h2 f (a.trans (min_le_right _ _)) ((le_max_right _ _).trans b),
    hC f (a.trans (min_le_left _ _)) ((le_max_left _ _).trans b)⟩⟩

/-- C150: the same for kG of displacement vectors known up to a constant times `u + eta` -/
theorem C150_kG {K0 : Mat} (h0 : (calcK0 (run m0 ops) pn).2 = .ok K0) {d : List ℝ} {G : Mat} (hG : calcKG (calcK0 (run m0 ops) pn).1 d pn = .ok G) (c : ℝ) :
    ∃ C t0 B : ℝ, 0 < t0 ∧ ∀ f : Fmt, f.u + f.eta ≤ t0 → B ≤ f.big → ∀ d' : List ℝ, d'.length = d.length →
      (∀ i < d.length, |vec d' i - vec d i| ≤ c * (f.u + f.eta)) →
      ∃ F, f.calcKG (f.calcK0 (run m0 ops) pn).1 (f.calcK0 (run m0 ops) pn).2.1 d' pn = .ok F ∧ CloseTo F G (C * (f.u + f.eta)) := by
  have hran := ranF hr ops hp hg h0
  let κ := {p : Fmt × List ℝ // p.2.length = d.length ∧ ∀ i < d.length, |vec p.2 i - vec d i| ≤ c * (p.1.u + p.1.eta)}
  have hD : LimD (fun p : κ => p.1.1) (fun p : κ => p.1.2) d := by
    refine ⟨fun p => p.2.1, fun n => ?_⟩
    by_cases hn : n < d.length
    · exact Lim.of_le fun p => p.2.2 n hn
    · refine (Lim.const (d.getD n 0)).congr (Filter.Eventually.of_forall fun p => ?_)
      rw [List.getD_eq_default _ _ (by rw [p.2.1]; omega), List.getD_eq_default _ _ (by omega)]
  obtain ⟨F, f1, f2⟩ := calcKG_lim (fun p : κ => p.1.1) hran.w hran.hp hran.hg hran.hq hran.hh hD hG
  obtain ⟨C, t0, B, ht, hC⟩ := f2.uniform
  obtain ⟨t1, ht1, B1, f1⟩ := good_iff.1 f1
  refine ⟨C, min t0 t1, max B B1, lt_min ht ht1, fun f a b d' hl hd => ?_⟩
  rw [(calcK0_fst f _ pn).1, (calcK0_fst f _ pn).2]
  exact ⟨F ⟨(f, d'), hl, hd⟩, f1 ⟨(f, d'), hl, hd⟩ (a.trans (min_le_right _ _)) ((le_max_right _ _).trans b),
    hC ⟨(f, d'), hl, hd⟩ (a.trans (min_le_left _ _)) ((le_max_left _ _).trans b)⟩

/-- C150: `calc_k0` followed by `add_k0s`, all three methods -/
theorem C150_assembled {method : String} (ht : ThickFor method (run m0 ops) pn) {al : ℝ} (hal : 0 ≤ al) {fa : Bool} {K : Mat}
    (hK : Assembled (run m0 ops) pn method al fa K) :
    ∃ C t0 B : ℝ, 0 < t0 ∧ ∀ f : Fmt, f.u + f.eta ≤ t0 → B ≤ f.big →
      ∃ F, FmtAssembled f (run m0 ops) pn method al fa F ∧ CloseTo F K (C * (f.u + f.eta)) := by
  obtain ⟨K0, h0, hadd⟩ := hK
  obtain ⟨hs, _, hh, hne⟩ := calcK0_ok (hr.run ops).wf h0
  obtain ⟨K0', F0, e1, e2, e3⟩ := calcK0_lim (fun f : Fmt => f) (hr.run ops).wf hp hg hh hne
  rw [h0] at e1
  cases e1
  obtain ⟨a1, a2⟩ := addK0s_lim (ranF hr ops hp hg h0) hal fa method (hs.thickFor ht) e3 (by rw [hadd])
  rw [hadd] at a2
  obtain ⟨C, t0, B, ht, hC⟩ := a2.uniform
  obtain ⟨t1, ht1, B1, h1⟩ := good_iff.1 (e2.and a1)
  refine ⟨C, min t0 t1, max B B1, lt_min ht ht1, fun f a b => ?_⟩
  obtain ⟨b1, b2⟩ := h1 f (a.trans (min_le_right _ _)) ((le_max_right _ _).trans b)
  refine ⟨_, ⟨F0 f, b1, ?_⟩, hC f (a.trans (min_le_left _ _)) ((le_max_left _ _).trans b)⟩
  rw [(calcK0_fst f _ pn).1, (calcK0_fst f _ pn).2]
  exact Prod.ext rfl b2

/-- C150: `add_k0s` applied to a matrix known up to a constant times `u + eta` -/
theorem C150_k0s {K0 : Mat} (h0 : (calcK0 (run m0 ops) pn).2 = .ok K0) {method : String} (ht : ThickFor method (run m0 ops) pn) {al : ℝ} (hal : 0 ≤ al) {fa : Bool}
    {K K' : Mat} (hK : addK0s K (calcK0 (run m0 ops) pn).1 pn method al fa = (K', none)) (c : ℝ) :
    ∃ C t0 B : ℝ, 0 < t0 ∧ ∀ f : Fmt, f.u + f.eta ≤ t0 → B ≤ f.big → ∀ F : FMat, F.dim = K.dim →
      (∀ i j, ∃ x, F.get i j = .fin x ∧ |x - K.get i j| ≤ c * (f.u + f.eta)) →
      ∃ F', f.addK0s F (f.calcK0 (run m0 ops) pn).1 (f.calcK0 (run m0 ops) pn).2.1 pn method al fa = (F', none) ∧ CloseTo F' K' (C * (f.u + f.eta)) := by
  obtain ⟨hs, _, hh, hne⟩ := calcK0_ok (hr.run ops).wf h0
  let κ := {p : Fmt × FMat // p.2.dim = K.dim ∧ ∀ i j, ∃ x, p.2.get i j = .fin x ∧ |x - K.get i j| ≤ c * (p.1.u + p.1.eta)}
  have hF : LimMat (fun p : κ => p.1.1) (fun p : κ => p.1.2) K :=
    ⟨Filter.Eventually.of_forall fun p => p.2.1, fun r s => lim_iff.2 ⟨c, 1, 0, one_pos, fun p _ _ => p.2.2 r s⟩⟩
  obtain ⟨a1, a2⟩ := addK0s_lim (ranF hr ops hp hg h0) hal fa method (hs.thickFor ht) hF (by rw [hK])
  rw [hK] at a2
  obtain ⟨C, t0, B, ht, hC⟩ := a2.uniform
  obtain ⟨t1, ht1, B1, h1⟩ := good_iff.1 a1
  refine ⟨C, min t0 t1, max B B1, lt_min ht ht1, fun f a b F hd hF => ?_⟩
  rw [(calcK0_fst f _ pn).1, (calcK0_fst f _ pn).2]
  exact ⟨_, Prod.ext rfl (h1 ⟨(f, F), hd, hF⟩ (a.trans (min_le_right _ _)) ((le_max_right _ _).trans b)),
    hC ⟨(f, F), hd, hF⟩ (a.trans (min_le_left _ _)) ((le_max_left _ _).trans b)⟩

end

/-! ### cases -/

/-- binary64 is a format -/
example : Fmt.binary64.u = (2:ℝ)⁻¹ ^ 53 ∧ Fmt.binary64.eta = (2:ℝ)⁻¹ ^ 1075 ∧ Fmt.binary64.big = (2 ^ 53 - 1) * 2 ^ 971 := ⟨rfl, rfl, rfl⟩

/-- there are formats as fine and as wide as one likes: rounding is exact below a largest number -/
noncomputable def Fmt.wide (B : ℝ) (hB : 0 < B) : Fmt := ⟨0, 0, B, id, le_rfl, le_rfl, hB, by simp, rfl⟩

/-- C150: the two-triangle square -/
example (pn : Bool) := C150_k0 exRead_reachable sqOps (pn := pn) (exMesh_proper ..) (exMesh_planar ..) (exMesh_props ..) (by rw [sqOps_run, exMesh_nids]; simp)

example (pn : Bool) (d : List ℝ) (hd : d.length = 20) (c : ℝ) : ∃ K0 G, (calcK0 exSq pn).2 = .ok K0 ∧ calcKG (calcK0 exSq pn).1 d pn = .ok G ∧
    ∃ C t0 B : ℝ, 0 < t0 ∧ ∀ f : Fmt, f.u + f.eta ≤ t0 → B ≤ f.big → ∀ d' : List ℝ, d'.length = d.length →
      (∀ i < d.length, |vec d' i - vec d i| ≤ c * (f.u + f.eta)) →
      ∃ F, f.calcKG (f.calcK0 (run exRead sqOps) pn).1 (f.calcK0 (run exRead sqOps) pn).2.1 d' pn = .ok F ∧ CloseTo F G (C * (f.u + f.eta)) := by
  have hr := exMesh_reachable exIso exIso exIso exIso exIso exIso
  obtain ⟨K, hK, _⟩ := C11_success hr (exMesh_proper ..) (by rw [exMesh_nids]; simp) (exMesh_props _ _ _ _ _ _ pn)
  obtain ⟨G, hG, _⟩ := (C49_after hr (exMesh_proper ..) hK [] (by simp)).2 d (by rw [hd, exMesh_nids]; rfl)
  exact ⟨K, G, hK, hG, C150_kG exRead_reachable sqOps (exMesh_proper ..) (exMesh_planar ..) hK hG c⟩

example (pn : Bool) (al : ℝ) (hal : 0 ≤ al) (fa : Bool) : ∀ method ∈ ["cell-based", "cell-based-no-smoothing", "edge-based"], ∃ K, Assembled exSq pn method al fa K ∧
    ∃ C t0 B : ℝ, 0 < t0 ∧ ∀ f : Fmt, f.u + f.eta ≤ t0 → B ≤ f.big →
      ∃ F, FmtAssembled f (run exRead sqOps) pn method al fa F ∧ CloseTo F K (C * (f.u + f.eta)) := by
  intro method hm
  have hr := exMesh_reachable exIso exIso exIso exIso exIso exIso
  obtain ⟨K0, hK0, _⟩ := C11_success hr (exMesh_proper ..) (by rw [exMesh_nids]; simp) (exMesh_props _ _ _ _ _ _ pn)
  have hK : Assembled exSq pn method al fa (addK0s K0 (calcK0 exSq pn).1 pn method al fa).1 :=
    ⟨K0, hK0, Prod.ext rfl ((C49_after hr (exMesh_proper ..) hK0 [] (by simp)).1 method hm al fa K0 rfl)⟩
  exact ⟨_, hK, C150_assembled exRead_reachable sqOps (exMesh_proper ..) (exMesh_planar ..) (exSq_thickFor method pn) hal hK⟩

/-- `add_k0s` alone, on the zero matrix -/
example (pn : Bool) (al : ℝ) (hal : 0 ≤ al) (fa : Bool) (c : ℝ) : ∃ K', addK0s (Mat.zeros 20) (calcK0 exSq pn).1 pn "cell-based" al fa = (K', none) ∧
    ∃ C t0 B : ℝ, 0 < t0 ∧ ∀ f : Fmt, f.u + f.eta ≤ t0 → B ≤ f.big → ∀ F : FMat, F.dim = 20 →
      (∀ i j, ∃ x, F.get i j = .fin x ∧ |x| ≤ c * (f.u + f.eta)) →
      ∃ F', f.addK0s F (f.calcK0 (run exRead sqOps) pn).1 (f.calcK0 (run exRead sqOps) pn).2.1 pn "cell-based" al fa = (F', none) ∧
        CloseTo F' K' (C * (f.u + f.eta)) := by
  have hr := exMesh_reachable exIso exIso exIso exIso exIso exIso
  obtain ⟨K0, hK0, hd⟩ := C11_success hr (exMesh_proper ..) (by rw [exMesh_nids]; simp) (exMesh_props _ _ _ _ _ _ pn)
  have hd : K0.dim = 20 := by rw [hd, exMesh_nids]; rfl
  have h := (C49_after hr (exMesh_proper ..) hK0 [] (by simp)).1 "cell-based" (by simp) al fa (Mat.zeros 20) hd.symm
  obtain ⟨C, t0, B, ht, hC⟩ := C150_k0s exRead_reachable sqOps (exMesh_proper ..) (exMesh_planar ..) hK0 (exSq_thickFor "cell-based" pn) hal (Prod.ext rfl h) c
  exact ⟨_, Prod.ext rfl h, C, t0, B, ht, fun f a b F hF hx => hC f a b F hF (by simpa [Mat.zeros] using hx)⟩

end Meshless
