import Verif.Lemmas.Tiles
import Verif.Lemmas.Grid
import Verif.Props.Modes
import Verif.Props.Buckling

/-! C119-C122: consistency. For the nodal values of smooth fields the energies of the assembled matrices are the integrals of the plate theory up to
errors proportional to the size of the triangles. -/

set_option autoImplicit false

namespace Meshless
open Spec Finset MeasureTheory Filter

/-- C119: `v^T K u` of the matrix of `calc_k0` for nodal values of two smooth fields is the integral of their strains, up to a multiple of the longest
side `h` -/
theorem C119_k0 {m : Mesh} (hr : Reachable m) (hp : Proper m) (hg : Planar m) {pn : Bool} {K : Mat} (hK : (calcK0 m pn).2 = .ok K) {s h : ℝ} (hs : Shape m s) (hh : Size m h)
    {l : ℕ → ℝ × ℝ → Lam} {L0 L1 : ℝ} (hL1 : 0 ≤ L1) (hl : SmoothLam m l L0 L1) (ha : Assigned m pn l) {F Fx Fy G Gx Gy : ℕ → ℝ × ℝ → ℝ} {S M : ℝ} (hM : 0 ≤ M)
    (hF : SmoothField m F Fx Fy S M) (hG : SmoothField m G Gx Gy S M) {v u : ℕ → ℝ} (hv : Nodal m F v) (hu : Nodal m G u) :
    |form K.dim K.get v u - contEnergy m l Fx Fy Gx Gy| ≤ 144 * (L0 * ((2 * s + 1) * M * h) * (2 * S + (2 * s + 1) * M * h) + 2 * S ^ 2 * L1 * h) * totalArea m := by
  rw [C18_energy hr hp hg hK]
  refine (energy_near hr.wf hp hg hs hh hL1 hl ha hM hF hG hv hu).trans (le_of_eq ?_)
  ring

/-- C119: in particular the energy is exact for fields with constant derivatives and a uniform laminate, whatever the triangles -/
theorem C119_exact {m : Mesh} (hr : Reachable m) (hp : Proper m) (hg : Planar m) {pn : Bool} {K : Mat} (hK : (calcK0 m pn).2 = .ok K) {l : ℕ → ℝ × ℝ → Lam} {L0 : ℝ}
    (hl : SmoothLam m l L0 0) (ha : Assigned m pn l) {F Fx Fy G Gx Gy : ℕ → ℝ × ℝ → ℝ} {S : ℝ} (hF : SmoothField m F Fx Fy S 0) (hG : SmoothField m G Gx Gy S 0) {v u : ℕ → ℝ}
    (hv : Nodal m F v) (hu : Nodal m G u) : form K.dim K.get v u = contEnergy m l Fx Fy Gx Gy := by
  obtain ⟨s, hs⟩ : ∃ s, Shape m s := by
    refine ⟨(m.eids.map fun e => charLen m false e ^ 2 / triArea m e).sum, fun e he => ?_⟩
    rw [← div_le_iff₀ (triArea_pos hg he)]
    exact List.single_le_sum (fun x hx => by
      obtain ⟨e', he', rfl⟩ := List.mem_map.1 hx
      exact div_nonneg (sq_nonneg _) (triArea_pos hg he').le) _ (List.mem_map.2 ⟨e, he, rfl⟩)
  obtain ⟨h, hh⟩ : ∃ h, Size m h := ⟨(m.eids.map fun e => charLen m false e).sum, fun e he =>
    List.single_le_sum (fun x hx => by
      obtain ⟨e', he', rfl⟩ := List.mem_map.1 hx
      exact charLen_nonneg m e') _ (List.mem_map.2 ⟨e, he, rfl⟩)⟩
  have := C119_k0 hr hp hg hK hs hh le_rfl hl ha le_rfl hF hG hv hu
  simp only [mul_zero, zero_mul, add_zero] at this
  exact sub_eq_zero.1 (abs_eq_zero.1 (le_antisymm this (abs_nonneg _)))

theorem assigned_props {m : Mesh} {pn : Bool} {l : ℕ → ℝ × ℝ → Lam} (ha : Assigned m pn l) : HasProps m pn := by
  unfold Assigned at ha
  unfold HasProps
  cases pn with
  | false =>
    rw [if_neg (by simp)] at ha ⊢
    intro e he
    obtain ⟨x, _, h⟩ := ha e he
    rw [h]; rfl
  | true =>
    rw [if_pos rfl] at ha ⊢
    intro e he i hi
    rw [ha e he i hi]; rfl

theorem assigned_thick {m : Mesh} {pn : Bool} {l : ℕ → ℝ × ℝ → Lam} (ha : Assigned m pn l) {tau : ℝ} (htau : 0 < tau) (ht : ThickAtLeast m l tau) : Thick m pn :=
  fun _ he => (lt_of_lt_of_le htau (cavg_thick ha he ht)).ne'

/-- C120: what `add_k0s` adds with "cell-based-no-smoothing", for nodal values of smooth fields: the integral of the transverse shear strains, up to multiples
of `h`; `al h^2 / tau^2` is the effect of the stabilisation -/
theorem C120_whole {m : Mesh} (hm : Numbered m) (hf : FlatMesh m) {pn : Bool} {s h : ℝ} (hs : Shape m s) (hh : Size m h) {l : ℕ → ℝ × ℝ → Lam} {L0 L1 : ℝ} (hL1 : 0 ≤ L1)
    (hl : SmoothLam m l L0 L1) (ha : Assigned m pn l) {tau al : ℝ} (htau : 0 < tau) (ht : ThickAtLeast m l tau) (hal : 0 ≤ al) (fa : Bool) {K : Mat} (hK : K.dim = 5 * m.nids.length)
    {F Fx Fy G Gx Gy : ℕ → ℝ × ℝ → ℝ} {S M : ℝ} (hM : 0 ≤ M) (hF : SmoothField m F Fx Fy S M) (hG : SmoothField m G Gx Gy S M) {v u : ℕ → ℝ} (hv : Nodal m F v) (hu : Nodal m G u) :
    ∃ K', addK0s K m pn "cell-based-no-smoothing" al fa = (K', none) ∧ K'.dim = K.dim ∧
      |form K.dim (fun i j => K'.get i j - K.get i j) v u - contShear m l F Fx Fy G Gx Gy| ≤
        2 * (L0 ^ 2 * (4 * (M + S) * s * h) * (4 * S + 4 * (M + S) * s * h) + 4 * S ^ 2 * (al * h ^ 2 / tau ^ 2 * L0 ^ 2 + 2 * L0 * L1 * h)) * totalArea m := by
  obtain ⟨K', h1, h2, h3⟩ := C39_energy hm hf (assigned_props ha) (assigned_thick ha htau ht) al fa hK
  refine ⟨K', h1, h2, ?_⟩
  rw [h3]
  have near : ∀ {F Fx Fy : ℕ → ℝ × ℝ → ℝ} {v : ℕ → ℝ}, SmoothField m F Fx Fy S M → Nodal m F v → ∀ e ∈ m.eids, ∀ x ∈ hull m e, ∀ r,
      |wholeGamma m e v r - shear F Fx Fy x r| ≤ 4 * (M + S) * s * h := by
    intro F Fx Fy v hF hv e he x hx r
    refine (whole_near hm.wf hf he hM hs hF hv hx r).trans (mul_le_mul_of_nonneg_left (hh e he) ?_)
    have := S_nonneg he hF hx
    have : 0 ≤ s := by
      have h1 := (sq_nonneg _).trans (hs e he)
      by_contra hc
      push Not at hc
      nlinarith [tri_pos hf he]
    positivity
  refine (shearEnergy_near hh hL1 hl ha htau ht hal fa hF hG (near hF hv) (near hG hu)).trans (le_of_eq ?_)
  ring

/-- C120: the same for the default method "cell-based"; the literal `0.166666666666667` standing for `1/6` leaves an error that does not decrease with `h` -/
theorem C120_cell {m : Mesh} (hm : Numbered m) (hf : FlatMesh m) {pn : Bool} {s h : ℝ} (hs : Shape m s) (hh : Size m h) {l : ℕ → ℝ × ℝ → Lam} {L0 L1 : ℝ} (hL1 : 0 ≤ L1)
    (hl : SmoothLam m l L0 L1) (ha : Assigned m pn l) {tau al : ℝ} (htau : 0 < tau) (ht : ThickAtLeast m l tau) (hal : 0 ≤ al) (fa : Bool) {K : Mat} (hK : K.dim = 5 * m.nids.length)
    {F Fx Fy G Gx Gy : ℕ → ℝ × ℝ → ℝ} {S M : ℝ} (hM : 0 ≤ M) (hF : SmoothField m F Fx Fy S M) (hG : SmoothField m G Gx Gy S M) {v u : ℕ → ℝ} (hv : Nodal m F v) (hu : Nodal m G u) :
    ∃ K', addK0s K m pn "cell-based" al fa = (K', none) ∧ K'.dim = K.dim ∧
      |form K.dim (fun i j => K'.get i j - K.get i j) v u - contShear m l F Fx Fy G Gx Gy| ≤
        2 * (L0 ^ 2 * (12 * (M + S) * s * h + S / 10 ^ 15) * (4 * S + (12 * (M + S) * s * h + S / 10 ^ 15)) + 4 * S ^ 2 * (al * h ^ 2 / tau ^ 2 * L0 ^ 2 + 2 * L0 * L1 * h)) * totalArea m := by
  obtain ⟨K', h1, h2, h3⟩ := C38_energy hm hf (assigned_props ha) (assigned_thick ha htau ht) al fa hK
  refine ⟨K', h1, h2, ?_⟩
  rw [h3]
  have near : ∀ {F Fx Fy : ℕ → ℝ × ℝ → ℝ} {v : ℕ → ℝ}, SmoothField m F Fx Fy S M → Nodal m F v → ∀ e ∈ m.eids, ∀ x ∈ hull m e, ∀ r,
      |cellStrain m e v r - shear F Fx Fy x r| ≤ 12 * (M + S) * s * h + S / 10 ^ 15 := by
    intro F Fx Fy v hF hv e he x hx r
    refine (strain_near hm.wf hf he hM hs hF hv hx r).trans (add_le_add (mul_le_mul_of_nonneg_left (hh e he) ?_) (le_of_eq ?_))
    · have := S_nonneg he hF hx
      have : 0 ≤ s := by
        have h1 := (sq_nonneg _).trans (hs e he)
        by_contra hc
        push Not at hc
        nlinarith [tri_pos hf he]
      positivity
    · rw [sixthErr_eq.2]; ring
  refine (shearEnergy_near hh hL1 hl ha htau ht hal fa hF hG (near hF hv) (near hG hu)).trans (le_of_eq ?_)
  ring

/-- C121: `v^T KG u` of the matrix of `calc_kG` for nodal values of smooth fields, the displacements `d` included, is the integral of the membrane forces times
the slopes, up to a multiple of `h` -/
theorem C121_kG {m : Mesh} (ha' : AfterK0 m) (hp : Proper m) (hg : Planar m) {pn : Bool} {d : List ℝ} (hd : d.length = 5 * m.nids.length) {K : Mat} (hK : calcKG m d pn = .ok K)
    {s h : ℝ} (hs : Shape m s) (hh : Size m h) {l : ℕ → ℝ × ℝ → Lam} {L0 L1 : ℝ} (hL1 : 0 ≤ L1) (hl : SmoothLam m l L0 L1) (ha : Assigned m pn l)
    {D Dx Dy F Fx Fy G Gx Gy : ℕ → ℝ × ℝ → ℝ} {S M : ℝ} (hM : 0 ≤ M) (hD : SmoothField m D Dx Dy S M) (hF : SmoothField m F Fx Fy S M) (hG : SmoothField m G Gx Gy S M) {v u : ℕ → ℝ}
    (hdD : Nodal m D (vec d)) (hv : Nodal m F v) (hu : Nodal m G u) :
    |form K.dim K.get v u - contGeometric m l Dx Dy Fx Fy Gx Gy| ≤
      72 * (L0 * ((2 * s + 1) * M * h) * ((2 * S + (2 * s + 1) * M * h) * (S + (2 * s + 1) * M * h) + S ^ 2) + 2 * S ^ 3 * L1 * h) * totalArea m := by
  rw [C29_energy ha' hp hg (assigned_props ha) hd hK]
  refine (geometric_near ha'.wf hp hg hs hh hL1 hl ha hM hD hF hG hdD hv hu).trans (le_of_eq ?_)
  ring

/-! ### refinement -/

section
variable {m m' : Mesh} (h : SameStatic m m')
include h

theorem SameStatic.shull : hull m' = hull m := by funext e; simp only [hull, pt, h.snx, h.sny, h.tria]
theorem SameStatic.scharLen : charLen m' = charLen m := by funext fa e; simp only [charLen, dist2, h.striArea, h.snx, h.sny, h.tria]
theorem SameStatic.sarea' : totalArea m' = totalArea m := by simp only [totalArea, h.eids, h.striArea]
theorem SameStatic.size {a : ℝ} (hh : Size m a) : Size m' a := fun e he => by rw [h.scharLen]; exact hh e (h.eids ▸ he)
theorem SameStatic.shape {a : ℝ} (hh : Shape m a) : Shape m' a := fun e he => by rw [h.scharLen, h.striArea]; exact hh e (h.eids ▸ he)
theorem SameStatic.smoothField {F Fx Fy : ℕ → ℝ × ℝ → ℝ} {S M : ℝ} (hF : SmoothField m F Fx Fy S M) : SmoothField m' F Fx Fy S M := by
  obtain ⟨a, b, c⟩ := hF
  constructor <;> rw [h.eids, h.shull] <;> assumption
theorem SameStatic.smoothLam {l : ℕ → ℝ × ℝ → Lam} {L0 L1 : ℝ} (hl : SmoothLam m l L0 L1) : SmoothLam m' l L0 L1 := by
  obtain ⟨a, b⟩ := hl
  constructor <;> rw [h.eids, h.shull] <;> assumption
theorem SameStatic.assigned {pn : Bool} {l : ℕ → ℝ × ℝ → Lam} (ha : Assigned m pn l) : Assigned m' pn l := by
  unfold Assigned at *
  simpa only [h.eids, h.shull, h.tria, h.prop, IsCorner, pt, h.snx, h.sny] using ha
theorem SameStatic.nodal {F : ℕ → ℝ × ℝ → ℝ} {v : ℕ → ℝ} (hv : Nodal m F v) : Nodal m' F v := by
  unfold Nodal at *
  simpa only [h.nids, h.sdisp, pt, h.snx, h.sny] using hv
theorem SameStatic.thickAtLeast {l : ℕ → ℝ × ℝ → Lam} {tau : ℝ} (ht : ThickAtLeast m l tau) : ThickAtLeast m' l tau := by
  unfold ThickAtLeast at *
  simpa only [h.eids, h.shull] using ht
theorem SameStatic.contShear' : contShear m' = contShear m := by
  funext l F Fx Fy G Gx Gy; simp only [contShear, h.eids, h.shull]
theorem SameStatic.contGeometric' : contGeometric m' = contGeometric m := by
  funext l Dx Dy Fx Fy Gx Gy; simp only [contGeometric, h.eids, h.shull]

end

section
variable {Om : Set (ℝ × ℝ)} {l : ℝ × ℝ → Lam} {pn : Bool} {s : ℝ} {m : ℕ → Mesh} {L0 L1 : ℝ} {D Dx Dy F Fx Fy G Gx Gy : ℕ → ℝ × ℝ → ℝ} {S M : ℝ}

theorem tends_of_bound {a : ℕ → ℝ} {b : ℝ} {h : ℕ → ℝ} (hh : Tendsto h atTop (nhds 0)) {f : ℝ → ℝ} (hf : Continuous f) (h0 : f 0 = 0) (hab : ∀ n, |a n - b| ≤ f (h n)) :
    Tendsto a atTop (nhds b) := by
  have : Tendsto (fun n => f (h n)) atTop (nhds 0) := (hf.tendsto' 0 0 h0).comp hh
  rw [tendsto_iff_dist_tendsto_zero]
  exact squeeze_zero (fun _ => dist_nonneg) (fun n => by rw [Real.dist_eq]; exact hab n) this

/-- C122: refining the mesh of a plate, the energies of `calc_k0` tend to the integral over the plate -/
theorem C122_k0 (hr : ∀ n, Reachable (m n)) (hR : Refined Om l pn s m) (hL1 : 0 ≤ L1) (hl : LamOn Om l L0 L1) (hM : 0 ≤ M) (hF : FieldOn Om F Fx Fy S M) (hG : FieldOn Om G Gx Gy S M)
    {K : ℕ → Mat} (hK : ∀ n, (calcK0 (m n) pn).2 = .ok (K n)) {v u : ℕ → ℕ → ℝ} (hv : ∀ n, Nodal (m n) F (v n)) (hu : ∀ n, Nodal (m n) G (u n)) :
    Tendsto (fun n => form (K n).dim (K n).get (v n) (u n)) atTop (nhds (plateEnergy Om l Fx Fy Gx Gy)) := by
  obtain ⟨h, hh, h0⟩ := hR.size
  refine tends_of_bound h0 (f := fun h => 144 * (L0 * ((2 * s + 1) * M * h) * (2 * S + (2 * s + 1) * M * h) + 2 * S ^ 2 * L1 * h) * volume.real Om) (by fun_prop) (by ring) fun n => ?_
  have hs := fun e (he : e ∈ (m n).eids) => (hR.tiles n).sub he
  have := C119_k0 (hr n) (hR.proper n) (hR.planar n) (hK n) (hR.shape n) (hh n) hL1 (hl.smooth hs) (hR.lam n) hM (hF.smooth hs) (hG.smooth hs) (hv n) (hu n)
  rwa [contEnergy_plate (hR.tiles n) hl hF hG, (hR.tiles n).area] at this

theorem plate_thick {m : Mesh} (ht : Tiles m Om) {tau : ℝ} (hth : ∀ x ∈ Om, tau ≤ (l x).h) : ThickAtLeast m (fun _ => l) tau := fun _ he x hx => hth x (ht.sub he hx)

/-- C122: with "cell-based-no-smoothing" the energies of the complete stiffness matrix tend to those of the first-order shear deformation theory, for any
stabilisation factor `al` -/
theorem C122_stiffness (hr : ∀ n, Reachable (m n)) (hR : Refined Om l pn s m) (hL1 : 0 ≤ L1) (hl : LamOn Om l L0 L1) {tau al : ℝ} (htau : 0 < tau) (ht : ∀ x ∈ Om, tau ≤ (l x).h)
    (hal : 0 ≤ al) {fa : Bool} (hM : 0 ≤ M) (hF : FieldOn Om F Fx Fy S M) (hG : FieldOn Om G Gx Gy S M) {K : ℕ → Mat}
    (hK : ∀ n, Stiffness (m n) pn "cell-based-no-smoothing" al fa (K n)) {v u : ℕ → ℕ → ℝ} (hv : ∀ n, Nodal (m n) F (v n)) (hu : ∀ n, Nodal (m n) G (u n)) :
    Tendsto (fun n => form (K n).dim (K n).get (v n) (u n)) atTop (nhds (plateEnergy Om l Fx Fy Gx Gy + plateShear Om l F Fx Fy G Gx Gy)) := by
  obtain ⟨h, hh, h0⟩ := hR.size
  choose K0 hK0 hadd using fun n => (hK n).made
  have t1 := C122_k0 hr hR hL1 hl hM hF hG hK0 hv hu
  have t2 : Tendsto (fun n => form (K0 n).dim (fun i j => (K n).get i j - (K0 n).get i j) (v n) (u n)) atTop (nhds (plateShear Om l F Fx Fy G Gx Gy)) := by
    refine tends_of_bound h0 (f := fun h => 2 * (L0 ^ 2 * (4 * (M + S) * s * h) * (4 * S + 4 * (M + S) * s * h) + 4 * S ^ 2 * (al * h ^ 2 / tau ^ 2 * L0 ^ 2 + 2 * L0 * L1 * h)) *
      volume.real Om) (by fun_prop) (by ring) fun n => ?_
    have hs := fun e (he : e ∈ (m n).eids) => (hR.tiles n).sub he
    obtain ⟨ss, _, _, _⟩ := calcK0_ok (hr n).wf (hK0 n)
    obtain ⟨K', h1, _, h3⟩ := C120_whole (m := (calcK0 (m n) pn).1) (.intro (m n) (hr n) pn (K0 n) (hK0 n) []) (ss.flatMesh (hR.planar n)) (ss.shape (hR.shape n)) (ss.size (hh n)) hL1
      (ss.smoothLam (hl.smooth hs)) (ss.assigned (hR.lam n)) htau (ss.thickAtLeast (plate_thick (hR.tiles n) ht)) hal fa (K := K0 n)
      (by rw [(calcK0_sum (hr n).wf (hK0 n)).1, ss.nids]; ring) hM (ss.smoothField (hF.smooth hs)) (ss.smoothField (hG.smooth hs)) (ss.nodal (hv n)) (ss.nodal (hu n))
    have : K' = K n := by
      rw [hadd n] at h1
      injection h1 with h1
      exact h1.symm
    subst this
    rwa [ss.contShear', contShear_plate (hR.tiles n) hl hF hG, ss.sarea', (hR.tiles n).area] at h3
  have hd : ∀ n, (K n).dim = (K0 n).dim := fun n => by
    obtain ⟨ss, _, hh', _⟩ := calcK0_ok (hr n).wf (hK0 n)
    obtain ⟨K', h1, h2, _⟩ := C39_energy (m := (calcK0 (m n) pn).1) (.intro (m n) (hr n) pn (K0 n) (hK0 n) []) (ss.flatMesh (hR.planar n)) (ss.hasProps hh')
      (assigned_thick (ss.assigned (hR.lam n)) htau (ss.thickAtLeast (plate_thick (hR.tiles n) ht))) al fa (K := K0 n) (by rw [(calcK0_sum (hr n).wf (hK0 n)).1, ss.nids]; ring)
    rw [hadd n] at h1
    injection h1 with h1
    rw [h1, h2]
  refine (t1.add t2).congr fun n => ?_
  rw [hd n, form_add _ (K0 n).get (K n).get]

/-- C122: with the default method "cell-based" the energies of the complete stiffness matrix come as close to those of the theory as the literal
`0.166666666666667` allows -/
theorem C122_cell (hr : ∀ n, Reachable (m n)) (hR : Refined Om l pn s m) (hL1 : 0 ≤ L1) (hl : LamOn Om l L0 L1) {tau al : ℝ} (htau : 0 < tau) (ht : ∀ x ∈ Om, tau ≤ (l x).h)
    (hal : 0 ≤ al) {fa : Bool} (hM : 0 ≤ M) (hF : FieldOn Om F Fx Fy S M) (hG : FieldOn Om G Gx Gy S M) {K : ℕ → Mat}
    (hK : ∀ n, Stiffness (m n) pn "cell-based" al fa (K n)) {v u : ℕ → ℕ → ℝ} (hv : ∀ n, Nodal (m n) F (v n)) (hu : ∀ n, Nodal (m n) G (u n)) {ε : ℝ} (hε : 0 < ε) :
    ∀ᶠ n in atTop, |form (K n).dim (K n).get (v n) (u n) - (plateEnergy Om l Fx Fy Gx Gy + plateShear Om l F Fx Fy G Gx Gy)| ≤ ε + volume.real Om * L0 ^ 2 * S ^ 2 / 10 ^ 14 := by
  obtain ⟨h, hh, h0⟩ := hR.size
  choose K0 hK0 hadd using fun n => (hK n).made
  have t1 := C122_k0 hr hR hL1 hl hM hF hG hK0 hv hu
  have hb : ∀ n, (K n).dim = (K0 n).dim ∧ |form (K0 n).dim (fun i j => (K n).get i j - (K0 n).get i j) (v n) (u n) - plateShear Om l F Fx Fy G Gx Gy| ≤
      2 * (L0 ^ 2 * (12 * (M + S) * s * h n + S / 10 ^ 15) * (4 * S + (12 * (M + S) * s * h n + S / 10 ^ 15)) + 4 * S ^ 2 * (al * h n ^ 2 / tau ^ 2 * L0 ^ 2 + 2 * L0 * L1 * h n)) *
        volume.real Om := by
    intro n
    have hs := fun e (he : e ∈ (m n).eids) => (hR.tiles n).sub he
    obtain ⟨ss, _, _, _⟩ := calcK0_ok (hr n).wf (hK0 n)
    obtain ⟨K', h1, h2, h3⟩ := C120_cell (m := (calcK0 (m n) pn).1) (.intro (m n) (hr n) pn (K0 n) (hK0 n) []) (ss.flatMesh (hR.planar n)) (ss.shape (hR.shape n)) (ss.size (hh n)) hL1
      (ss.smoothLam (hl.smooth hs)) (ss.assigned (hR.lam n)) htau (ss.thickAtLeast (plate_thick (hR.tiles n) ht)) hal fa (K := K0 n)
      (by rw [(calcK0_sum (hr n).wf (hK0 n)).1, ss.nids]; ring) hM (ss.smoothField (hF.smooth hs)) (ss.smoothField (hG.smooth hs)) (ss.nodal (hv n)) (ss.nodal (hu n))
    have : K' = K n := by
      rw [hadd n] at h1
      injection h1 with h1
      exact h1.symm
    subst this
    rw [ss.contShear', contShear_plate (hR.tiles n) hl hF hG, ss.sarea', (hR.tiles n).area] at h3
    exact ⟨h2, h3⟩
  have hlim : Tendsto (fun n => 2 * (L0 ^ 2 * (12 * (M + S) * s * h n + S / 10 ^ 15) * (4 * S + (12 * (M + S) * s * h n + S / 10 ^ 15)) +
      4 * S ^ 2 * (al * h n ^ 2 / tau ^ 2 * L0 ^ 2 + 2 * L0 * L1 * h n)) * volume.real Om) atTop (nhds (2 * (L0 ^ 2 * (S / 10 ^ 15) * (4 * S + S / 10 ^ 15)) * volume.real Om)) := by
    have hc : Continuous fun h : ℝ => 2 * (L0 ^ 2 * (12 * (M + S) * s * h + S / 10 ^ 15) * (4 * S + (12 * (M + S) * s * h + S / 10 ^ 15)) +
      4 * S ^ 2 * (al * h ^ 2 / tau ^ 2 * L0 ^ 2 + 2 * L0 * L1 * h)) * volume.real Om := by fun_prop
    exact (hc.tendsto' 0 _ (by ring)).comp h0
  have e1 := t1.eventually (Metric.ball_mem_nhds _ (half_pos hε))
  have e2 := hlim.eventually_lt_const (u := 2 * (L0 ^ 2 * (S / 10 ^ 15) * (4 * S + S / 10 ^ 15)) * volume.real Om + ε / 2) (by linarith)
  filter_upwards [e1, e2] with n h1 h2
  obtain ⟨hd, h3⟩ := hb n
  rw [Real.dist_eq] at h1
  rw [hd, form_add _ (K0 n).get (K n).get]
  have h4 : 2 * (L0 ^ 2 * (S / 10 ^ 15) * (4 * S + S / 10 ^ 15)) * volume.real Om ≤ volume.real Om * L0 ^ 2 * S ^ 2 / 10 ^ 14 := by
    have : 0 ≤ volume.real Om * L0 ^ 2 * S ^ 2 := by positivity
    have e : 2 * (L0 ^ 2 * (S / 10 ^ 15) * (4 * S + S / 10 ^ 15)) * volume.real Om = volume.real Om * L0 ^ 2 * S ^ 2 * (2 / 10 ^ 15 * (4 + 1 / 10 ^ 15)) := by ring
    rw [e, div_eq_mul_inv]
    exact mul_le_mul_of_nonneg_left (by norm_num) this
  rw [abs_lt] at h1
  rw [abs_le] at h3 ⊢
  constructor <;> linarith [h1.1, h1.2, h3.1, h3.2]

/-- C122: the energies of `calc_kG` tend to the integral of the membrane forces times the slopes -/
theorem C122_kG (hr : ∀ n, Reachable (m n)) (hR : Refined Om l pn s m) (hL1 : 0 ≤ L1) (hl : LamOn Om l L0 L1) (hM : 0 ≤ M) (hD : FieldOn Om D Dx Dy S M) (hF : FieldOn Om F Fx Fy S M)
    (hG : FieldOn Om G Gx Gy S M) {K0 : ℕ → Mat} (hK0 : ∀ n, (calcK0 (m n) pn).2 = .ok (K0 n)) {d : ℕ → List ℝ} (hd : ∀ n, (d n).length = 5 * (m n).nids.length) {K : ℕ → Mat}
    (hK : ∀ n, calcKG (calcK0 (m n) pn).1 (d n) pn = .ok (K n)) {v u : ℕ → ℕ → ℝ} (hdD : ∀ n, Nodal (m n) D (vec (d n))) (hv : ∀ n, Nodal (m n) F (v n)) (hu : ∀ n, Nodal (m n) G (u n)) :
    Tendsto (fun n => form (K n).dim (K n).get (v n) (u n)) atTop (nhds (plateGeometric Om l Dx Dy Fx Fy Gx Gy)) := by
  obtain ⟨h, hh, h0⟩ := hR.size
  refine tends_of_bound h0 (f := fun h => 72 * (L0 * ((2 * s + 1) * M * h) * ((2 * S + (2 * s + 1) * M * h) * (S + (2 * s + 1) * M * h) + S ^ 2) + 2 * S ^ 3 * L1 * h) * volume.real Om)
    (by fun_prop) (by ring) fun n => ?_
  have hs := fun e (he : e ∈ (m n).eids) => (hR.tiles n).sub he
  obtain ⟨ss, _, _, _⟩ := calcK0_ok (hr n).wf (hK0 n)
  have := C121_kG (.intro (m n) (hr n) pn (K0 n) (hK0 n) [] (by simp)) (ss.proper (hR.proper n)) (ss.planar (hR.planar n)) (by rw [hd n]; exact congrArg _ (congrArg _ ss.nids.symm)) (hK n)
    (ss.shape (hR.shape n)) (ss.size (hh n)) hL1 (ss.smoothLam (hl.smooth hs)) (ss.assigned (hR.lam n)) hM (ss.smoothField (hD.smooth hs)) (ss.smoothField (hF.smooth hs))
    (ss.smoothField (hG.smooth hs)) (ss.nodal (hdD n)) (ss.nodal (hv n)) (ss.nodal (hu n))
  rwa [show contGeometric (run (calcK0 (m n) pn).1 []) = contGeometric (m n) from ss.contGeometric', contGeometric_plate (hR.tiles n) hl hD hF hG,
    show totalArea (run (calcK0 (m n) pn).1 []) = totalArea (m n) from ss.sarea', (hR.tiles n).area] at this

end

/-! ### concrete cases: grids of the unit square -/

theorem GridMesh.made {k : ℕ} {l : ℝ × ℝ → Lam} {pn : Bool} {m : Mesh} (h : GridMesh k l pn m) {method : String} (hme : method = "cell-based" ∨ method = "cell-based-no-smoothing") (al : ℝ) (fa : Bool) :
    ∃ K0 K, (calcK0 m pn).2 = .ok K0 ∧ Stiffness m pn method al fa K ∧ ∀ d : List ℝ, d.length = 5 * m.nids.length → ∃ G, calcKG (calcK0 m pn).1 d pn = .ok G := by
  obtain ⟨K0, hK0, _⟩ := C11_success h.reach h.good.proper (by rw [← List.length_pos_iff, h.count]; positivity) (assigned_props h.lam)
  obtain ⟨h1, h2⟩ := C49_after h.reach h.good.proper hK0 [] (by simp)
  have hadd := h1 method (by rcases hme with rfl | rfl <;> simp) al fa K0 rfl
  exact ⟨K0, _, hK0, ⟨hme, K0, hK0, Prod.ext rfl hadd⟩, fun d hd => by obtain ⟨G, hG, _⟩ := h2 d hd; exact ⟨G, hG⟩⟩

theorem GridMesh.total {k : ℕ} {l : ℝ × ℝ → Lam} {pn : Bool} {m : Mesh} (h : GridMesh k l pn m) (hk : 0 < k) : totalArea m = 1 := by
  rw [(h.tiles hk).area, unitSquare_volume]

/-- any grid of a square whose stiffness varies, displacements the product of the coordinates -/
example {k : ℕ} (hk : 0 < k) (pn : Bool) : ∃ m K, GridMesh k exVar pn m ∧ (calcK0 m pn).2 = .ok K ∧
    |form K.dim K.get (gridVals k fun _ x => x.1 * x.2) (gridVals k fun _ x => x.1 * x.2) -
      contEnergy m (fun _ => exVar) (fun _ x => x.2) (fun _ x => x.1) (fun _ x => x.2) (fun _ x => x.1)| ≤ 144 * (18 * (√2 / k) * (2 + 9 * (√2 / k)) + 2 * (√2 / k)) := by
  obtain ⟨m, h⟩ := gridMesh_exists hk exVar_stiff pn
  obtain ⟨K, _, hK, _, _⟩ := h.made (Or.inl rfl) 0 false
  have hs := fun e (he : e ∈ m.eids) => (h.tiles hk).sub he
  refine ⟨m, K, h, hK, (C119_k0 h.reach h.good.proper h.good.planar hK h.shape (fun e he => h.len he) zero_le_one (exVar_on.smooth hs) h.lam zero_le_one (bilinear_on.smooth hs) (bilinear_on.smooth hs)
    (h.nodal _) (h.nodal _)).trans (le_of_eq ?_)⟩
  rw [h.total hk]; ring

/-- uniform stretch of a uniform square: the energy is that of the plate, on any grid -/
example {k : ℕ} (hk : 0 < k) (pn : Bool) : ∃ m K, GridMesh k (fun _ => exIso) pn m ∧ (calcK0 m pn).2 = .ok K ∧
    form K.dim K.get (gridVals k fun _ x => 3 * x.1) (gridVals k fun _ x => 3 * x.1) = contEnergy m (fun _ _ => exIso) (fun _ _ => 3) (fun _ _ => 0) (fun _ _ => 3) (fun _ _ => 0) := by
  obtain ⟨m, h⟩ := gridMesh_exists hk (fun _ => exLam_stiff one_pos one_pos one_pos one_pos) pn
  obtain ⟨K, _, hK, _, _⟩ := h.made (Or.inl rfl) 0 false
  have hs := fun e (he : e ∈ m.eids) => (h.tiles hk).sub he
  have hF := linear_on (fun _ => 3) (B := 3) (M := 0) (fun _ _ => by norm_num) le_rfl
  exact ⟨m, K, h, hK, C119_exact h.reach h.good.proper h.good.planar hK (exUniform_on.smooth hs) h.lam (hF.smooth hs) (hF.smooth hs) (h.nodal _) (h.nodal _)⟩

/-- the shear part and the geometric stiffness on the same grids -/
example {k : ℕ} (hk : 0 < k) (pn : Bool) : ∃ m K K' K'' G, AfterK0 m ∧ addK0s K m pn "cell-based-no-smoothing" (1 / 10) false = (K', none) ∧ addK0s K m pn "cell-based" (1 / 10) false = (K'', none) ∧
    calcKG m (gridList k fun _ x => x.1 * x.2) pn = .ok G ∧
    |form K.dim (fun i j => K'.get i j - K.get i j) (gridVals k fun _ x => x.1 * x.2) (gridVals k fun _ x => x.1 * x.2) -
      contShear m (fun _ => exVar) (fun _ x => x.1 * x.2) (fun _ x => x.2) (fun _ x => x.1) (fun _ x => x.1 * x.2) (fun _ x => x.2) (fun _ x => x.1)| ≤
        2 * (2 ^ 2 * (4 * (1 + 1) * 4 * (√2 / k)) * (4 * 1 + 4 * (1 + 1) * 4 * (√2 / k)) + 4 * 1 ^ 2 * (1 / 10 * (√2 / k) ^ 2 / 1 ^ 2 * 2 ^ 2 + 2 * 2 * 1 * (√2 / k))) * totalArea m ∧
    |form G.dim G.get (gridVals k fun _ x => x.1 * x.2) (gridVals k fun _ x => x.1 * x.2) -
      contGeometric m (fun _ => exVar) (fun _ x => x.2) (fun _ x => x.1) (fun _ x => x.2) (fun _ x => x.1) (fun _ x => x.2) (fun _ x => x.1)| ≤
        72 * (2 * ((2 * 4 + 1) * 1 * (√2 / k)) * ((2 * 1 + (2 * 4 + 1) * 1 * (√2 / k)) * (1 + (2 * 4 + 1) * 1 * (√2 / k)) + 1 ^ 2) + 2 * 1 ^ 3 * 1 * (√2 / k)) * totalArea m := by
  obtain ⟨m, h⟩ := gridMesh_exists hk exVar_stiff pn
  obtain ⟨K, _, hK, _, hG⟩ := h.made (Or.inl rfl) 0 false
  have hs := fun e (he : e ∈ m.eids) => (h.tiles hk).sub he
  obtain ⟨ss, _, _, _⟩ := calcK0_ok h.reach.wf hK
  have hA : AfterK0 (calcK0 m pn).1 := .intro m h.reach pn K hK [] (by simp)
  have hlen : (gridList k fun _ x => x.1 * x.2).length = 5 * m.nids.length := by rw [gridList_length, h.count]
  have hlen' : (gridList k fun _ x => x.1 * x.2).length = 5 * (calcK0 m pn).1.nids.length := by rw [hlen, ss.nids]
  obtain ⟨G, hG⟩ := hG _ hlen
  have ht : ThickAtLeast m (fun _ => exVar) 1 := fun _ _ _ _ => le_rfl
  have hd : (Mat.zeros (5 * m.nids.length)).dim = 5 * (calcK0 m pn).1.nids.length := by rw [ss.nids]; rfl
  obtain ⟨K', h1, _, h2⟩ := C120_whole (K := Mat.zeros (5 * m.nids.length)) hA.numbered (ss.flatMesh h.good.planar) (ss.shape h.shape) (ss.size fun e he => h.len he) zero_le_one
    (ss.smoothLam (exVar_on.smooth hs)) (ss.assigned h.lam) one_pos (ss.thickAtLeast ht) (al := 1 / 10) (by norm_num) false hd zero_le_one (ss.smoothField (bilinear_on.smooth hs))
    (ss.smoothField (bilinear_on.smooth hs)) (ss.nodal (h.nodal _)) (ss.nodal (h.nodal _))
  obtain ⟨K'', h3, _, _⟩ := C120_cell (K := Mat.zeros (5 * m.nids.length)) hA.numbered (ss.flatMesh h.good.planar) (ss.shape h.shape) (ss.size fun e he => h.len he) zero_le_one
    (ss.smoothLam (exVar_on.smooth hs)) (ss.assigned h.lam) one_pos (ss.thickAtLeast ht) (al := 1 / 10) (by norm_num) false hd zero_le_one (ss.smoothField (bilinear_on.smooth hs))
    (ss.smoothField (bilinear_on.smooth hs)) (ss.nodal (h.nodal _)) (ss.nodal (h.nodal _))
  exact ⟨_, _, K', K'', G, hA, h1, h3, hG, h2, C121_kG hA (ss.proper h.good.proper) (ss.planar h.good.planar) hlen' hG (ss.shape h.shape) (ss.size fun e he => h.len he) zero_le_one
    (ss.smoothLam (exVar_on.smooth hs)) (ss.assigned h.lam) zero_le_one (ss.smoothField (bilinear_on.smooth hs)) (ss.smoothField (bilinear_on.smooth hs)) (ss.smoothField (bilinear_on.smooth hs))
    (ss.nodal (h.nodal_list _)) (ss.nodal (h.nodal _)) (ss.nodal (h.nodal _))⟩

/-- refining the grids of the square whose stiffness varies -/
example (pn : Bool) : ∃ (m : ℕ → Mesh) (K G : ℕ → Mat), (∀ n, GridMesh (n + 1) exVar pn (m n)) ∧ (∀ n, Stiffness (m n) pn "cell-based-no-smoothing" (1 / 10) false (K n)) ∧
    (∀ n, calcKG (calcK0 (m n) pn).1 (gridList (n + 1) fun _ x => x.1 * x.2) pn = .ok (G n)) ∧
    Tendsto (fun n => form (K n).dim (K n).get (gridVals (n + 1) fun _ x => x.1 * x.2) (gridVals (n + 1) fun _ x => x.1 * x.2)) atTop (nhds
      (plateEnergy unitSquare exVar (fun _ x => x.2) (fun _ x => x.1) (fun _ x => x.2) (fun _ x => x.1) +
        plateShear unitSquare exVar (fun _ x => x.1 * x.2) (fun _ x => x.2) (fun _ x => x.1) (fun _ x => x.1 * x.2) (fun _ x => x.2) (fun _ x => x.1))) ∧
    Tendsto (fun n => form (G n).dim (G n).get (gridVals (n + 1) fun _ x => x.1 * x.2) (gridVals (n + 1) fun _ x => x.1 * x.2)) atTop (nhds
      (plateGeometric unitSquare exVar (fun _ x => x.2) (fun _ x => x.1) (fun _ x => x.2) (fun _ x => x.1) (fun _ x => x.2) (fun _ x => x.1))) := by
  choose m h using fun n => gridMesh_exists (Nat.succ_pos n) exVar_stiff pn
  choose K0 K hK0 hK hG using fun n => (h n).made (Or.inr rfl) (1 / 10) false
  have hl : ∀ n, (gridList (n + 1) fun _ x => x.1 * x.2).length = 5 * (m n).nids.length := fun n => by rw [gridList_length, (h n).count]
  choose G hG using fun n => hG n (gridList (n + 1) fun _ x => x.1 * x.2) (hl n)
  exact ⟨m, K, G, h, hK, hG, C122_stiffness (fun n => (h n).reach) (grid_refined h) zero_le_one exVar_on one_pos (fun _ _ => le_rfl) (by norm_num) zero_le_one bilinear_on bilinear_on hK
    (fun n => (h n).nodal _) (fun n => (h n).nodal _),
    C122_kG (fun n => (h n).reach) (grid_refined h) zero_le_one exVar_on zero_le_one bilinear_on bilinear_on bilinear_on hK0 hl hG (fun n => (h n).nodal_list _) (fun n => (h n).nodal _)
      (fun n => (h n).nodal _)⟩

end Meshless
