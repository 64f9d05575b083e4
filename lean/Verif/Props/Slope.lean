import Verif.Lemmas.Slope
import Verif.Props.Navier
import Verif.Props.Condition
import Verif.Props.Prestress

/-! Buckling factors are bounded below, whatever the mesh. -/

set_option autoImplicit false

namespace Meshless
open Spec Finset MeasureTheory Filter Topology Real

/-- C146: the slopes of every supported displacement are bounded by its energy; the constant depends on bounds for shape and size of triangles, stiffness of the
laminates and the constant of the supports, not on the mesh -/
theorem C146_slopes {s L0 L1 c g tau H al κ : ℝ} (hs0 : 0 ≤ s) (hc : 0 < c) (hg0 : 0 < g) (htau : 0 < tau) (hal : 0 ≤ al) (hκ : 0 ≤ κ) :
    ∃ C : ℝ, 0 ≤ C ∧ ∀ (m : Mesh) (pn : Bool) (l : ℝ × ℝ → Lam), Reachable m → SmoothPlate m pn l s L0 L1 c g tau → 0 ≤ H → Size m H →
      ∀ (method : String) (fa : Bool) (S : Set ℕ) (K : Mat) (v : ℕ → ℝ), RotHeld m S κ → Stiffness m pn method al fa K → Supported K.dim S v → slopeSize m v ≤ C * form K.dim K.get v v := by
  obtain ⟨E, hE⟩ : ∃ E, E = 1 + 48 * (3 * s * |H| + 1) ^ 2 := ⟨_, rfl⟩
  have hE0 : 0 ≤ E := by rw [hE]; positivity
  refine ⟨E * κ * (81 * s ^ 4 / c) + 3 * ((tau ^ 2 + al * H ^ 2) / (tau ^ 2 * g ^ 2)), by positivity, fun m pn l hr hsp hH0 hH method fa S K v hrot hK hv => ?_⟩
  have w := hr.wf
  have hg := hsp.good
  obtain ⟨hdim, hhp, hform⟩ := stiffness_split hr hg hK
  have hv' : ∀ i < 5 * m.nids.length, i ∈ S → v i = 0 := fun i hi hS => hv i (hdim ▸ hi) hS
  have s1 := strainSize_energy w hg.proper hg.planar hhp hc.le hsp.stiff hsp.shape v
  have s2 := gammaSize_le (fun t ht r => shearMod_least w hhp hg0.le htau hal hsp.shear hsp.assigned hsp.thick hH fa ht r) method v
  have s3 := hrot v hv'
  obtain ⟨p1, p2, p3⟩ := size_of_pos (m := m) (v := v)
  have p2 := p2 method
  have s4 : strainSize m v ≤ 81 * s ^ 4 / c * energy m pn v v := by
    rw [div_mul_eq_mul_div, le_div_iff₀ hc]; linarith
  have hb : 0 < tau ^ 2 / (tau ^ 2 + al * H ^ 2) * g ^ 2 := by positivity
  have s5 : gammaSize m method v ≤ (tau ^ 2 + al * H ^ 2) / (tau ^ 2 * g ^ 2) * shearEnergy m pn al fa (methodGamma m method) v v := by
    have : gammaSize m method v ≤ shearEnergy m pn al fa (methodGamma m method) v v / (tau ^ 2 / (tau ^ 2 + al * H ^ 2) * g ^ 2) := by
      rw [le_div_iff₀ hb]; linarith
    refine this.trans (le_of_eq ?_)
    field_simp
  have en : 0 ≤ energy m pn v v := (energy_zero_eps w hg.proper hg.planar hhp hg.abd).1
  have sn : 0 ≤ shearEnergy m pn al fa (methodGamma m method) v v := (mul_nonneg hb.le p2).trans s2
  obtain ⟨l0, l1⟩ := litErr_nonneg method
  have b1 : 1 + 48 * (3 * s * H + litErr method) ^ 2 ≤ E := by
    rw [hE]
    have : 3 * s * H ≤ 3 * s * |H| := mul_le_mul_of_nonneg_left (le_abs_self H) (by positivity)
    have := pow_le_pow_left₀ (by positivity : 0 ≤ 3 * s * H + litErr method) (add_le_add this l1) 2
    linarith
  have b2 := mul_le_mul_of_nonneg_right b1 p3
  have b3 := mul_le_mul_of_nonneg_left (s3.trans (mul_le_mul_of_nonneg_left s4 hκ)) hE0
  have b4 := slopeSize_le w hg.proper hg.planar hsp.shape hH method v
  have t1 : 0 ≤ E * κ * (81 * s ^ 4 / c) * shearEnergy m pn al fa (methodGamma m method) v v := by positivity
  have t2 : 0 ≤ (tau ^ 2 + al * H ^ 2) / (tau ^ 2 * g ^ 2) * energy m pn v v := by positivity
  rw [hform]
  linarith

section
variable {m : Mesh} (hr : Reachable m) {pn : Bool} (hg : GoodPlate m pn) {method : String} {al : ℝ} {fa : Bool} {K G : Mat} (hK : Stiffness m pn method al fa K)
  {d : List ℝ} (hd : d.length = 5 * m.nids.length) (hG : calcKG (calcK0 m pn).1 d pn = .ok G)
include hr hg hK hd hG

/-- C146: the energy a pre-stress takes from the plate is at most its largest compression times the slopes -/
theorem C146_geometric {N : ℝ} (hN : 0 ≤ N) (hc : CompressionAtMost m pn (vec d) N) (v : ℕ → ℝ) : -(N * slopeSize m v) ≤ form K.dim G.get v v := by
  obtain ⟨hdim, K0, hK0, _, _⟩ := stiffness_energy hr hg hK
  obtain ⟨hs, _, hh, _⟩ := calcK0_ok hr.wf hK0
  have haf : AfterK0 (calcK0 m pn).1 := .intro m hr pn K0 hK0 [] (by simp)
  have hlen : d.length = 5 * (calcK0 m pn).1.nids.length := by rw [hs.nids]; exact hd
  have hform := C29_energy haf (hs.proper hg.proper) (hs.planar hg.planar) (hs.hasProps hh) hlen hG v v
  have hGd : G.dim = K.dim := by rw [(calcKG_sum hG).1, hdim]; omega
  rw [hGd] at hform
  rw [hform, hs.sgeometric]
  exact geometric_least hr.wf hg.proper hg.planar hN hc v

/-- C146: a bound `C` of the slopes by the energy bounds the buckling factors: each positive one is at least `1 / (N C)` -/
theorem C146_bound {S : Set ℕ} (hS : Stable K S) {N C : ℝ} (hN : 0 ≤ N) (hc : CompressionAtMost m pn (vec d) N)
    (hC : ∀ v, Supported K.dim S v → slopeSize m v ≤ C * form K.dim K.get v v) {b : ℝ} {x : ℕ → ℝ} (hb : 0 < b) (hx : BucklingMode K G S b x) : 1 ≤ b * N * C := by
  have h1 := mode_form hx hx.2.1
  have h2 := hS x hx.2.1 hx.1
  have h3 := C146_geometric hr hg hK hd hG hN hc x
  have h4 := mul_le_mul_of_nonneg_left (hC x hx.2.1) hN
  have h5 := mul_le_mul_of_nonneg_left (h4.trans' (neg_le.1 h3)) hb.le
  refine le_of_mul_le_mul_right ?_ h2
  linarith

end

/-- C146: the loaded plate is stable as long as the largest compression is below `1 / C`, and buckling factors are at least `1 / (N C)`, whatever the mesh -/
theorem C146_factor {s L0 L1 c g tau H al κ : ℝ} (hs0 : 0 ≤ s) (hc : 0 < c) (hg0 : 0 < g) (htau : 0 < tau) (hal : 0 ≤ al) (hκ : 0 ≤ κ) :
    ∃ C : ℝ, 0 ≤ C ∧ ∀ (m : Mesh) (pn : Bool) (l : ℝ × ℝ → Lam), Reachable m → SmoothPlate m pn l s L0 L1 c g tau → 0 ≤ H → Size m H →
      ∀ (method : String) (fa : Bool) (S : Set ℕ) (K G : Mat) (d : List ℝ) (N : ℝ), RotHeld m S κ → Stiffness m pn method al fa K → Stable K S → d.length = 5 * m.nids.length →
      calcKG (calcK0 m pn).1 d pn = .ok G → 0 ≤ N → CompressionAtMost m pn (vec d) N →
      (∀ b x, 0 < b → BucklingMode K G S b x → 1 ≤ b * N * C) ∧
      ∀ t, 0 ≤ t → t * N * C < 1 → ∀ v, Supported K.dim S v → (∃ i < K.dim, v i ≠ 0) → 0 < form K.dim (fun i j => K.get i j + t * G.get i j) v v := by
  obtain ⟨C, hC0, hC⟩ := C146_slopes (L0 := L0) (L1 := L1) (H := H) hs0 hc hg0 htau hal hκ
  refine ⟨C, hC0, fun m pn l hr hsp hH0 hH method fa S K G d N hrot hK hS hd hG hN hcm => ?_⟩
  have hs := fun v => hC m pn l hr hsp hH0 hH method fa S K v hrot hK
  refine ⟨fun b x hb hx => C146_bound hr hsp.good hK hd hG hS hN hcm hs hb hx, fun t ht htC v hv hv0 => ?_⟩
  rw [form_one_add]
  have h2 := hS v hv hv0
  have h3 := C146_geometric hr hsp.good hK hd hG hN hcm v
  have h4 := mul_le_mul_of_nonneg_left (mul_le_mul_of_nonneg_left (hs v hv) hN) ht
  have h5 := mul_le_mul_of_nonneg_left h3 ht
  have h6 := mul_lt_mul_of_pos_right htC h2
  linarith

/-- C146: the compression of the nodal values of a smooth field is bounded whatever the mesh -/
theorem C146_compression {m : Mesh} (hr : Reachable m) {pn : Bool} {l : ℝ × ℝ → Lam} {s L0 L1 c g tau H S M : ℝ} (hsp : SmoothPlate m pn l s L0 L1 c g tau) (hH0 : 0 ≤ H) (hH : Size m H)
    (hs0 : 0 ≤ s) (hL0 : 0 ≤ L0) (hL1 : 0 ≤ L1) (hS : 0 ≤ S) (hM : 0 ≤ M) {D Dx Dy : ℕ → ℝ × ℝ → ℝ} (hD : SmoothField m D Dx Dy S M) {d : ℕ → ℝ} (hd : Nodal m D d) :
    CompressionAtMost m pn d (24 * (L0 * (S + (2 * s + 1) * M * H))) :=
  smooth_compression hr.wf hsp.good.proper hsp.good.planar hsp.shape hH hL1 hsp.lam hsp.assigned hM hD hd hL0 hS hs0 hH0

section
variable {Om : Set (ℝ × ℝ)} {l : ℝ × ℝ → Lam} {pn : Bool} {s : ℝ} {m : ℕ → Mesh} {L0 L1 c g tau : ℝ} {D Dx Dy F Fx Fy : ℕ → ℝ × ℝ → ℝ} {B M : ℝ}

/-- C146: refining the mesh, the first buckling factor stays in an interval `[β, q + ε]` with `β > 0`: it neither vanishes nor exceeds the quotient `q` of the plate
theory for any smooth field `F` compatible with the supports -/
theorem C146_bracket (hr : ∀ n, Reachable (m n)) (hg : ∀ n, GoodPlate (m n) pn) (hR : Refined Om l pn s m) (hs0 : 0 ≤ s) (hL0 : 0 ≤ L0) (hL1 : 0 ≤ L1) (hl : LamOn Om l L0 L1) (hc0 : 0 < c) (hg0 : 0 < g)
    (htau : 0 < tau) (hc : ∀ x ∈ Om, AtLeast c (l x)) (hsh : ∀ x ∈ Om, ShearAtLeast g (l x)) (ht : ∀ x ∈ Om, tau ≤ (l x).h) {al : ℝ} (hal : 0 ≤ al) {fa : Bool}
    (hB : 0 ≤ B) (hM : 0 ≤ M) (hD : FieldOn Om D Dx Dy B M) (hF : FieldOn Om F Fx Fy B M) {K G : ℕ → Mat} (hK : ∀ n, Stiffness (m n) pn "cell-based-no-smoothing" al fa (K n))
    {d : ℕ → List ℝ} (hd : ∀ n, (d n).length = 5 * (m n).nids.length) (hG : ∀ n, calcKG (calcK0 (m n) pn).1 (d n) pn = .ok (G n)) {S : ℕ → Set ℕ} {R : ℝ} (hS : ∀ n, Guided (m n) (S n) R)
    {v : ℕ → ℕ → ℝ} (hdD : ∀ n, Nodal (m n) D (vec (d n))) (hv : ∀ n, Nodal (m n) F (v n)) (hvS : ∀ n, Supported (K n).dim (S n) (v n))
    (hneg : plateGeometric Om l Dx Dy Fx Fy Fx Fy < 0) : ∃ β > 0, ∀ ε > 0, ∀ᶠ n in atTop, ∃ b, β ≤ b ∧ (∃ x, BucklingMode (K n) (G n) (S n) b x) ∧
      (∀ b' x, 0 < b' → BucklingMode (K n) (G n) (S n) b' x → b ≤ b') ∧
      b ≤ (plateEnergy Om l Fx Fy Fx Fy + plateShear Om l F Fx Fy F Fx Fy) / -plateGeometric Om l Dx Dy Fx Fy Fx Fy + ε := by
  obtain ⟨h, hh, h0⟩ := hR.size
  obtain ⟨C, hC0, hC⟩ := C146_factor (s := s) (L0 := L0) (L1 := L1) (c := c) (g := g) (tau := tau) (H := 1) (al := al) (κ := 2 + 96 * R ^ 2) hs0 hc0 hg0 htau hal (by positivity)
  obtain ⟨N, hN⟩ : ∃ N, N = 24 * (L0 * (B + (2 * s + 1) * M * 1)) := ⟨_, rfl⟩
  have hN0 : 0 ≤ N := by rw [hN]; positivity
  have hst := fun n => C143_stable (hr n) (hg n) (hS n) hal (hK n)
  refine ⟨1 / (N * C + 1), by positivity, fun ε hε => ?_⟩
  have := h0.abs
  rw [abs_zero] at this
  filter_upwards [this.eventually_le_const zero_lt_one, C124_factor hr hg hR hL1 hl htau ht hal hM hD hF hK hd hG hst hdD hv hvS hneg hε] with n hn ⟨b, b1, ⟨x, b2⟩, b3, b4⟩
  have hsp := refined_smooth hg hR hl hc hsh ht n
  have hsz : Size (m n) 1 := fun e he => ((hh n e he).trans (le_abs_self _)).trans hn
  have hsub := fun e (he : e ∈ (m n).eids) => (hR.tiles n).sub he
  have hcm := C146_compression (hr n) hsp zero_le_one hsz hs0 hL0 hL1 hB hM (hD.smooth hsub) (hdD n)
  rw [← hN] at hcm
  have key := (hC (m n) pn l (hr n) hsp zero_le_one hsz _ fa (S n) (K n) (G n) (d n) N (guided_rotHeld (hr n).wf hsp.good.proper hsp.good.planar (hS n).rotGuided) (hK n) (hst n) (hd n) (hG n) hN0 hcm).1 b x b1 b2
  refine ⟨b, ?_, ⟨x, b2⟩, b3, b4⟩
  rw [div_le_iff₀ (by positivity)]
  linarith

end

/-! ### concrete case: the hinged unit square pushed together along `x` -/

theorem push_geometric (x : ℝ × ℝ) : navierX 2 x * contMembrane exIso (fun r _ => if r = 0 then -1 else 0) (fun _ _ => 0) x 0 * navierX 2 x +
    navierX 2 x * contMembrane exIso (fun r _ => if r = 0 then -1 else 0) (fun _ _ => 0) x 2 * navierY 2 x + navierY 2 x * contMembrane exIso (fun r _ => if r = 0 then -1 else 0) (fun _ _ => 0) x 2 * navierX 2 x +
    navierY 2 x * contMembrane exIso (fun r _ => if r = 0 then -1 else 0) (fun _ _ => 0) x 1 * navierY 2 x = -navierX 2 x ^ 2 := by
  simp [contMembrane, exIso, exLam, strain]
  ring

theorem push_neg : plateGeometric unitSquare (fun _ => exIso) (fun r _ => if r = 0 then -1 else 0) (fun _ _ => 0) navierX navierY navierX navierY < 0 := by
  unfold plateGeometric
  simp only [push_geometric]
  rw [integral_neg, neg_lt_zero]
  have hcO : IsCompact unitSquare := isCompact_Icc.prod isCompact_Icc
  have hc : Continuous (navierX 2) := by
    unfold navierX wave
    fun_prop
  rw [setIntegral_pos_iff_support_of_nonneg_ae (Eventually.of_forall fun x => sq_nonneg _) ((hc.pow 2).continuousOn.integrableOn_compact hcO)]
  have hin : ((1 / 4, 1 / 2) : ℝ × ℝ) ∈ interior unitSquare := by
    unfold unitSquare
    rw [interior_prod_eq, interior_Icc]
    constructor <;> constructor <;> norm_num
  have h0 : navierX 2 (1 / 4, 1 / 2) ≠ 0 := by
    have hpi := Real.pi_pos
    have : π * (1 / 4) + ((0 + 1 : ℕ) : ℝ) * (π / 2) = π - π / 4 := by push_cast; ring
    unfold navierX navierAmp wave
    simp only [if_true, Nat.reduceEqDiff, if_false, Nat.cast_zero, zero_mul, add_zero]
    rw [this, Real.sin_pi_sub, Real.sin_pi_div_four, mul_one_div, Real.sin_pi_div_two]
    positivity
  have ev : ∀ᶠ x in nhds ((1 / 4, 1 / 2) : ℝ × ℝ), navierX 2 x ≠ 0 ∧ x ∈ unitSquare := (hc.continuousAt.eventually_ne h0).and (mem_interior_iff_mem_nhds.1 hin)
  refine Measure.measure_pos_of_mem_nhds _ (x := ((1 / 4, 1 / 2) : ℝ × ℝ)) (ev.mono fun x hx => ⟨?_, hx.2⟩)
  exact pow_ne_zero 2 hx.1

/-- The hinged unit square pushed together along `x`, on grids of `n + 1` by `n + 1` squares: fine grids have a first buckling factor, and it stays between
a positive bound and a finite one. -/
example (pn : Bool) : ∃ (m : ℕ → Mesh) (K G : ℕ → Mat) (β q : ℝ), 0 < β ∧ (∀ n, GridMesh (n + 1) (fun _ => exIso) pn (m n)) ∧
    (∀ n, Stiffness (m n) pn "cell-based-no-smoothing" (1 / 10) false (K n)) ∧
    (∀ n, calcKG (calcK0 (m n) pn).1 (gridList (n + 1) fun r x => (if r = 0 then -1 else 0) * x.1) pn = .ok (G n)) ∧
    ∀ᶠ n in atTop, ∃ b, β ≤ b ∧ b ≤ q ∧ (∃ x, BucklingMode (K n) (G n) (gridHinge (n + 1)) b x) ∧ ∀ b' x, 0 < b' → BucklingMode (K n) (G n) (gridHinge (n + 1)) b' x → b ≤ b' := by
  choose m h using fun n => gridMesh_exists (Nat.succ_pos n) (fun _ => exLam_stiff one_pos one_pos one_pos one_pos) pn
  choose K0 K hK0 hK hG using fun n => (h n).made (Or.inr rfl) (1 / 10) false
  have hl : ∀ n, (gridList (n + 1) fun r x => (if r = 0 then -1 else 0) * x.1).length = 5 * (m n).nids.length := fun n => by rw [gridList_length, (h n).count]
  choose G hG using fun n => hG n _ (hl n)
  have hc : ∀ x ∈ unitSquare, AtLeast 1 ((fun _ => exIso : ℝ × ℝ → Lam) x) := fun _ _ => exLam_least le_rfl le_rfl
  have hsh : ∀ x ∈ unitSquare, ShearAtLeast 1 ((fun _ => exIso : ℝ × ℝ → Lam) x) := fun _ _ => exIso_shearLeast
  have hth : ∀ x ∈ unitSquare, 1 ≤ ((fun _ => exIso : ℝ × ℝ → Lam) x).h := fun _ _ => le_rfl
  have hpi := Real.two_le_pi
  have hD := linear_on (fun r => if r = 0 then -1 else 0) (B := (1 + 3 * π ^ 2) * π) (M := (1 + 3 * π ^ 2) * π * (2 * π)) (fun r _ => by
    have : 1 ≤ (1 + 3 * π ^ 2) * π := one_le_mul_of_one_le_of_one_le (by nlinarith) (by linarith)
    split
    · simpa using this
    · simpa using by linarith) (by positivity)
  obtain ⟨β, hβ, hb⟩ := C146_bracket (fun n => (h n).reach) (fun n => (h n).good) (grid_refined h) (by norm_num) zero_le_one le_rfl exUniform_on one_pos one_pos one_pos hc hsh hth (by norm_num) (by positivity)
    (by positivity) hD navier_on hK hl hG (fun n => (h n).guided (Nat.succ_pos n)) (fun n => (h n).nodal_list _) (fun n => (h n).nodal navier) (fun n => navier_supported (Nat.succ_pos n) _) push_neg
  refine ⟨m, K, G, β, (plateEnergy unitSquare (fun _ => exIso) navierX navierY navierX navierY + plateShear unitSquare (fun _ => exIso) navier navierX navierY navier navierX navierY) /
    -plateGeometric unitSquare (fun _ => exIso) (fun r _ => if r = 0 then -1 else 0) (fun _ _ => 0) navierX navierY navierX navierY + 1, hβ, h, hK, hG, ?_⟩
  filter_upwards [hb 1 one_pos] with n ⟨b, b1, b2, b3, b4⟩
  exact ⟨b, b1, b4, b2, b3⟩

end Meshless
