import Verif.Props.Consist

/-! C123 and C124: what refining the mesh does to static analyses and to buckling loads. -/

set_option autoImplicit false

namespace Meshless
open Spec Finset MeasureTheory Filter

theorem form_load {K : Mat} {S : Set ℕ} {f d v : ℕ → ℝ} (hd : StaticSol K S f d) (hv : Supported K.dim S v) : form K.dim K.get v d = ∑ i ∈ range K.dim, f i * v i := by
  unfold form
  refine sum_congr rfl fun i hi => ?_
  have hi := mem_range.1 hi
  by_cases h : i ∈ S
  · simp [hv i hi h]
  · rw [← hd.2 i hi h, sum_mul]
    exact sum_congr rfl fun j _ => by ring

/-- the work of the loads on the solution is at least that on any supported displacement, less the strain energy of the latter -/
theorem work_bound {K : Mat} (hsym : ∀ i < K.dim, ∀ j < K.dim, K.get i j = K.get j i) (hpos : ∀ d, 0 ≤ form K.dim K.get d d) {S : Set ℕ} {f d v : ℕ → ℝ} (hd : StaticSol K S f d)
    (hv : Supported K.dim S v) : 2 * ∑ i ∈ range K.dim, f i * v i - form K.dim K.get v v ≤ ∑ i ∈ range K.dim, f i * d i := by
  have h1 := form_load hd hv
  have h2 := form_load hd hd.1
  have h3 := hpos fun i => v i - d i
  have e : form K.dim K.get (fun i => v i - d i) (fun i => v i - d i) = form K.dim K.get v v - form K.dim K.get v d - form K.dim K.get d v + form K.dim K.get d d := by
    unfold form
    rw [← sum_sub_distrib, ← sum_sub_distrib, ← sum_add_distrib]
    refine sum_congr rfl fun i _ => ?_
    rw [← sum_sub_distrib, ← sum_sub_distrib, ← sum_add_distrib]
    exact sum_congr rfl fun j _ => by ring
  have hs : form K.dim K.get d v = form K.dim K.get v d := by
    unfold form
    rw [sum_comm]
    refine sum_congr rfl fun i hi => sum_congr rfl fun j hj => ?_
    rw [hsym j (mem_range.1 hj) i (mem_range.1 hi)]; ring
  rw [e, hs, h1, h2] at h3
  linarith

section
variable {Om : Set (ℝ × ℝ)} {l : ℝ × ℝ → Lam} {pn : Bool} {s : ℝ} {m : ℕ → Mesh} {L0 L1 : ℝ} {D Dx Dy F Fx Fy : ℕ → ℝ × ℝ → ℝ} {B M : ℝ}

/-- C123: refining the mesh, the work of the loads in the static analyses does not stay below that of the plate theory: for every smooth field `F` compatible
with the supports it is in the limit at least twice the work `W` of the loads on `F` less the strain energy of `F`. The right side is largest for the solution
of the plate theory, where it is the work of the loads. -/
theorem C123_work (hr : ∀ n, Reachable (m n)) (hg : ∀ n, GoodPlate (m n) pn) (hR : Refined Om l pn s m) (hL1 : 0 ≤ L1) (hl : LamOn Om l L0 L1) {tau al : ℝ} (htau : 0 < tau)
    (ht : ∀ x ∈ Om, tau ≤ (l x).h) (hal : 0 ≤ al) {fa : Bool} (hM : 0 ≤ M) (hF : FieldOn Om F Fx Fy B M) {K : ℕ → Mat}
    (hK : ∀ n, Stiffness (m n) pn "cell-based-no-smoothing" al fa (K n)) {S : ℕ → Set ℕ} {f d v : ℕ → ℕ → ℝ} (hd : ∀ n, StaticSol (K n) (S n) (f n) (d n)) (hv : ∀ n, Nodal (m n) F (v n))
    (hvS : ∀ n, Supported (K n).dim (S n) (v n)) {W : ℝ} (hW : Tendsto (fun n => ∑ i ∈ range (K n).dim, f n i * v n i) atTop (nhds W)) {ε : ℝ} (hε : 0 < ε) :
    ∀ᶠ n in atTop, 2 * W - (plateEnergy Om l Fx Fy Fx Fy + plateShear Om l F Fx Fy F Fx Fy) - ε ≤ ∑ i ∈ range (K n).dim, f n i * d n i := by
  have t := (hW.const_mul 2).sub (C122_stiffness hr hR hL1 hl htau ht hal hM hF hF hK hv hv)
  filter_upwards [t.eventually_const_lt (show 2 * W - (plateEnergy Om l Fx Fy Fx Fy + plateShear Om l F Fx Fy F Fx Fy) - ε < _ by linarith)] with n hn
  exact hn.le.trans (work_bound (C78_symmetric (hr n) (hg n) (hK n)) (fun d => (modes_total (hr n) (hg n) hal (hK n) (d := d)).1) (hd n) (hvS n))

/-- C123: the same with the default method "cell-based", up to the effect of the literal `0.166666666666667` -/
theorem C123_cell (hr : ∀ n, Reachable (m n)) (hg : ∀ n, GoodPlate (m n) pn) (hR : Refined Om l pn s m) (hL1 : 0 ≤ L1) (hl : LamOn Om l L0 L1) {tau al : ℝ} (htau : 0 < tau)
    (ht : ∀ x ∈ Om, tau ≤ (l x).h) (hal : 0 ≤ al) {fa : Bool} (hM : 0 ≤ M) (hF : FieldOn Om F Fx Fy B M) {K : ℕ → Mat}
    (hK : ∀ n, Stiffness (m n) pn "cell-based" al fa (K n)) {S : ℕ → Set ℕ} {f d v : ℕ → ℕ → ℝ} (hd : ∀ n, StaticSol (K n) (S n) (f n) (d n)) (hv : ∀ n, Nodal (m n) F (v n))
    (hvS : ∀ n, Supported (K n).dim (S n) (v n)) {W : ℝ} (hW : Tendsto (fun n => ∑ i ∈ range (K n).dim, f n i * v n i) atTop (nhds W)) {ε : ℝ} (hε : 0 < ε) :
    ∀ᶠ n in atTop, 2 * W - (plateEnergy Om l Fx Fy Fx Fy + plateShear Om l F Fx Fy F Fx Fy) - volume.real Om * L0 ^ 2 * B ^ 2 / 10 ^ 14 - ε ≤ ∑ i ∈ range (K n).dim, f n i * d n i := by
  filter_upwards [(hW.const_mul 2).eventually_const_lt (show 2 * W - ε / 2 < _ by linarith), C122_cell hr hR hL1 hl htau ht hal hM hF hF hK hv hv (half_pos hε)] with n h1 h2
  have := work_bound (C78_symmetric (hr n) (hg n) (hK n)) (fun d => (modes_total (hr n) (hg n) hal (hK n) (d := d)).1) (hd n) (hvS n)
  linarith [(abs_le.1 h2).2]

/-- C124: refining the mesh, the first buckling factor for the pre-stress of a field `D` does not stay above that of the plate theory: for every smooth field
`F` compatible with the supports on which the pre-stress does negative work, fine meshes have a first buckling factor, and it is in the limit at most the
quotient of the energies of `F` -/
theorem C124_factor (hr : ∀ n, Reachable (m n)) (hg : ∀ n, GoodPlate (m n) pn) (hR : Refined Om l pn s m) (hL1 : 0 ≤ L1) (hl : LamOn Om l L0 L1) {tau al : ℝ} (htau : 0 < tau)
    (ht : ∀ x ∈ Om, tau ≤ (l x).h) (hal : 0 ≤ al) {fa : Bool} (hM : 0 ≤ M) (hD : FieldOn Om D Dx Dy B M) (hF : FieldOn Om F Fx Fy B M) {K G : ℕ → Mat}
    (hK : ∀ n, Stiffness (m n) pn "cell-based-no-smoothing" al fa (K n)) {d : ℕ → List ℝ} (hd : ∀ n, (d n).length = 5 * (m n).nids.length)
    (hG : ∀ n, calcKG (calcK0 (m n) pn).1 (d n) pn = .ok (G n)) {S : ℕ → Set ℕ} (hS : ∀ n, Stable (K n) (S n)) {v : ℕ → ℕ → ℝ} (hdD : ∀ n, Nodal (m n) D (vec (d n)))
    (hv : ∀ n, Nodal (m n) F (v n)) (hvS : ∀ n, Supported (K n).dim (S n) (v n)) (hneg : plateGeometric Om l Dx Dy Fx Fy Fx Fy < 0) {ε : ℝ} (hε : 0 < ε) :
    ∀ᶠ n in atTop, ∃ c, 0 < c ∧ (∃ x, BucklingMode (K n) (G n) (S n) c x) ∧ (∀ c' x, 0 < c' → BucklingMode (K n) (G n) (S n) c' x → c ≤ c') ∧
      c ≤ (plateEnergy Om l Fx Fy Fx Fy + plateShear Om l F Fx Fy F Fx Fy) / -plateGeometric Om l Dx Dy Fx Fy Fx Fy + ε := by
  choose K0 hK0 hadd using fun n => (hK n).made
  have t1 := C122_stiffness hr hR hL1 hl htau ht hal hM hF hF hK hv hv
  have t2 := C122_kG hr hR hL1 hl hM hD hF hF hK0 hd hG hdD hv hv
  have t3 := t1.div t2.neg (by linarith : -plateGeometric Om l Dx Dy Fx Fy Fx Fy ≠ 0)
  have hdim : ∀ n, (G n).dim = (K n).dim := fun n => by
    rw [(calcKG_sum (hG n)).1, (stiffness_energy (hr n) (hg n) (hK n)).1, hd n]
    omega
  filter_upwards [t2.eventually_lt_const hneg, t3.eventually_lt_const (show _ < (plateEnergy Om l Fx Fy Fx Fy + plateShear Om l F Fx Fy F Fx Fy) / -plateGeometric Om l Dx Dy Fx Fy Fx Fy + ε by linarith)] with n h1 h2
  rw [hdim n] at h1
  obtain ⟨c, c1, c2, c3, c4⟩ := C86_first (hr n) (hg n) (hK n) (hS n) (hG n) (hvS n) h1
  refine ⟨c, c1, c2, c3, ?_⟩
  rw [Pi.div_apply, hdim n] at h2
  linarith

end

/-! ### concrete cases: the unit square clamped along `x = 0` -/

/-- the clamped edge -/
def gridEdge (k : ℕ) : Set ℕ := {p | p < 5 * (k + 1)}

section
variable {k : ℕ} {l : ℝ × ℝ → Lam} {pn : Bool} {m : Mesh} (h : GridMesh k l pn m)
include h

theorem GridMesh.held (hk : 0 < k) : Held m (gridEdge k) := by
  have h0 : 0 < (k + 1) * (k + 1) := by positivity
  have h1 : 1 < (k + 1) * (k + 1) := by nlinarith
  refine ⟨1, by rw [h.nids, List.mem_range'_1]; omega, 2, by rw [h.nids, List.mem_range'_1]; omega, Or.inl ⟨Or.inr ?_, fun r hr => ?_⟩⟩
  · have e0 := h.place 0 h0
    have e1 := h.place 1 h1
    have g0 := gridAt_eq (k := k) (i := 0) (j := 0) (by omega)
    have g1 := gridAt_eq (k := k) (i := 0) (j := 1) (by omega)
    simp only [zero_mul, zero_add] at g0 g1
    rw [g0] at e0
    rw [g1] at e1
    have hk' : (k : ℝ) ≠ 0 := by exact_mod_cast hk.ne'
    have f0 : ny m 1 = _ := (Prod.ext_iff.1 e0).2
    have f1 : ny m 2 = _ := (Prod.ext_iff.1 e1).2
    rw [f0, f1]
    simp [hk'.symm]
  · have i0 := h.idx h0
    have i1 := h.idx h1
    simp only [zero_add, Nat.reduceAdd] at i0 i1
    unfold dofNo gridEdge
    rw [i0, i1]
    constructor <;> simp <;> omega

theorem GridMesh.dim {method : String} {al : ℝ} {fa : Bool} {K : Mat} (hK : Stiffness m pn method al fa K) : K.dim = 5 * ((k + 1) * (k + 1)) := by
  rw [(stiffness_energy h.reach h.good hK).1, h.count]

omit h in
theorem linear_supported (a : ℕ → ℝ) (N : ℕ) : Supported N (gridEdge k) (gridVals k fun r x => a r * x.1) := by
  intro p _ hp
  have : p / 5 / (k + 1) = 0 := Nat.div_eq_of_lt (by have : p < 5 * (k + 1) := hp
                                                     omega)
  simp [gridVals, gridAt, this]

omit h in
/-- a unit force along `x` at the corner `(1, 1)` -/
theorem corner_work (hk : 0 < k) (a : ℕ → ℝ) : ∑ i ∈ range (5 * ((k + 1) * (k + 1))), (if i = 5 * (k * (k + 1) + k) then 1 else 0) * gridVals k (fun r x => a r * x.1) i = a 0 := by
  have hk' : (k : ℝ) ≠ 0 := by exact_mod_cast hk.ne'
  rw [sum_eq_single (5 * (k * (k + 1) + k))]
  · rw [if_pos rfl, one_mul]
    unfold gridVals
    rw [show 5 * (k * (k + 1) + k) % 5 = 0 by omega, show 5 * (k * (k + 1) + k) / 5 = k * (k + 1) + k by omega, gridAt_eq le_rfl]
    simp [hk']
  · intro i _ hi; rw [if_neg hi, zero_mul]
  · intro hi; exact absurd (mem_range.2 (by nlinarith)) hi

end

theorem square_const {f : ℝ × ℝ → ℝ} {c : ℝ} (hf : ∀ x, f x = c) : ∫ x in unitSquare, f x = c := by
  simp only [hf]
  rw [setIntegral_const, unitSquare_volume, one_smul]

theorem linear_energy {a : ℕ → ℝ} (h3 : a 3 = 0) (h4 : a 4 = 0) : plateEnergy unitSquare (fun _ => exLam 1 1 1 1) (fun r _ => a r) (fun _ _ => 0) (fun r _ => a r) (fun _ _ => 0) = a 0 ^ 2 + a 1 ^ 2 := by
  refine square_const fun x => ?_
  simp [exLam_abd, strain, Fin.sum_univ_succ, h3, h4]
  ring

theorem linear_shear {a : ℕ → ℝ} (h3 : a 3 = 0) (h4 : a 4 = 0) : plateShear unitSquare (fun _ => exLam 1 1 1 1) (fun r x => a r * x.1) (fun r _ => a r) (fun _ _ => 0)
    (fun r x => a r * x.1) (fun r _ => a r) (fun _ _ => 0) = a 2 ^ 2 := by
  refine square_const fun x => ?_
  simp [shear, shearStiff, exLam, h3, h4]
  ring

theorem linear_geometric (b a : ℕ → ℝ) : plateGeometric unitSquare (fun _ => exLam 1 1 1 1) (fun r _ => b r) (fun _ _ => 0) (fun r _ => a r) (fun _ _ => 0) (fun r _ => a r) (fun _ _ => 0) =
    b 0 * a 2 ^ 2 := by
  refine square_const fun x => ?_
  simp [contMembrane, exLam, strain]
  ring

/-- pulling the clamped square at the corner `(1, 1)`: comparing with uniform stretch, the displacement there is in the limit at least 1 -/
example (pn : Bool) : ∃ (m : ℕ → Mesh) (K : ℕ → Mat) (d : ℕ → ℕ → ℝ), (∀ n, GridMesh (n + 1) (fun _ => exIso) pn (m n)) ∧
    (∀ n, Stiffness (m n) pn "cell-based-no-smoothing" (1 / 10) false (K n)) ∧
    (∀ n, StaticSol (K n) (gridEdge (n + 1)) (fun i => if i = 5 * ((n + 1) * (n + 1 + 1) + (n + 1)) then 1 else 0) (d n)) ∧
    ∀ ε > 0, ∀ᶠ n in atTop, 1 - ε ≤ d n (5 * ((n + 1) * (n + 1 + 1) + (n + 1))) := by
  choose m h using fun n => gridMesh_exists (Nat.succ_pos n) (fun _ => exLam_stiff one_pos one_pos one_pos one_pos) pn
  choose K0 K hK0 hK hG using fun n => (h n).made (Or.inr rfl) (1 / 10) false
  choose d hd hu using fun n => C76_static (h n).reach (h n).good (by norm_num) (hK n) ((h n).held (Nat.succ_pos n)) (fun i => if i = 5 * ((n + 1) * (n + 1 + 1) + (n + 1)) then 1 else 0)
  refine ⟨m, K, d, h, hK, hd, fun ε hε => ?_⟩
  have hF := linear_on (fun r => if r = 0 then 1 else 0) (B := 1) (M := 1) (fun r _ => by split <;> simp) zero_le_one
  have := C123_work (fun n => (h n).reach) (fun n => (h n).good) (grid_refined h) le_rfl exUniform_on one_pos (fun _ _ => le_rfl) (by norm_num) zero_le_one hF hK hd
    (fun n => (h n).nodal _) (fun n => linear_supported _ _) (W := 1) (by
      have e : ∀ n, ∑ i ∈ range (K n).dim, (if i = 5 * ((n + 1) * (n + 1 + 1) + (n + 1)) then (1 : ℝ) else 0) * gridVals (n + 1) (fun r x => (if r = 0 then 1 else 0) * x.1) i = 1 := fun n => by
        rw [(h n).dim (hK n), corner_work (Nat.succ_pos n) (fun r => if r = 0 then 1 else 0)]; simp
      simp only [e]
      exact tendsto_const_nhds) hε
  filter_upwards [this] with n hn
  rw [linear_energy (a := fun r => if r = 0 then 1 else 0) (by simp) (by simp), linear_shear (a := fun r => if r = 0 then 1 else 0) (by simp) (by simp),
    sum_eq_single (5 * ((n + 1) * (n + 1 + 1) + (n + 1))) (fun i _ hi => by rw [if_neg hi, zero_mul]) (fun hi => absurd (mem_range.2 (by rw [(h n).dim (hK n)]; nlinarith)) hi)] at hn
  norm_num at hn
  linarith

/-- pushing the clamped square together along `x`: comparing with shearing it across, the first buckling factor is in the limit at most 1 -/
example (pn : Bool) : ∃ (m : ℕ → Mesh) (K G : ℕ → Mat), (∀ n, GridMesh (n + 1) (fun _ => exIso) pn (m n)) ∧
    (∀ n, Stiffness (m n) pn "cell-based-no-smoothing" (1 / 10) false (K n)) ∧
    (∀ n, calcKG (calcK0 (m n) pn).1 (gridList (n + 1) fun r x => (if r = 0 then -1 else 0) * x.1) pn = .ok (G n)) ∧
    ∀ ε > 0, ∀ᶠ n in atTop, ∃ c, 0 < c ∧ (∃ x, BucklingMode (K n) (G n) (gridEdge (n + 1)) c x) ∧ c ≤ 1 + ε := by
  choose m h using fun n => gridMesh_exists (Nat.succ_pos n) (fun _ => exLam_stiff one_pos one_pos one_pos one_pos) pn
  choose K0 K hK0 hK hG using fun n => (h n).made (Or.inr rfl) (1 / 10) false
  have hl : ∀ n, (gridList (n + 1) fun r x => (if r = 0 then -1 else 0) * x.1).length = 5 * (m n).nids.length := fun n => by rw [gridList_length, (h n).count]
  choose G hG using fun n => hG n _ (hl n)
  refine ⟨m, K, G, h, hK, hG, fun ε hε => ?_⟩
  have hD := linear_on (fun r => if r = 0 then -1 else 0) (B := 1) (M := 1) (fun r _ => by split <;> simp) zero_le_one
  have hF := linear_on (fun r => if r = 2 then 1 else 0) (B := 1) (M := 1) (fun r _ => by split <;> simp) zero_le_one
  have e := linear_geometric (fun r => if r = 0 then -1 else 0) (fun r => if r = 2 then 1 else 0)
  have := C124_factor (fun n => (h n).reach) (fun n => (h n).good) (grid_refined h) le_rfl exUniform_on one_pos (fun _ _ => le_rfl) (by norm_num) zero_le_one hD hF hK hl hG
    (fun n => held_stable (h n).reach (h n).good (by norm_num) (hK n) ((h n).held (Nat.succ_pos n))) (fun n => (h n).nodal_list _) (fun n => (h n).nodal _) (fun n => linear_supported _ _)
    (by rw [e]; norm_num) hε
  filter_upwards [this] with n hn
  obtain ⟨c, c1, c2, _, c4⟩ := hn
  rw [e, linear_energy (a := fun r => if r = 2 then 1 else 0) (by simp) (by simp), linear_shear (a := fun r => if r = 2 then 1 else 0) (by simp) (by simp)] at c4
  refine ⟨c, c1, c2, c4.trans (le_of_eq ?_)⟩
  norm_num

end Meshless
