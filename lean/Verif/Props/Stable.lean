import Verif.Lemmas.Stable
import Verif.Spec.Stable
import Verif.Props.Cst
import Verif.Props.Consist

/-! C131: smoothing softens by a bounded factor, whatever the size of the triangles. -/

set_option autoImplicit false

namespace Meshless
open Spec Finset

section
variable {m : Mesh}

theorem nine_sq {s x1 x2 x3 y1 y2 y3 z1 z2 z3 e : ℝ} (h : |e| ≤ s ^ 2 * (|x1| + |x2| + |x3| + (|y1| + |y2| + |y3| + (|z1| + |z2| + |z3|)))) :
    e ^ 2 ≤ 9 * s ^ 4 * ((x1 ^ 2 + x2 ^ 2 + x3 ^ 2) + (y1 ^ 2 + y2 ^ 2 + y3 ^ 2) + (z1 ^ 2 + z2 ^ 2 + z3 ^ 2)) := by
  have h1 := pow_le_pow_left₀ (abs_nonneg e) h 2
  rw [sq_abs, mul_pow] at h1
  have h2 : (|x1| + |x2| + |x3| + (|y1| + |y2| + |y3| + (|z1| + |z2| + |z3|))) ^ 2 ≤
      9 * ((x1 ^ 2 + x2 ^ 2 + x3 ^ 2) + (y1 ^ 2 + y2 ^ 2 + y3 ^ 2) + (z1 ^ 2 + z2 ^ 2 + z3 ^ 2)) := by
    rw [← sq_abs x1, ← sq_abs x2, ← sq_abs x3, ← sq_abs y1, ← sq_abs y2, ← sq_abs y3, ← sq_abs z1, ← sq_abs z2, ← sq_abs z3]
    have := sum_mul_sq_le_sq_mul_sq univ (fun _ : Fin 9 => (1:ℝ)) ![|x1|, |x2|, |x3|, |y1|, |y2|, |y3|, |z1|, |z2|, |z3|]
    simp [Fin.sum_univ_succ] at this
    simp only [sq_abs]
    refine le_trans (le_of_eq ?_) (this.trans (le_of_eq ?_)) <;> ring
  calc _ ≤ _ := h1
    _ ≤ _ := mul_le_mul_of_nonneg_left h2 (sq_nonneg (s ^ 2))
    _ = _ := by ring

theorem sumsq6 (x : Fin 6 → ℝ) : ∑ p, x p ^ 2 = (x 0 ^ 2 + x 1 ^ 2 + x 2 ^ 2) + (x 3 ^ 2 + x 4 ^ 2 + x 5 ^ 2) := by
  simp [Fin.sum_univ_succ]; ring

/-- the strains of a triangle against the smoothed strains of its sides -/
theorem triEps_le (w : WF m) (hp : Proper m) (hg : Planar m) {s : ℝ} (hs : Shape m s) {t : ℕ} (ht : t ∈ m.eids) (v : ℕ → ℝ) :
    ∑ p, triEps m t v p ^ 2 ≤ 27 * s ^ 4 * ((m.tria t).edgeIds.map fun k => ∑ p, eps m k v p ^ 2).sum := by
  obtain ⟨a0, a1, a2⟩ := side_recover w hp hg hs ht (disp m v 0) (disp m v 1)
  obtain ⟨b0, b1, b2⟩ := side_recover w hp hg hs ht (disp m v 3) (disp m v 4)
  simp only [sumsq6]
  simp only [Tria.edgeIds, List.map_cons, List.map_nil, List.sum_cons, List.sum_nil, add_zero] at a0 a1 a2 b0 b1 b2 ⊢
  generalize sortPair (m.tria t).n1 (m.tria t).n2 = k1 at *
  generalize sortPair (m.tria t).n2 (m.tria t).n3 = k2 at *
  generalize sortPair (m.tria t).n3 (m.tria t).n1 = k3 at *
  have fst : ∀ e : ℝ, |e| ≤ s ^ 2 * (|eps m k1 v 0| + |eps m k1 v 1| + |eps m k1 v 2| + (|eps m k2 v 0| + |eps m k2 v 1| + |eps m k2 v 2| + (|eps m k3 v 0| + |eps m k3 v 1| + |eps m k3 v 2|))) → _ :=
    fun e he => nine_sq he
  have snd : ∀ e : ℝ, |e| ≤ s ^ 2 * (|eps m k1 v 3| + |eps m k1 v 4| + |eps m k1 v 5| + (|eps m k2 v 3| + |eps m k2 v 4| + |eps m k2 v 5| + (|eps m k3 v 3| + |eps m k3 v 4| + |eps m k3 v 5|))) → _ :=
    fun e he => nine_sq he
  have c0 := fst (triEps m t v 0) a0
  have c1 := fst (triEps m t v 1) a1
  have c2 := fst (triEps m t v 2) a2
  have c3 := snd (triEps m t v 3) b0
  have c4 := snd (triEps m t v 4) b1
  have c5 := snd (triEps m t v 5) b2
  linarith

theorem eps_thirds (w : WF m) (hp : Proper m) (hg : Planar m) (g : Key → ℝ) :
    (m.ekeys.map fun k => |sarea m (dom m k)| * g k).sum = (m.eids.map fun e => ((m.tria e).edgeIds.map fun k => triArea m e / 3 * g k).sum).sum := by
  refine thirds w (Y := fun _ k => g k) fun k hk => ?_
  rw [dom_area w hp hg hk, List.sum_map_mul_right]
  congr 1
  rw [div_eq_mul_inv, ← List.sum_map_mul_right]
  simp only [div_eq_mul_inv]

theorem strainSize_le (w : WF m) (hp : Proper m) (hg : Planar m) {s : ℝ} (hs : Shape m s) (v : ℕ → ℝ) :
    strainSize m v ≤ 81 * s ^ 4 * (m.ekeys.map fun k => |sarea m (dom m k)| * ∑ p, eps m k v p ^ 2).sum := by
  rw [eps_thirds w hp hg, ← List.sum_map_mul_left]
  unfold strainSize
  refine List.sum_le_sum fun e he => ?_
  have := mul_le_mul_of_nonneg_left (triEps_le w hp hg hs he v) (triArea_pos hg he).le
  refine this.trans (le_of_eq ?_)
  rw [← List.sum_map_mul_left, ← List.sum_map_mul_left, ← List.sum_map_mul_left]
  congr 1
  refine List.map_congr_left fun k _ => ?_
  ring

theorem avg_least (w : WF m) (hp : Proper m) (hg : Planar m) {pn : Bool} (hh : HasProps m pn) {c : ℝ} (hl : ∀ l, InUse m pn l → AtLeast c l) {k : Key}
    (hk : k ∈ m.ekeys) (x : Fin 6 → ℝ) : c * ∑ p, x p ^ 2 ≤ ∑ p, ∑ q, x p * avg m pn k (fun l => abd l p q) * x q := by
  obtain ⟨L, h1, h2, h3⟩ := avg_weights w hp hg pn hk
  simp only [h3]
  rw [quad_avg L abd]
  have : c * ∑ p, x p ^ 2 = (L.map fun z => z.1 * (c * ∑ p, x p ^ 2)).sum := by rw [List.sum_map_mul_right, h2, one_mul]
  rw [this]
  refine List.sum_le_sum fun z hz => mul_le_mul_of_nonneg_left ?_ (h1 z hz).1
  obtain ⟨l, e⟩ := slot_some hh (h1 z hz).2
  have hs := (h1 z hz).2
  rw [e] at hs ⊢
  exact hl l (slot_inUse w hp hs) x

theorem strainSize_energy (w : WF m) (hp : Proper m) (hg : Planar m) {pn : Bool} (hh : HasProps m pn) {c : ℝ} (hc : 0 ≤ c) (hl : ∀ l, InUse m pn l → AtLeast c l) {s : ℝ} (hs : Shape m s)
    (v : ℕ → ℝ) : c * strainSize m v ≤ 81 * s ^ 4 * energy m pn v v := by
  have h1 := mul_le_mul_of_nonneg_left (strainSize_le w hp hg hs v) hc
  have h2 : c * (m.ekeys.map fun k => |sarea m (dom m k)| * ∑ p, eps m k v p ^ 2).sum ≤ energy m pn v v := by
    unfold energy
    rw [← List.sum_map_mul_left]
    refine List.sum_le_sum fun k hk => ?_
    have := mul_le_mul_of_nonneg_left (avg_least w hp hg hh hl hk (eps m k v)) (abs_nonneg (sarea m (dom m k)))
    linarith
  have h3 := mul_le_mul_of_nonneg_left h2 (by positivity : 0 ≤ 81 * s ^ 4)
  linarith

/-- C131: the strains of the linear interpolation are bounded by the energy of `calc_k0`, with a factor that depends on the shape of the triangles and the
weakest laminate only -/
theorem C131_strain (hr : Reachable m) (hp : Proper m) (hg : Planar m) {pn : Bool} {K : Mat} (hK : (calcK0 m pn).2 = .ok K) {c : ℝ} (hc : 0 ≤ c)
    (hl : ∀ l, InUse m pn l → AtLeast c l) {s : ℝ} (hs : Shape m s) (d : ℕ → ℝ) : c * strainSize m d ≤ 81 * s ^ 4 * form K.dim K.get d d := by
  obtain ⟨_, _, hh, _⟩ := calcK0_ok hr.wf hK
  rw [C18_energy hr hp hg hK]
  exact strainSize_energy hr.wf hp hg hh hc hl hs d

theorem cst_most {l : ℕ → Lam} {c : ℝ} (hl : ∀ e ∈ m.eids, AtMost c (l e)) (d : ℕ → ℝ) : cstEnergy m l d d ≤ c * strainSize m d := by
  unfold cstEnergy strainSize
  rw [← List.sum_map_mul_left]
  refine List.sum_le_sum fun e he => ?_
  have := mul_le_mul_of_nonneg_left (hl e he (triEps m e d)) (abs_nonneg (sarea m [[(m.tria e).n1], [(m.tria e).n2], [(m.tria e).n3]]))
  change triArea m e * _ ≤ triArea m e * _ at this
  linarith

/-- C131: the energy of the constant strain triangles is at most a fixed multiple of that of `calc_k0`; the multiple depends on the shape of the triangles
and the extreme laminates, not on the size or number of the triangles -/
theorem C131_softer (hr : Reachable m) (hp : Proper m) (hg : Planar m) {pn : Bool} {K : Mat} (hK : (calcK0 m pn).2 = .ok K) {c C : ℝ} (hc : 0 < c) (hC : 0 ≤ C)
    (hl : ∀ l, InUse m pn l → AtLeast c l) {l : ℕ → Lam} (hl' : ∀ e ∈ m.eids, AtMost C (l e)) {s : ℝ} (hs : Shape m s) (d : ℕ → ℝ) :
    cstEnergy m l d d ≤ 81 * s ^ 4 * (C / c) * form K.dim K.get d d := by
  have h1 := C131_strain hr hp hg hK hc.le hl hs d
  have h2 := cst_most hl' d
  have h3 : strainSize m d ≤ 81 * s ^ 4 * form K.dim K.get d d / c := by rw [le_div_iff₀ hc]; linarith
  calc _ ≤ _ := h2
    _ ≤ C * (81 * s ^ 4 * form K.dim K.get d d / c) := mul_le_mul_of_nonneg_left h3 hC
    _ = _ := by field_simp

/-- C131: under the same loads and supports the plate deflects at most by this multiple more, in the work of the loads, than with the constant strain
triangles in place of `k0` -/
theorem C131_deflection (hr : Reachable m) {pn : Bool} (hg : GoodPlate m pn) {method : String} {al : ℝ} (ha : 0 ≤ al) {fa : Bool} {K0 K : Mat}
    (hK0 : (calcK0 m pn).2 = .ok K0) (hK : Stiffness m pn method al fa K) {c C : ℝ} (hc : 0 < c) (hC : 0 ≤ C)
    (hl : ∀ l, InUse m pn l → AtLeast c l) {l : ℕ → Lam} (hl' : ∀ e ∈ m.eids, AtMost C (l e)) (hpos : ∀ e ∈ m.eids, AtLeast 0 (l e)) {s : ℝ} (hs : Shape m s)
    {S : Set ℕ} {f d d' : ℕ → ℝ} (hd : StaticSol K S f d) (hd' : StaticSol (withCst m l K0 K) S f d') :
    ∑ i ∈ range K.dim, d i * f i ≤ max 1 (81 * s ^ 4 * (C / c)) * ∑ i ∈ range K.dim, d' i * f i := by
  set k := max 1 (81 * s ^ 4 * (C / c)) with hk
  have hk1 : 1 ≤ k := le_max_left _ _
  have hkp : 0 < k := by linarith
  obtain ⟨hdim, K0', hK0', hd0, _⟩ := stiffness_energy hr hg hK
  obtain rfl : K0 = K0' := by rw [hK0] at hK0'; exact Except.ok.inj hK0'
  have hsK := C78_symmetric hr hg hK
  have hpart : ∀ x, form K0.dim K0.get x x ≤ form K.dim K.get x x := fun x => by
    obtain ⟨_, K1, h1, _, h2⟩ := stiffness_energy hr hg hK
    obtain rfl : K0 = K1 := by rw [hK0] at h1; exact Except.ok.inj h1
    rw [h2]
    obtain ⟨hs', hq, hh, _⟩ := calcK0_ok hr.wf hK0
    have hpos' := fun e he r => (shearMod_pos (m := (calcK0 m pn).1) (hs'.wf hr.wf) (hs'.hasProps hh) (fun l h => hg.shear l (hs'.inUse.1 h)) ha fa (e := e) he r).le
    have : ∀ g, 0 ≤ shearEnergy (calcK0 m pn).1 pn al fa g x x := fun g => by
      unfold shearEnergy
      refine List.sum_nonneg fun y hy => ?_
      obtain ⟨e, he, rfl⟩ := List.mem_map.1 hy
      have h0 := mul_nonneg (hpos' e he 0) (mul_self_nonneg (g e x 0))
      have h1 := mul_nonneg (hpos' e he 1) (mul_self_nonneg (g e x 1))
      exact mul_nonneg (abs_nonneg _) (by linarith)
    linarith [this (if method = "cell-based" then cellStrain (calcK0 m pn).1 else wholeGamma (calcK0 m pn).1)]
  have hk0 : ∀ x, 0 ≤ form K0.dim K0.get x x := fun x => by
    rw [C18_energy hr hg.proper hg.planar hK0]
    exact (energy_zero_eps hr.wf hg.proper hg.planar (calcK0_ok hr.wf hK0).2.2.1 hg.abd).1
  have hcst : ∀ x, 0 ≤ cstEnergy m l x x := fun x => by
    unfold cstEnergy
    refine List.sum_nonneg fun y hy => ?_
    obtain ⟨e, he, rfl⟩ := List.mem_map.1 hy
    have := hpos e he (triEps m e x)
    exact mul_nonneg (abs_nonneg _) (by linarith)
  have hle : ∀ x, form K.dim (withCst m l K0 K).get x x ≤ k * form K.dim K.get x x := fun x => by
    rw [withCst_form hr.wf hg.proper _ hdim hd0]
    have h1 := C131_softer hr hg.proper hg.planar hK0 hc hC hl hl' hs x
    have h2 := mul_le_mul_of_nonneg_right (le_max_right 1 (81 * s ^ 4 * (C / c))) (hk0 x)
    have h3 := mul_le_mul_of_nonneg_right hk1 (by linarith [hpart x] : 0 ≤ form K.dim K.get x x - form K0.dim K0.get x x)
    rw [← hk] at h2
    linarith
  have hge : ∀ x, 0 ≤ form K.dim (withCst m l K0 K).get x x := fun x => by
    rw [withCst_form hr.wf hg.proper _ hdim hd0]
    linarith [hcst x, hpart x]
  have h1 := work_max (n := K.dim) (K := (withCst m l K0 K).get) (fun i hi j hj => by
      change cstEnergy _ _ _ _ + (_ - _) = cstEnergy _ _ _ _ + (_ - _)
      rw [cst_symm, hsK i hi j hj, C19_symmetric hr hK0 i j]) hge hd'.1 hd'.2 (x := fun i => k⁻¹ * d i) (fun i hi hiS => by rw [hd.1 i hi hiS, mul_zero])
  have h2 := hle fun i => k⁻¹ * d i
  have h3 : ∀ M : ℕ → ℕ → ℝ, form K.dim M (fun i => k⁻¹ * d i) (fun i => k⁻¹ * d i) = k⁻¹ * k⁻¹ * form K.dim M d d := fun M => form_smul ..
  rw [h3, h3] at h2
  have h4 := (static_weak.1 hd).2 d hd.1
  rw [h3] at h1
  have h5 : ∑ i ∈ range K.dim, k⁻¹ * d i * f i = k⁻¹ * ∑ i ∈ range K.dim, d i * f i := by rw [mul_sum]; exact sum_congr rfl fun i _ => by ring
  rw [h5] at h1
  rw [h4] at h2
  have h6 : k * (k⁻¹ * k⁻¹ * ∑ i ∈ range K.dim, d i * f i) = k⁻¹ * ∑ i ∈ range K.dim, d i * f i := by field_simp
  rw [h6] at h2
  have h7 : k⁻¹ * ∑ i ∈ range K.dim, d i * f i ≤ ∑ i ∈ range K.dim, d' i * f i := by linarith
  rwa [inv_mul_le_iff₀ hkp] at h7

end

/-! ### concrete cases -/

theorem assigned_inUse {m : Mesh} {pn : Bool} {l : ℝ × ℝ → Lam} (ho : OnePiece m) (ha : Assigned m pn fun _ => l) {l' : Lam} (h : InUse m pn l') : ∃ e ∈ m.eids, ∃ x ∈ hull m e, l' = l x := by
  unfold InUse at h
  unfold Assigned at ha
  cases pn with
  | true =>
    simp only [if_true] at h ha
    obtain ⟨i, hi, hl⟩ := h
    obtain ⟨e, he, hc⟩ := ho.used i hi
    exact ⟨e, he, _, pt_mem_hull hc, Option.some.inj (hl.symm.trans (ha e he i hc))⟩
  | false =>
    simp only [Bool.false_eq_true, if_false] at h ha
    obtain ⟨e, he, hl⟩ := h
    obtain ⟨x, hx, hl'⟩ := ha e he
    exact ⟨e, he, x, hx, Option.some.inj (hl.symm.trans hl')⟩

theorem exLam_quad (a d s t : ℝ) (x : Fin 6 → ℝ) : ∑ p, ∑ q, x p * abd (exLam a d s t) p q * x q = a * (x 0 ^ 2 + x 1 ^ 2 + x 2 ^ 2) + d * (x 3 ^ 2 + x 4 ^ 2 + x 5 ^ 2) := by
  simp only [exLam_abd, mul_ite, ite_mul, mul_zero, zero_mul, Finset.sum_ite_eq, Finset.mem_univ, if_true]
  simp [Fin.sum_univ_succ, show ¬ ((4 : Fin 6) < 3) by decide, show ¬ ((5 : Fin 6) < 3) by decide, show ((1 : Fin 6) < 3) by decide,
    show ((2 : Fin 6) < 3) by decide]
  ring

theorem exLam_least {a d s t c : ℝ} (ha : c ≤ a) (hd : c ≤ d) : AtLeast c (exLam a d s t) := fun x => by
  rw [exLam_quad, sumsq6]
  have h1 := mul_le_mul_of_nonneg_right ha (by positivity : 0 ≤ x 0 ^ 2 + x 1 ^ 2 + x 2 ^ 2)
  have h2 := mul_le_mul_of_nonneg_right hd (by positivity : 0 ≤ x 3 ^ 2 + x 4 ^ 2 + x 5 ^ 2)
  linarith

theorem exLam_most {a d s t c : ℝ} (ha : a ≤ c) (hd : d ≤ c) : AtMost c (exLam a d s t) := fun x => by
  rw [exLam_quad, sumsq6]
  have h1 := mul_le_mul_of_nonneg_right ha (by positivity : 0 ≤ x 0 ^ 2 + x 1 ^ 2 + x 2 ^ 2)
  have h2 := mul_le_mul_of_nonneg_right hd (by positivity : 0 ≤ x 3 ^ 2 + x 4 ^ 2 + x 5 ^ 2)
  linarith

/-- on every grid of the square with varying stiffness the energy of the constant strain triangles, each with the laminate of its first corner, is at most
`41472` times that of `calc_k0`, for all displacements -/
example {k : ℕ} (hk : 0 < k) (pn : Bool) : ∃ m K, GridMesh k exVar pn m ∧ (calcK0 m pn).2 = .ok K ∧
    ∀ d, cstEnergy m (fun e => exVar (pt m (m.tria e).n1)) d d ≤ 41472 * form K.dim K.get d d := by
  obtain ⟨m, h⟩ := gridMesh_exists hk exVar_stiff pn
  obtain ⟨K, _, hK, _, _⟩ := h.made (Or.inl rfl) 0 false
  refine ⟨m, K, h, hK, fun d => ?_⟩
  have := C131_softer h.reach h.good.proper h.good.planar hK (c := 1) (C := 2) one_pos (by norm_num)
    (fun l hl => by obtain ⟨_, _, x, _, rfl⟩ := assigned_inUse h.good.piece h.lam hl; exact exLam_least (by linarith [abs_nonneg x.1]) le_rfl)
    (l := fun e => exVar (pt m (m.tria e).n1)) (fun e he => by
      have hx := (h.tiles hk).sub he (pt_mem_hull (Or.inl rfl : IsCorner m e (m.tria e).n1))
      obtain ⟨⟨h0, _⟩, h1, _⟩ := mem_unitSquare.1 hx
      exact exLam_most (by rw [abs_of_nonneg h0]; linarith) (by norm_num)) h.shape d
  norm_num at this
  exact this

theorem exMesh_shape (p1 p2 p3 p4 q1 q2 : Lam) : Shape (exMesh p1 p2 p3 p4 q1 q2) 4 := by
  intro e he
  have h0 := charLen_nonneg (exMesh p1 p2 p3 p4 q1 q2) e
  rw [exMesh_eids] at he
  simp only [List.mem_cons, List.not_mem_nil, or_false] at he
  have h1 : charLen (exMesh p1 p2 p3 p4 q1 q2) false e ≤ √2 := by
    unfold charLen dist2
    rw [if_neg (by simp)]
    rcases he with rfl | rfl <;> simp only [exMesh_tria1, exMesh_tria2, nx, ny, exMesh_node1, exMesh_node2, exMesh_node3, exMesh_node4] <;>
      refine max_le (max_le ?_ ?_) ?_ <;> refine Real.sqrt_le_sqrt ?_ <;> norm_num
  have h2 : triArea (exMesh p1 p2 p3 p4 q1 q2) e = 1 / 2 := by
    rcases he with rfl | rfl <;> simp only [triArea, sarea3, exMesh_tria1, exMesh_tria2, mean_single, nx, ny, exMesh_node1, exMesh_node2, exMesh_node3, exMesh_node4] <;> norm_num
  rw [h2]
  have := pow_le_pow_left₀ h0 h1 2
  rw [Real.sq_sqrt (by norm_num)] at this
  linarith

/-- the clamped square under a unit transverse load at node 2, against constant strain triangles -/
example (pn : Bool) : ∃ K0 K, (calcK0 exSq pn).2 = .ok K0 ∧ Stiffness exSq pn "cell-based" (1 / 5) false K ∧ ∃ d d' : ℕ → ℝ,
    StaticSol K {x | x < 5 ∨ 15 ≤ x} (fun i => if i = 7 then 1 else 0) d ∧
    StaticSol (withCst exSq (fun _ => exIso) K0 K) {x | x < 5 ∨ 15 ≤ x} (fun i => if i = 7 then 1 else 0) d' ∧ d 7 ≤ 20736 * d' 7 := by
  obtain ⟨K, hK⟩ := exSq_stiffness (Or.inl rfl) pn (1 / 5) false
  have hr := exMesh_reachable exIso exIso exIso exIso exIso exIso
  obtain ⟨K0, hK0, _⟩ := exMesh_k0 exIso exIso exIso exIso exIso exIso pn
  have hdim : K.dim = 20 := by rw [(stiffness_energy hr (exSq_good pn) hK).1, exMesh_nids]; rfl
  obtain ⟨d, hd, _⟩ := C76_static hr (exSq_good pn) (by norm_num) hK exSq_held fun i => if i = 7 then 1 else 0
  have hS := held_stable hr (exSq_good pn) (by norm_num) hK exSq_held
  have hS' : Stable (withCst exSq (fun _ => exIso) K0 K) {x | x < 5 ∨ 15 ≤ x} := fun x h1 h2 =>
    lt_of_lt_of_le (hS x h1 h2) (cst_stiffer hr (exSq_good pn) (exMesh_Homog exIso pn) exIso_psd hK0 hK x)
  obtain ⟨d', hd', _⟩ := solve_unique (withCst exSq (fun _ => exIso) K0 K).get {x | x < 5 ∨ 15 ≤ x} (n := K.dim) (fun x h1 h2 => by
    by_contra hcon
    push Not at hcon
    exact absurd h2 (hS' x h1 hcon).ne') fun i => if i = 7 then 1 else 0
  have := C131_deflection hr (exSq_good pn) (by norm_num) hK0 hK (c := 1) (C := 1) one_pos zero_le_one (fun l hl => by rw [exSq_inUse hl]; exact exLam_least le_rfl le_rfl)
    (l := fun _ => exIso) (fun _ _ => exLam_most le_rfl le_rfl) (fun _ _ => exLam_least zero_le_one zero_le_one) (s := 4) (exMesh_shape exIso exIso exIso exIso exIso exIso) hd hd'
  rw [hdim] at this
  norm_num at this
  exact ⟨K0, K, hK0, hK, d, d', hd, hd', by simpa using this⟩

end Meshless
