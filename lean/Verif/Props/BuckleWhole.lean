import Verif.Props.BuckleDouble
import Verif.Props.ShearBoundCell

/-! C158, C159 and C161 from the data of the plate alone, with the bounds of C156, C157 and C160 put in. -/

set_option autoImplicit false

namespace Meshless
open Spec Finset

/-- A plate whose triangles all have the size `l`: diameter up to `l`, area at least a quarter of `l²`, coordinates up to `B l`. Its laminates have entries up to `a`, `b`, `d`
and shear moduli up to `g`; `p` is the largest of these and of `g l`, `g l²`. At most `v` triangles meet at a node. `f` is at least as fine and wide as float64. -/
structure Spec.EvenPlate (f : Fmt) (m : Mesh) (pn : Bool) (al B l a b d g p : ℝ) (v : ℕ) : Prop where
  fmt : Double f
  reachable : Reachable m
  good : GoodPlate m pn
  props : HasProps m pn
  nonempty : m.nids ≠ []
  size : Medium l
  fits : ∀ t ∈ m.eids, FitsAt m (1 / 4) B l t
  sizes : Medium a ∧ Medium b ∧ Medium d ∧ Medium g
  lams : LamsUpTo m pn a b d
  shears : ShearsUpTo m pn g
  alpha : al = 0 ∨ Medium al
  edges : m.ekeys.length ≤ 2 ^ 38
  trias : m.eids.length ≤ 2 ^ 40
  wide : Wide p
  largest : a ≤ p ∧ b ≤ p ∧ d ≤ p ∧ g ≤ p ∧ g * l ≤ p ∧ g * l ^ 2 ≤ p
  valence : Valence m v

/-- The buckling factors of `K`, `G` are kept by `K'`, `G'` up to errors `D` and `H`: every factor `q` of `K'`, `G'` up to a residual `ε` is near one of `K`, `G`; below the
first factor `K' + t G'` is positive definite, above it is not. -/
def Spec.FactorsKept (K G K' G' : Mat) (S : Set ℕ) (c D H : ℝ) : Prop :=
  (∀ (q : ℂ) (x : ℕ → ℂ) (ε : ℝ), 0 ≤ ε → ModeResidual K' G' S q x ε → D + ‖q‖ * H + ε < c →
    ∃ (q' : ℝ) (y : ℕ → ℝ), BucklingMode K G S q' y ∧ c * ‖q - q'‖ ≤ |q'| * (D + ‖q‖ * H + ε)) ∧
  ∀ (c1 : ℝ) (y : ℕ → ℝ), 0 < c1 → BucklingMode K G S c1 y → (∀ c' x, 0 < c' → BucklingMode K G S c' x → c1 ≤ c') → ∀ t, 0 ≤ t →
    (t / c1 + (D + t * H) / c < 1 → ∀ u, Supported K'.dim S u → (∃ i < K'.dim, u i ≠ 0) → 0 < form K'.dim (fun i j => K'.get i j + t * G'.get i j) u u) ∧
    ((∀ u, Supported K'.dim S u → 0 ≤ form K'.dim (fun i j => K'.get i j + t * G'.get i j) u u) → t / c1 ≤ 1 + (D + t * H) / c)

variable {f : Fmt} {m : Mesh} {pn : Bool} {al B l a b d g p : ℝ} {v : ℕ}

private theorem fits_of (h : EvenPlate f m pn al B l a b d g p v) : Fits m (1 / 4) B :=
  fun _ hk => ⟨l, h.size, fun t ht => h.fits t (trias_mem h.reachable.wf h.good.proper hk ht)⟩

private theorem fitsIn_of (h : EvenPlate f m pn al B l a b d g p v) : FitsIn m (1 / 4) B l := fun t ht => ⟨l, h.size, le_rfl, h.fits t ht⟩

private theorem sized_of (h : EvenPlate f m pn al B l a b d g p v) : Sized m (1 / 4) l := fun t ht => ⟨l, h.size, le_rfl, (h.fits t ht).near, (h.fits t ht).area⟩

private theorem units_of (h : EvenPlate f m pn al B l a b d g p v) : ∀ r < 5, ∀ q < 5, Wide ((fun _ _ => p) r q) ∧ behind a b d r q ≤ (fun _ _ => p) r q ∧ shearUnit g l r q ≤ (fun _ _ => p) r q := by
  obtain ⟨h1, h2, h3, h4, h5, h6⟩ := h.largest
  intro r _ q _
  refine ⟨h.wide, ?_, ?_⟩
  · unfold behind; split <;> split <;> assumption
  · unfold shearUnit; dsimp only
    split <;> split
    · linarith
    · linarith
    · linarith
    · linarith [mul_assoc g l l, pow_two l]

private theorem pos_of (h : EvenPlate f m pn al B l a b d g p v) : 0 ≤ p := le_trans (by positivity) h.wide.1

private theorem kept_of (h : EvenPlate f m pn al B l a b d g p v) {method : String} {fa : Bool} {E0 M0 E M EG MG n e c : ℝ}
    (hs : StiffWithin f m pn method al fa (fun _ _ => p) E0 M0 E M) (hE0 : 0 ≤ E0) (hM0 : 0 ≤ M0) (hE : 0 ≤ E) (hM : 0 ≤ M) {K : Mat} (hK : Stiffness m pn method al fa K) {F : FMat}
    (hF : FmtAssembled f m pn method al fa F) {x y : List ℝ} (hn : Medium n) (he : Medium e) (hEG : 0 ≤ EG) (hMG : 0 ≤ MG) (hkg : KGNear f m pn x y n e EG MG)
    {S : Set ℕ} (hc0 : 0 < c) (hc : StiffAtLeast K S c) :
    ∃ G G', calcKG (calcK0 m pn).1 x pn = .ok G ∧ f.calcKG (f.calcK0 m pn).1 (f.calcK0 m pn).2.1 y pn = .ok G' ∧
      FactorsKept K G (numbers F) (numbers G') S c (rowErr p E0 M0 E M v (rimCount m)) (kGRowErr n e EG MG v (rimCount m)) := by
  have hn0 : 0 ≤ n := le_trans (by positivity) hn.1
  have he0 : 0 ≤ e := le_trans (by positivity) he.1
  obtain ⟨G, G', hG, hG', _⟩ := id hkg
  exact ⟨G, G', hG, hG', fun q z ε hε hz hlt => C161_factor h.reachable h.good hs (fun _ _ => rfl) (fun _ _ _ _ => le_rfl) (pos_of h) hE0 hM0 hE hM h.valence hK hF hn0 he0 hEG hMG hkg hG hG' hc0
      hc hε hz hlt,
    fun c1 z h1 hz hmin t ht => C161_limit h.reachable h.good hs (fun _ _ => rfl) (fun _ _ _ _ => le_rfl) (pos_of h) hE0 hM0 hE hM h.valence hK hF hn0 he0 hEG hMG hkg hG hG' hc0
      hc h1 hz hmin ht⟩

section
variable {fa : Bool} {x y : List ℝ} (hx : x.length = 5 * m.nids.length) (hy : y.length = 5 * m.nids.length) {n e : ℝ} (hn : Medium n) (he : Medium e) {K : Mat} {F : FMat} {S : Set ℕ}
  {c : ℝ} (hc0 : 0 < c) (hc : StiffAtLeast K S c)
include hx hy hn he hc0 hc

/-- C161, without smoothing, coordinates up to `8 l`: the buckling factors in double precision, from the data of the plate and the size of the displacements -/
theorem C161_plate_8 (h : EvenPlate f m pn al 8 l a b d g p v) (hK : Stiffness m pn "cell-based-no-smoothing" al fa K) (hF : FmtAssembled f m pn "cell-based-no-smoothing" al fa F)
    (hl : Loaded m (1 / 4) 8 a b n (vec y)) (hd : Loaded m (1 / 4) 8 a b e fun i => vec y i - vec x i) :
    ∃ G G', calcKG (calcK0 m pn).1 x pn = .ok G ∧ f.calcKG (f.calcK0 m pn).1 (f.calcK0 m pn).2.1 y pn = .ok G' ∧
      FactorsKept K G (numbers F) (numbers G') S c (rowErr p 470000000 6144 40000 8 v (rimCount m)) (kGRowErr n e 990000000 12288 v (rimCount m)) := by
  obtain ⟨ma, mb, md, mg⟩ := h.sizes
  exact kept_of h (C156_stiffness_error_8 h.fmt h.reachable h.good.proper h.good.planar h.props h.nonempty ma mb md mg h.lams h.shears h.alpha fa h.edges h.trias (units_of h) (fits_of h) (sized_of h))
    (by norm_num) (by norm_num) (by norm_num) (by norm_num) hK hF hn he (by norm_num) (by norm_num)
    (C160_kG_near_8 h.fmt h.reachable h.good.proper h.good.planar h.props h.nonempty ma mb hn h.lams h.edges hx hy he hl hd) hc0 hc

/-- C161, with smoothing, coordinates up to `8 l` -/
theorem C161_plate_cell_8 (h : EvenPlate f m pn al 8 l a b d g p v) (hK : Stiffness m pn "cell-based" al fa K) (hF : FmtAssembled f m pn "cell-based" al fa F)
    (hl : Loaded m (1 / 4) 8 a b n (vec y)) (hd : Loaded m (1 / 4) 8 a b e fun i => vec y i - vec x i) :
    ∃ G G', calcKG (calcK0 m pn).1 x pn = .ok G ∧ f.calcKG (f.calcK0 m pn).1 (f.calcK0 m pn).2.1 y pn = .ok G' ∧
      FactorsKept K G (numbers F) (numbers G') S c (rowErr p 470000000 6144 15000000 512 v (rimCount m)) (kGRowErr n e 990000000 12288 v (rimCount m)) := by
  obtain ⟨ma, mb, md, mg⟩ := h.sizes
  exact kept_of h (C157_stiffness_error_8 h.fmt h.reachable h.good.proper h.good.planar h.props h.nonempty ma mb md mg h.lams h.shears h.alpha fa h.edges h.trias (units_of h) (fits_of h) (fitsIn_of h))
    (by norm_num) (by norm_num) (by norm_num) (by norm_num) hK hF hn he (by norm_num) (by norm_num)
    (C160_kG_near_8 h.fmt h.reachable h.good.proper h.good.planar h.props h.nonempty ma mb hn h.lams h.edges hx hy he hl hd) hc0 hc

/-- C161, without smoothing, coordinates up to `64 l` -/
theorem C161_plate_64 (h : EvenPlate f m pn al 64 l a b d g p v) (hK : Stiffness m pn "cell-based-no-smoothing" al fa K) (hF : FmtAssembled f m pn "cell-based-no-smoothing" al fa F)
    (hl : Loaded m (1 / 4) 64 a b n (vec y)) (hd : Loaded m (1 / 4) 64 a b e fun i => vec y i - vec x i) :
    ∃ G G', calcKG (calcK0 m pn).1 x pn = .ok G ∧ f.calcKG (f.calcK0 m pn).1 (f.calcK0 m pn).2.1 y pn = .ok G' ∧
      FactorsKept K G (numbers F) (numbers G') S c (rowErr p 26000000000 6144 40000 8 v (rimCount m)) (kGRowErr n e 54000000000 12288 v (rimCount m)) := by
  obtain ⟨ma, mb, md, mg⟩ := h.sizes
  exact kept_of h (C156_stiffness_error_64 h.fmt h.reachable h.good.proper h.good.planar h.props h.nonempty ma mb md mg h.lams h.shears h.alpha fa h.edges h.trias (units_of h) (fits_of h) (sized_of h))
    (by norm_num) (by norm_num) (by norm_num) (by norm_num) hK hF hn he (by norm_num) (by norm_num)
    (C160_kG_near_64 h.fmt h.reachable h.good.proper h.good.planar h.props h.nonempty ma mb hn h.lams h.edges hx hy he hl hd) hc0 hc

/-- C161, with smoothing, coordinates up to `64 l` -/
theorem C161_plate_cell_64 (h : EvenPlate f m pn al 64 l a b d g p v) (hK : Stiffness m pn "cell-based" al fa K) (hF : FmtAssembled f m pn "cell-based" al fa F)
    (hl : Loaded m (1 / 4) 64 a b n (vec y)) (hd : Loaded m (1 / 4) 64 a b e fun i => vec y i - vec x i) :
    ∃ G G', calcKG (calcK0 m pn).1 x pn = .ok G ∧ f.calcKG (f.calcK0 m pn).1 (f.calcK0 m pn).2.1 y pn = .ok G' ∧
      FactorsKept K G (numbers F) (numbers G') S c (rowErr p 26000000000 6144 600000000 512 v (rimCount m)) (kGRowErr n e 54000000000 12288 v (rimCount m)) := by
  obtain ⟨ma, mb, md, mg⟩ := h.sizes
  exact kept_of h (C157_stiffness_error_64 h.fmt h.reachable h.good.proper h.good.planar h.props h.nonempty ma mb md mg h.lams h.shears h.alpha fa h.edges h.trias (units_of h) (fits_of h) (fitsIn_of h))
    (by norm_num) (by norm_num) (by norm_num) (by norm_num) hK hF hn he (by norm_num) (by norm_num)
    (C160_kG_near_64 h.fmt h.reachable h.good.proper h.good.planar h.props h.nonempty ma mb hn h.lams h.edges hx hy he hl hd) hc0 hc
end

/-- What is kept of the stiffness matrix in the computed matrix `F`, with errors `e i j` of its entries: entries, symmetry, energy and forces of rigid motions. -/
def Spec.StiffnessKept (m : Mesh) (pn : Bool) (method : String) (al : ℝ) (fa : Bool) (F : FMat) (e : ℕ → ℕ → ℝ) : Prop :=
  F.dim = 5 * m.nids.length ∧ AllFinite F ∧
  (∀ K, Assembled m pn method al fa K → ∀ i < F.dim, ∀ j < F.dim, |(numbers F).get i j - K.get i j| ≤ e i j) ∧
  (∀ i < F.dim, ∀ j < F.dim, |(numbers F).get i j - (numbers F).get j i| ≤ 2 * e i j) ∧
  (∀ z u, |form F.dim (numbers F).get z u - (energy m pn z u + shearEnergy m pn al fa (methodGamma m method) z u)| ≤
    ∑ i ∈ range F.dim, ∑ j ∈ range F.dim, e i j * (|z i| * |u j|)) ∧
  ∀ (z : ℕ → ℝ) (x0 y0 w p q s : ℝ), (∀ i ∈ m.nids, disp m z 0 i = x0 - w * ny m i) → (∀ i ∈ m.nids, disp m z 1 i = y0 + w * nx m i) →
    (∀ i ∈ m.nids, disp m z 2 i = s - rotFactor method * (p * nx m i + q * ny m i)) → (∀ i ∈ m.nids, disp m z 3 i = p) → (∀ i ∈ m.nids, disp m z 4 i = q) →
    ∀ i < F.dim, |∑ j ∈ range F.dim, (numbers F).get i j * z j| ≤ ∑ j ∈ range F.dim, e i j * |z j|

private theorem stiff_kept (h : EvenPlate f m pn al B l a b d g p v) {method : String} (hme : method = "cell-based" ∨ method = "cell-based-no-smoothing") {fa : Bool} {E0 M0 E M : ℝ}
    (hs : StiffWithin f m pn method al fa (fun _ _ => p) E0 M0 E M) {F : FMat} (hF : FmtAssembled f m pn method al fa F) :
    StiffnessKept m pn method al fa F (stiffErr m (fun _ _ => p) E0 M0 E M) := by
  obtain ⟨K, hK, h1, _, h3, h4⟩ := C158_entries h.reachable hs hF
  refine ⟨h1, h3, fun K' hK' => ?_, fun i hi j hj => C158_symmetric h.reachable h.good hme hs (fun _ _ => rfl) hF hi hj, fun z u => C158_energy h.reachable h.good hme hs hF z u,
    fun z x0 y0 w p' q s hu hv hw hx hy i hi => C158_rigid h.reachable h.good hme hs hF hu hv hw hx hy hi⟩
  obtain ⟨A, a1, a2⟩ := hK
  obtain ⟨B', b1, b2⟩ := hK'
  obtain rfl := Except.ok.inj (a1.symm.trans b1)
  obtain rfl : K = K' := congrArg Prod.fst (a2.symm.trans b2)
  exact h4

/-- What is kept of the static problem in the computed matrix `F`, with errors up to `D` in a row and a smallest stiffness `c`: it is positive definite with `c - D`, if that is positive it
has one solution for every load, and solutions up to a residual are near the exact one. -/
def Spec.StaticKept (K : Mat) (F : FMat) (S : Set ℕ) (c D : ℝ) : Prop :=
  StiffAtLeast (numbers F) S (c - D) ∧
  (D < c → ∀ w, ∃ z, StaticSol (numbers F) S w z ∧ ∀ z', StaticSol (numbers F) S w z' → ∀ i < F.dim, z' i = z i) ∧
  ∀ w r z z', StaticSol K S w z → StaticSol (numbers F) S (fun i => w i + r i) z' → (c - D) * len F.dim (fun i => z' i - z i) ≤ D * len F.dim z + √(freeSq F.dim S r)

private theorem static_kept (h : EvenPlate f m pn al B l a b d g p v) {method : String} {fa : Bool} {E0 M0 E M c : ℝ}
    (hs : StiffWithin f m pn method al fa (fun _ _ => p) E0 M0 E M) (hE0 : 0 ≤ E0) (hM0 : 0 ≤ M0) (hE : 0 ≤ E) (hM : 0 ≤ M) {K : Mat} (hK : Assembled m pn method al fa K) {F : FMat}
    (hF : FmtAssembled f m pn method al fa F) {S : Set ℕ} (hc : StiffAtLeast K S c) : StaticKept K F S c (rowErr p E0 M0 E M v (rimCount m)) :=
  ⟨(C159_definite h.reachable h.good.proper hs (fun _ _ => rfl) (fun _ _ _ _ => le_rfl) (pos_of h) hE0 hM0 hE hM h.valence hK hF hc).2,
    fun hlt w => C159_solvable h.reachable h.good.proper hs (fun _ _ => rfl) (fun _ _ _ _ => le_rfl) (pos_of h) hE0 hM0 hE hM h.valence hK hF hc hlt w,
    fun _ _ _ _ hz hz' => C159_static h.reachable h.good.proper hs (fun _ _ => rfl) (fun _ _ _ _ => le_rfl) (pos_of h) hE0 hM0 hE hM h.valence hK hF hc hz hz'⟩

/-- C158 from the data of the plate: without smoothing, coordinates up to `8 l` -/
theorem C158_plate_8 (h : EvenPlate f m pn al 8 l a b d g p v) (fa : Bool) :
    ∃ F, FmtAssembled f m pn "cell-based-no-smoothing" al fa F ∧ StiffnessKept m pn "cell-based-no-smoothing" al fa F (stiffErr m (fun _ _ => p) 470000000 6144 40000 8) := by
  obtain ⟨ma, mb, md, mg⟩ := h.sizes
  have hs := C156_stiffness_error_8 h.fmt h.reachable h.good.proper h.good.planar h.props h.nonempty ma mb md mg h.lams h.shears h.alpha fa h.edges h.trias (units_of h) (fits_of h) (sized_of h)
  obtain ⟨_, F, _, hF, _⟩ := id hs
  exact ⟨F, hF, stiff_kept h (Or.inr rfl) hs hF⟩

/-- C159 from the data of the plate: without smoothing, coordinates up to `8 l` -/
theorem C159_plate_8 (h : EvenPlate f m pn al 8 l a b d g p v) {fa : Bool} {K : Mat} (hK : Assembled m pn "cell-based-no-smoothing" al fa K) {F : FMat}
    (hF : FmtAssembled f m pn "cell-based-no-smoothing" al fa F) {S : Set ℕ} {c : ℝ} (hc : StiffAtLeast K S c) :
    StaticKept K F S c (rowErr p 470000000 6144 40000 8 v (rimCount m)) := by
  obtain ⟨ma, mb, md, mg⟩ := h.sizes
  exact static_kept h (C156_stiffness_error_8 h.fmt h.reachable h.good.proper h.good.planar h.props h.nonempty ma mb md mg h.lams h.shears h.alpha fa h.edges h.trias (units_of h) (fits_of h) (sized_of h))
    (by norm_num) (by norm_num) (by norm_num) (by norm_num) hK hF hc

/-- C158 from the data of the plate: with smoothing, coordinates up to `8 l` -/
theorem C158_plate_cell_8 (h : EvenPlate f m pn al 8 l a b d g p v) (fa : Bool) :
    ∃ F, FmtAssembled f m pn "cell-based" al fa F ∧ StiffnessKept m pn "cell-based" al fa F (stiffErr m (fun _ _ => p) 470000000 6144 15000000 512) := by
  obtain ⟨ma, mb, md, mg⟩ := h.sizes
  have hs := C157_stiffness_error_8 h.fmt h.reachable h.good.proper h.good.planar h.props h.nonempty ma mb md mg h.lams h.shears h.alpha fa h.edges h.trias (units_of h) (fits_of h) (fitsIn_of h)
  obtain ⟨_, F, _, hF, _⟩ := id hs
  exact ⟨F, hF, stiff_kept h (Or.inl rfl) hs hF⟩

/-- C159 from the data of the plate: with smoothing, coordinates up to `8 l` -/
theorem C159_plate_cell_8 (h : EvenPlate f m pn al 8 l a b d g p v) {fa : Bool} {K : Mat} (hK : Assembled m pn "cell-based" al fa K) {F : FMat}
    (hF : FmtAssembled f m pn "cell-based" al fa F) {S : Set ℕ} {c : ℝ} (hc : StiffAtLeast K S c) :
    StaticKept K F S c (rowErr p 470000000 6144 15000000 512 v (rimCount m)) := by
  obtain ⟨ma, mb, md, mg⟩ := h.sizes
  exact static_kept h (C157_stiffness_error_8 h.fmt h.reachable h.good.proper h.good.planar h.props h.nonempty ma mb md mg h.lams h.shears h.alpha fa h.edges h.trias (units_of h) (fits_of h) (fitsIn_of h))
    (by norm_num) (by norm_num) (by norm_num) (by norm_num) hK hF hc

/-- C158 from the data of the plate: without smoothing, coordinates up to `64 l` -/
theorem C158_plate_64 (h : EvenPlate f m pn al 64 l a b d g p v) (fa : Bool) :
    ∃ F, FmtAssembled f m pn "cell-based-no-smoothing" al fa F ∧ StiffnessKept m pn "cell-based-no-smoothing" al fa F (stiffErr m (fun _ _ => p) 26000000000 6144 40000 8) := by
  obtain ⟨ma, mb, md, mg⟩ := h.sizes
  have hs := C156_stiffness_error_64 h.fmt h.reachable h.good.proper h.good.planar h.props h.nonempty ma mb md mg h.lams h.shears h.alpha fa h.edges h.trias (units_of h) (fits_of h) (sized_of h)
  obtain ⟨_, F, _, hF, _⟩ := id hs
  exact ⟨F, hF, stiff_kept h (Or.inr rfl) hs hF⟩

/-- C159 from the data of the plate: without smoothing, coordinates up to `64 l` -/
theorem C159_plate_64 (h : EvenPlate f m pn al 64 l a b d g p v) {fa : Bool} {K : Mat} (hK : Assembled m pn "cell-based-no-smoothing" al fa K) {F : FMat}
    (hF : FmtAssembled f m pn "cell-based-no-smoothing" al fa F) {S : Set ℕ} {c : ℝ} (hc : StiffAtLeast K S c) :
    StaticKept K F S c (rowErr p 26000000000 6144 40000 8 v (rimCount m)) := by
  obtain ⟨ma, mb, md, mg⟩ := h.sizes
  exact static_kept h (C156_stiffness_error_64 h.fmt h.reachable h.good.proper h.good.planar h.props h.nonempty ma mb md mg h.lams h.shears h.alpha fa h.edges h.trias (units_of h) (fits_of h) (sized_of h))
    (by norm_num) (by norm_num) (by norm_num) (by norm_num) hK hF hc

/-- C158 from the data of the plate: with smoothing, coordinates up to `64 l` -/
theorem C158_plate_cell_64 (h : EvenPlate f m pn al 64 l a b d g p v) (fa : Bool) :
    ∃ F, FmtAssembled f m pn "cell-based" al fa F ∧ StiffnessKept m pn "cell-based" al fa F (stiffErr m (fun _ _ => p) 26000000000 6144 600000000 512) := by
  obtain ⟨ma, mb, md, mg⟩ := h.sizes
  have hs := C157_stiffness_error_64 h.fmt h.reachable h.good.proper h.good.planar h.props h.nonempty ma mb md mg h.lams h.shears h.alpha fa h.edges h.trias (units_of h) (fits_of h) (fitsIn_of h)
  obtain ⟨_, F, _, hF, _⟩ := id hs
  exact ⟨F, hF, stiff_kept h (Or.inl rfl) hs hF⟩

/-- C159 from the data of the plate: with smoothing, coordinates up to `64 l` -/
theorem C159_plate_cell_64 (h : EvenPlate f m pn al 64 l a b d g p v) {fa : Bool} {K : Mat} (hK : Assembled m pn "cell-based" al fa K) {F : FMat}
    (hF : FmtAssembled f m pn "cell-based" al fa F) {S : Set ℕ} {c : ℝ} (hc : StiffAtLeast K S c) :
    StaticKept K F S c (rowErr p 26000000000 6144 600000000 512 v (rimCount m)) := by
  obtain ⟨ma, mb, md, mg⟩ := h.sizes
  exact static_kept h (C157_stiffness_error_64 h.fmt h.reachable h.good.proper h.good.planar h.props h.nonempty ma mb md mg h.lams h.shears h.alpha fa h.edges h.trias (units_of h) (fits_of h) (fitsIn_of h))
    (by norm_num) (by norm_num) (by norm_num) (by norm_num) hK hF hc

/-- the square of two triangles -/
theorem exSq_even (pn : Bool) {B : ℝ} (hB : 1 ≤ B) : EvenPlate Fmt.binary64 exSq pn (1 / 10) B 1 1 1 1 1 1 2 where
  fmt := C153_binary64
  reachable := exMesh_reachable exIso exIso exIso exIso exIso exIso
  good := exSq_good pn
  props := exMesh_props _ _ _ _ _ _ pn
  nonempty := by rw [exMesh_nids]; simp
  size := medium_one
  fits := fun _ => exSq_fitsAt (by norm_num) hB
  sizes := ⟨medium_one, medium_one, medium_one, medium_one⟩
  lams := exSq_upTo pn
  shears := exSq_shearsUpTo pn
  alpha := Or.inr ⟨by norm_num, by norm_num⟩
  edges := by rw [exMesh_ekeys]; norm_num
  trias := by rw [exMesh_eids]; norm_num
  wide := ⟨zpow_le_one_of_nonpos₀ (by norm_num) (by norm_num), one_le_zpow₀ (by norm_num) (by norm_num)⟩
  largest := by norm_num
  valence := exSq_valence

/-- concrete case: the square shortened in `x`, with free deflections of two nodes. Up to nine tenths of the first factor the computed matrices are positive definite. -/
example (pn : Bool) {K : Mat} {F : FMat} (hK : Stiffness exSq pn "cell-based-no-smoothing" (1 / 10) true K)
    (hF : FmtAssembled Fmt.binary64 exSq pn "cell-based-no-smoothing" (1 / 10) true F) :
    ∃ G G', calcKG (calcK0 exSq pn).1 exShort pn = .ok G ∧ Fmt.binary64.calcKG (Fmt.binary64.calcK0 exSq pn).1 (Fmt.binary64.calcK0 exSq pn).2.1 exShort pn = .ok G' ∧
      FactorsKept K G (numbers F) (numbers G') exHeldW (10 / 21) (rowErr 1 470000000 6144 40000 8 2 (rimCount exSq)) (kGRowErr 1 (2 ^ (-100 : ℤ)) 990000000 12288 2 (rimCount exSq)) := by
  refine C161_plate_8 (by rw [exMesh_nids]; rfl) (by rw [exMesh_nids]; rfl) medium_one ⟨le_rfl, zpow_le_zpow_right₀ (by norm_num) (by norm_num)⟩ (by norm_num) (exSq_stiffW hK)
    (exSq_even pn (by norm_num)) hK hF (exSq_loaded (by norm_num) (by norm_num) fun i hi r hr h2 => ?_) (exSq_loaded (by norm_num) (by norm_num) fun i hi r hr h2 => ?_)
  · rw [exMesh_nids] at hi
    simp only [List.mem_cons, List.not_mem_nil, or_false] at hi
    have hn : exSq.nids = [1, 2, 3, 4] := exMesh_nids ..
    unfold dofNo
    rw [hn]
    interval_cases r <;> rcases hi with rfl | rfl | rfl | rfl <;> simp [vec, exShort] <;> norm_num [abs_of_nonneg] at *
  · rw [sub_self, abs_zero]; positivity

/-- concrete case: the same square with four freedoms of node 3 free -/
example (pn fa : Bool) {K : Mat} {F : FMat} (hK : Assembled exSq pn "cell-based-no-smoothing" (1 / 10) fa K)
    (hF : FmtAssembled Fmt.binary64 exSq pn "cell-based-no-smoothing" (1 / 10) fa F) : StaticKept K F exHeld3 (1 / 6) (rowErr 1 470000000 6144 40000 8 2 (rimCount exSq)) :=
  C159_plate_8 (exSq_even pn (by norm_num)) hK hF (exSq_stiffAtLeast hK)

/-- concrete case: its stiffness matrix, with smoothing and coordinates up to 64 -/
example (pn fa : Bool) : ∃ F, FmtAssembled Fmt.binary64 exSq pn "cell-based" (1 / 10) fa F ∧
    StiffnessKept exSq pn "cell-based" (1 / 10) fa F (stiffErr exSq (fun _ _ => 1) 26000000000 6144 600000000 512) :=
  C158_plate_cell_64 (exSq_even pn (by norm_num)) fa

end Meshless
