import Verif.Spec.ShearBound
import Verif.Lemmas.MagCellSum
import Verif.Lemmas.IeeeRun
import Verif.Props.Bound

/-! C156: an explicit bound on the rounding errors of `add_k0s` in double precision. -/

set_option autoImplicit false

namespace Meshless
open Spec

def prS : ProfS := ⟨1 / 4, 1, 19, 0, 2, 4600, 8, 40000⟩
def prSThin : ProfS := ⟨1 / 20, 1, 52, 0, 2, 1300000, 40, 60000000⟩
theorem prS_ok : prS.okNS = true := by decide +kernel
theorem prSThin_ok : prSThin.okNS = true := by decide +kernel
theorem prS_chk : prS.chkCellNS = true := by decide +kernel
theorem prSThin_chk : prSThin.chkCellNS = true := by decide +kernel

theorem SameStatic.shearsUpTo {m m' : Mesh} (h : SameStatic m m') {pn : Bool} {g : ℝ} (hs : ShearsUpTo m pn g) : ShearsUpTo m' pn g := by
  unfold ShearsUpTo IsCorner at *
  simp only [h.eids, h.tria, h.prop]
  exact hs

theorem SameStatic.sized {m m' : Mesh} (h : SameStatic m m') {σ L : ℝ} (hs : Sized m σ L) : Sized m' σ L := by
  intro t ht
  obtain ⟨l, h1, h2, h3, h4⟩ := hs t (h.eids ▸ ht)
  refine ⟨l, h1, h2, ?_, ?_⟩
  · unfold IsCorner at *
    simp only [h.tria, h.snx, h.sny]
    exact h3
  · rw [h.striArea]; exact h4

theorem SameStatic.shearCount {m m' : Mesh} (h : SameStatic m m') : Spec.shearCount m' = Spec.shearCount m := by
  have e : IsCorner m' = IsCorner m := by funext t i; unfold IsCorner; rw [h.tria]
  funext i j r s
  unfold Spec.shearCount
  rw [e, h.eids]

theorem SameStatic.matWithin {m m' : Mesh} (h : SameStatic m m') {K : Mat} {F : FMat} {P : ℕ → ℕ → ℝ} {k e : ℕ → ℕ → ℕ → ℕ → ℝ} :
    MatWithin m' K F P k e ↔ MatWithin m K F P k e := by
  unfold MatWithin
  simp only [h.nids]

private theorem shear_of {f : Fmt} (hf : Double f) {p : ProfS} (hp : p.okNS = true) (hc : p.chkCellNS = true) (hM : 0 ≤ p.M ∧ p.M ≤ 2 ^ 60) (hE : 0 ≤ p.E ∧ p.E ≤ 2 ^ 60)
    {m : Mesh} (w : WF m) (hi : Indexed m) (hm : FlatMesh m) (G : Key → Geo) {pn : Bool} (hh : HasProps m pn) {g L : ℝ} (hg : Medium g) (hs : ShearsUpTo m pn g)
    (hz : Sized m p.σ L) {al : ℝ} (hal : al = 0 ∨ Medium al) (fa : Bool) (hlen : m.eids.length ≤ 2 ^ 40) {P : ℕ → ℕ → ℝ}
    (hP : ∀ r < 5, ∀ q < 5, Wide (P r q) ∧ shearUnit g L r q ≤ P r q) : ShearWithin f m G pn "cell-based-no-smoothing" al fa P p.E p.M :=
  shear_within hf ⟨by exact_mod_cast hM.1, by exact_mod_cast hM.2⟩ ⟨by exact_mod_cast hE.1, by exact_mod_cast hE.2⟩ w hm (fun _ => rfl) (fun _ => rfl)
    (fun _ ht => cellNS_step hf hp hc w hm hi hh hg hs hz hal fa ht) hlen hP

section
variable {f : Fmt} (hf : Double f) {m : Mesh} (hn : Numbered m) (hm : FlatMesh m) (G : Key → Geo) {pn : Bool} (hh : HasProps m pn) {g L : ℝ} (hg : Medium g)
  (hs : ShearsUpTo m pn g) {al : ℝ} (hal : al = 0 ∨ Medium al) (fa : Bool) (hlen : m.eids.length ≤ 2 ^ 40) {P : ℕ → ℕ → ℝ}
  (hP : ∀ r < 5, ∀ q < 5, Wide (P r q) ∧ shearUnit g L r q ≤ P r q)
include hf hn hm hh hg hs hal hlen hP

/-- C156: triangles of area at least a quarter of `l²` -/
theorem C156_add_k0s_error (hz : Sized m (1 / 4) L) : ShearWithin f m G pn "cell-based-no-smoothing" al fa P 40000 8 := by
  have := shear_of hf prS_ok prS_chk (by norm_num [prS]) (by norm_num [prS]) hn.wf hn.indexed hm G hh hg hs (by norm_num [prS]; norm_num at hz; exact hz) hal fa hlen hP
  norm_num [prS] at this ⊢
  exact this

/-- C156: thinner triangles, of area at least a twentieth of `l²` -/
theorem C156_add_k0s_error_thin (hz : Sized m (1 / 20) L) : ShearWithin f m G pn "cell-based-no-smoothing" al fa P 60000000 40 := by
  have := shear_of hf prSThin_ok prSThin_chk (by norm_num [prSThin]) (by norm_num [prSThin]) hn.wf hn.indexed hm G hh hg hs (by norm_num [prSThin]; norm_num at hz; exact hz)
    hal fa hlen hP
  norm_num [prSThin] at this ⊢
  exact this

end

/-- `calc_k0` then `add_k0s` -/
theorem stiff_from {f : Fmt} (hf : Double f) {p0 : Prof} (hp0 : p0.ok = true) (hc0 : p0.chk = true) (hM0 : 0 ≤ p0.M ∧ p0.M ≤ 2 ^ 60) (hE0 : 0 ≤ p0.E ∧ p0.E ≤ 2 ^ 60)
    {m : Mesh} (hr : Reachable m) (hpr : Proper m) (hg : Planar m) {pn : Bool} (hh : HasProps m pn) (hne : m.nids ≠ []) {a b d : ℝ} (ha : Medium a) (hb : Medium b) (hd : Medium d)
    (hl : LamsUpTo m pn a b d) (hfit : Fits m p0.σ p0.G) {method : String} {al : ℝ} {fa : Bool} (hlen : m.ekeys.length ≤ 2 ^ 38) {P : ℕ → ℕ → ℝ}
    (hP : ∀ r < 5, ∀ q < 5, behind a b d r q ≤ P r q) {E M : ℝ}
    (hsw : Indexed (calcK0 m pn).1 → ShearWithin f (calcK0 m pn).1 (f.calcK0 m pn).2.1 pn method al fa P E M) : StiffWithin f m pn method al fa P p0.E p0.M E M := by
  have hM' : 0 ≤ (p0.M : ℝ) ∧ (p0.M : ℝ) ≤ 2 ^ 60 := ⟨by exact_mod_cast hM0.1, by exact_mod_cast hM0.2⟩
  have hE' : 0 ≤ (p0.E : ℝ) ∧ (p0.E : ℝ) ≤ 2 ^ 60 := ⟨by exact_mod_cast hE0.1, by exact_mod_cast hE0.2⟩
  have w := hr.wf
  have hst := calcK0_static m pn w
  obtain ⟨K0, F0, h1, h2, h3, h4⟩ := calcK0_tot hf hp0 hc0 hM' hE' w hpr hg hh hne ha hb hd hl hfit hlen
  have hdim : K0.dim = m.nids.length * 5 := by
    obtain ⟨K1, k1, k2, _⟩ := calcK0_proper w hpr hh hne
    rw [h1] at k1
    obtain rfl := Except.ok.inj k1
    exact k2
  have hidx : Indexed (calcK0 m pn).1 := (Numbered.intro m hr pn K0 h1 []).indexed
  obtain ⟨f1, f2⟩ := calcK0_fst f m pn
  have hcn : ∀ i j, ((contributions m i j : ℕ) : ℝ) ≤ 2 ^ 38 := fun i j => by
    have : contributions m i j ≤ m.ekeys.length := List.countP_le_length
    exact_mod_cast this.trans hlen
  obtain ⟨K, F, e1, e2, e3⟩ := hsw hidx K0 F0 (fun i j _ _ => 4 * contributions m i j * p0.M) (fun i j _ _ => 8 * contributions m i j * (p0.E + 4 * contributions m i j * p0.M + 1))
    (by
      rw [hst.matWithin]
      refine ⟨hdim, h3.trans hdim, fun i hi j hj r hr q hq => ?_⟩
      obtain ⟨v, v1, v2, v3⟩ := h4 i hi j hj r hr q hq
      have hc0 : (0:ℝ) ≤ (contributions m i j : ℕ) := Nat.cast_nonneg _
      have hbP := hP r hr q hq
      have hM00 := hM'.1
      have hE00 := hE'.1
      refine ⟨v, v1, v2.trans ?_, v3.trans ?_⟩
      · push_cast
        exact mul_le_mul_of_nonneg_right hbP (by positivity)
      · rw [u64_eq]
        push_cast
        have : (0:ℝ) ≤ 2 * (4 * contributions m i j) * (p0.E + 4 * contributions m i j * p0.M + 1) := by positivity
        calc 1 / 2 ^ 53 * (behind a b d r q * (2 * (4 * (contributions m i j : ℝ)) * (p0.E + 4 * contributions m i j * p0.M + 1)))
            ≤ 1 / 2 ^ 53 * (P r q * (2 * (4 * (contributions m i j : ℝ)) * (p0.E + 4 * contributions m i j * p0.M + 1))) := by gcongr
          _ = _ := by ring)
    (fun i j r q => by
      have hc0 : (0:ℝ) ≤ (contributions m i j : ℕ) := Nat.cast_nonneg _
      have hc1 := hcn i j
      have hM00 := hM'.1
      have hE00 := hE'.1
      have a1 : 4 * (contributions m i j : ℝ) * p0.M ≤ 4 * 2 ^ 38 * 2 ^ 60 := by gcongr; exact hM'.2
      refine ⟨by positivity, a1.trans (by norm_num), by positivity, ?_⟩
      calc 8 * (contributions m i j : ℝ) * (p0.E + 4 * contributions m i j * p0.M + 1) ≤ 8 * 2 ^ 38 * (2 ^ 60 + 4 * 2 ^ 38 * 2 ^ 60 + 1) := by gcongr; exact hE'.2
        _ ≤ 2 ^ 200 := by norm_num)
  refine ⟨K, F, ⟨K0, h1, e1⟩, ⟨F0, h2, by rw [f1]; exact e2⟩, ?_⟩
  rw [hst.matWithin, hst.shearCount] at e3
  convert e3 using 6; ring

private theorem stiff_of {f : Fmt} (hf : Double f) {p0 : Prof} (hp0 : p0.ok = true) (hc0 : p0.chk = true) (hM0 : 0 ≤ p0.M ∧ p0.M ≤ 2 ^ 60) (hE0 : 0 ≤ p0.E ∧ p0.E ≤ 2 ^ 60)
    {p : ProfS} (hp : p.okNS = true) (hc : p.chkCellNS = true) (hM : 0 ≤ p.M ∧ p.M ≤ 2 ^ 60) (hE : 0 ≤ p.E ∧ p.E ≤ 2 ^ 60) {m : Mesh} (hr : Reachable m) (hpr : Proper m)
    (hg : Planar m) {pn : Bool} (hh : HasProps m pn) (hne : m.nids ≠ []) {a b d g L : ℝ} (ha : Medium a) (hb : Medium b) (hd : Medium d) (hgm : Medium g)
    (hl : LamsUpTo m pn a b d) (hs : ShearsUpTo m pn g) (hfit : Fits m p0.σ p0.G) (hz : Sized m p.σ L) {al : ℝ} (hal : al = 0 ∨ Medium al) (fa : Bool)
    (hlen : m.ekeys.length ≤ 2 ^ 38) (hlen' : m.eids.length ≤ 2 ^ 40) {P : ℕ → ℕ → ℝ}
    (hP : ∀ r < 5, ∀ q < 5, Wide (P r q) ∧ behind a b d r q ≤ P r q ∧ shearUnit g L r q ≤ P r q) :
    StiffWithin f m pn "cell-based-no-smoothing" al fa P p0.E p0.M p.E p.M := by
  have hst := calcK0_static m pn hr.wf
  exact stiff_from hf hp0 hc0 hM0 hE0 hr hpr hg hh hne ha hb hd hl hfit hlen (fun r hr q hq => (hP r hr q hq).2.1) fun hidx =>
    shear_of hf hp hc hM hE (hst.wf hr.wf) hidx (hst.planar hg).flatMesh (f.calcK0 m pn).2.1 (hst.hasProps hh) hgm (hst.shearsUpTo hs) (hst.sized hz) hal fa
      (by rw [hst.eids]; exact hlen') (fun r hr q hq => ⟨(hP r hr q hq).1, (hP r hr q hq).2.2⟩)

section
variable {f : Fmt} (hf : Double f) {m : Mesh} (hr : Reachable m) (hp : Proper m) (hg : Planar m) {pn : Bool} (hh : HasProps m pn) (hne : m.nids ≠ []) {a b d g L : ℝ}
  (ha : Medium a) (hb : Medium b) (hd : Medium d) (hgm : Medium g) (hl : LamsUpTo m pn a b d) (hs : ShearsUpTo m pn g) {al : ℝ} (hal : al = 0 ∨ Medium al) (fa : Bool)
  (hlen : m.ekeys.length ≤ 2 ^ 38) (hlen' : m.eids.length ≤ 2 ^ 40) {P : ℕ → ℕ → ℝ}
  (hP : ∀ r < 5, ∀ q < 5, Wide (P r q) ∧ behind a b d r q ≤ P r q ∧ shearUnit g L r q ≤ P r q)
include hf hr hp hg hh hne ha hb hd hgm hl hs hal hlen hlen' hP

/-- C156: the complete stiffness matrix; triangles of area at least a quarter of `l²`, coordinates up to `8 l` -/
theorem C156_stiffness_error_8 (hfit : Fits m (1 / 4) 8) (hz : Sized m (1 / 4) L) : StiffWithin f m pn "cell-based-no-smoothing" al fa P 470000000 6144 40000 8 := by
  have := stiff_of hf pr8_ok pr8_chk (by norm_num [pr8]) (by norm_num [pr8]) prS_ok prS_chk (by norm_num [prS]) (by norm_num [prS]) hr hp hg hh hne ha hb hd hgm hl hs
    (by norm_num [pr8]; norm_num at hfit; exact hfit) (by norm_num [prS]; norm_num at hz; exact hz) hal fa hlen hlen' hP
  norm_num [pr8, prS] at this ⊢
  exact this

/-- C156: coordinates up to `64 l` -/
theorem C156_stiffness_error_64 (hfit : Fits m (1 / 4) 64) (hz : Sized m (1 / 4) L) : StiffWithin f m pn "cell-based-no-smoothing" al fa P 26000000000 6144 40000 8 := by
  have := stiff_of hf pr64_ok pr64_chk (by norm_num [pr64]) (by norm_num [pr64]) prS_ok prS_chk (by norm_num [prS]) (by norm_num [prS]) hr hp hg hh hne ha hb hd hgm hl hs
    (by norm_num [pr64]; norm_num at hfit; exact hfit) (by norm_num [prS]; norm_num at hz; exact hz) hal fa hlen hlen' hP
  norm_num [pr64, prS] at this ⊢
  exact this

/-- C156: coordinates up to `1000 l` -/
theorem C156_stiffness_error_1000 (hfit : Fits m (1 / 4) 1000) (hz : Sized m (1 / 4) L) :
    StiffWithin f m pn "cell-based-no-smoothing" al fa P 6100000000000 6144 40000 8 := by
  have := stiff_of hf pr1000_ok pr1000_chk (by norm_num [pr1000]) (by norm_num [pr1000]) prS_ok prS_chk (by norm_num [prS]) (by norm_num [prS]) hr hp hg hh hne ha hb hd hgm
    hl hs (by norm_num [pr1000]; norm_num at hfit; exact hfit) (by norm_num [prS]; norm_num at hz; exact hz) hal fa hlen hlen' hP
  norm_num [pr1000, prS] at this ⊢
  exact this

/-- C156: thinner triangles, of area at least a twentieth of `l²` -/
theorem C156_stiffness_error_thin (hfit : Fits m (1 / 20) 64) (hz : Sized m (1 / 20) L) :
    StiffWithin f m pn "cell-based-no-smoothing" al fa P 3200000000000 153600 60000000 40 := by
  have := stiff_of hf prThin_ok prThin_chk (by norm_num [prThin]) (by norm_num [prThin]) prSThin_ok prSThin_chk (by norm_num [prSThin]) (by norm_num [prSThin]) hr hp hg hh
    hne ha hb hd hgm hl hs (by norm_num [prThin]; norm_num at hfit; exact hfit) (by norm_num [prSThin]; norm_num at hz; exact hz) hal fa hlen hlen' hP
  norm_num [prThin, prSThin] at this ⊢
  exact this

end

/-! ### the two-triangle square -/

theorem exIso_shearUpTo : Spec.Lam.ShearUpTo exIso 1 where
  k13 := by simp [exIso, exLam]
  k23 := by simp [exIso, exLam]
  E0 := by simp [exIso, exLam]
  E1 := by simp [exIso, exLam]
  h := by simpa [exIso, exLam] using medium_one

theorem exSq_shearsUpTo (pn : Bool) : ShearsUpTo exSq pn 1 := by
  have hw := (exMesh_reachable exIso exIso exIso exIso exIso exIso).wf
  have hp := exMesh_proper exIso exIso exIso exIso exIso exIso
  cases pn with
  | true =>
    unfold ShearsUpTo
    rw [if_pos rfl]
    intro e he i hi p h
    have hu : InUse exSq true p := by unfold InUse; rw [if_pos rfl]; exact ⟨i, corner_mem hw hp.distinct he hi, h⟩
    rw [exSq_inUse hu]
    exact exIso_shearUpTo
  | false =>
    unfold ShearsUpTo
    rw [if_neg (by simp)]
    intro e he p h
    have hu : InUse exSq false p := by unfold InUse; rw [if_neg (by simp)]; exact ⟨e, he, h⟩
    rw [exSq_inUse hu]
    exact exIso_shearUpTo

theorem exSq_sized {σ : ℝ} (hσ : σ ≤ 1 / 2) : Sized exSq σ 1 := by
  intro t he
  rw [exMesh_eids] at he
  simp only [List.mem_cons, List.not_mem_nil, or_false] at he
  refine ⟨1, medium_one, le_rfl, fun i j hi hj => ?_, ?_⟩
  · unfold IsCorner at hi hj
    rcases he with rfl | rfl <;> simp only [exMesh_tria1, exMesh_tria2] at hi hj <;> rcases hi with rfl | rfl | rfl <;> rcases hj with rfl | rfl | rfl <;>
      simp only [nx, ny, exMesh_node1, exMesh_node2, exMesh_node3, exMesh_node4] <;> norm_num
  · have : triArea exSq t = 1 / 2 := by
      rcases he with rfl | rfl <;> simp only [triArea, sarea3, exMesh_tria1, exMesh_tria2, mean_single, nx, ny, exMesh_node1, exMesh_node2, exMesh_node3, exMesh_node4] <;> norm_num
    rw [this]; linarith

theorem wide_one : Wide 1 := ⟨zpow_le_one_of_nonpos₀ one_le_two (by norm_num), one_le_zpow₀ one_le_two (by norm_num)⟩

theorem exSq_units {r q : ℕ} : Wide 1 ∧ behind 1 1 1 r q ≤ 1 ∧ shearUnit 1 1 r q ≤ 1 := by
  refine ⟨wide_one, le_of_eq ?_, le_of_eq ?_⟩
  · unfold behind; split_ifs <;> rfl
  · unfold shearUnit; split_ifs <;> norm_num

theorem medium_tenth : Medium (1 / 10) := ⟨by norm_num [zpow_neg], by norm_num⟩

theorem exSq_counts (i j r s : ℕ) : ((contributions exSq i j : ℕ) : ℝ) ≤ 5 ∧ ((shearCount exSq i j r s : ℕ) : ℝ) ≤ 2 := by
  constructor
  · have : contributions exSq i j ≤ exSq.ekeys.length := List.countP_le_length
    rw [exMesh_ekeys] at this
    exact_mod_cast this
  · have : shearCount exSq i j r s ≤ exSq.eids.length := by
      unfold shearCount
      split
      · exact Nat.zero_le _
      · exact List.countP_le_length
    rw [exMesh_eids] at this
    exact_mod_cast this

/-- C156: in double precision every entry of the complete stiffness matrix of the square is a number within `6e-6` of the exact one -/
theorem exSq_stiff (pn fa : Bool) : ∃ K F, Assembled exSq pn "cell-based-no-smoothing" (1 / 10) fa K ∧ FmtAssembled Fmt.binary64 exSq pn "cell-based-no-smoothing" (1 / 10) fa F ∧
    ∀ i ∈ exSq.nids, ∀ j ∈ exSq.nids, ∀ r < 5, ∀ s < 5, ∃ x, F.get (5 * exSq.nids.idxOf i + r) (5 * exSq.nids.idxOf j + s) = .fin x ∧
      |x - K.get (5 * exSq.nids.idxOf i + r) (5 * exSq.nids.idxOf j + s)| ≤ 6 / 1000000 := by
  obtain ⟨K, F, h1, h2, _, _, h3⟩ := C156_stiffness_error_8 (P := fun _ _ => 1) C153_binary64 (exMesh_reachable exIso exIso exIso exIso exIso exIso) (exMesh_proper ..)
    (exMesh_planar ..) (exMesh_props _ _ _ _ _ _ pn) (by rw [exMesh_nids]; simp) medium_one medium_one medium_one medium_one (exSq_upTo pn) (exSq_shearsUpTo pn)
    (Or.inr medium_tenth) fa (by rw [exMesh_ekeys]; norm_num) (by rw [exMesh_eids]; norm_num) (fun r _ q _ => exSq_units (r := r) (q := q))
    (exSq_fits (by norm_num) (by norm_num)) (exSq_sized (by norm_num))
  refine ⟨K, F, h1, h2, fun i hi j hj r hr s hs => ?_⟩
  obtain ⟨x, e1, _, e2⟩ := h3 i hi j hj r hr s hs
  refine ⟨x, e1, e2.trans ?_⟩
  obtain ⟨n1, n2⟩ := exSq_counts i j r s
  have h0 : (0:ℝ) ≤ (contributions exSq i j : ℕ) := Nat.cast_nonneg _
  have h0' : (0:ℝ) ≤ (shearCount exSq i j r s : ℕ) := Nat.cast_nonneg _
  dsimp only
  rw [one_mul, div_le_iff₀ (by positivity)]
  generalize ((contributions exSq i j : ℕ) : ℝ) = n at n1 h0
  generalize ((shearCount exSq i j r s : ℕ) : ℝ) = k at n2 h0'
  have q1 : n * n ≤ 5 * 5 := mul_le_mul n1 n1 h0 (by norm_num)
  have q2 : k * n ≤ 2 * 5 := mul_le_mul n2 n1 h0 (by norm_num)
  have q3 : k * k ≤ 2 * 2 := mul_le_mul n2 n2 h0' (by norm_num)
  have q4 : 16 * n * (470000000 + 4 * n * 6144 + 1) + 2 * k * (40000 + 4 * n * 6144 + k * 8 + 1) ≤ 40000000000 := by linarith
  refine q4.trans ?_
  norm_num

/-- adding the shear part to any matrix, here to zero -/
example (pn fa : Bool) (G : Key → Geo) : ShearWithin Fmt.binary64 (calcK0 exSq pn).1 G pn "cell-based-no-smoothing" (1 / 10) fa (fun _ _ => 1) 40000 8 := by
  have hr := exMesh_reachable exIso exIso exIso exIso exIso exIso
  have hst := calcK0_static exSq pn hr.wf
  obtain ⟨K, hK, _⟩ := calcK0_proper hr.wf (exMesh_proper ..) (exMesh_props _ _ _ _ _ _ pn) (by rw [exMesh_nids]; simp)
  have hnum : Numbered (calcK0 exSq pn).1 := Numbered.intro _ hr pn K hK []
  exact C156_add_k0s_error C153_binary64 hnum (hst.planar (exMesh_planar ..)).flatMesh _ (hst.hasProps (exMesh_props _ _ _ _ _ _ pn)) medium_one
    (hst.shearsUpTo (exSq_shearsUpTo pn)) (Or.inr medium_tenth) fa (by rw [hst.eids, exMesh_eids]; norm_num)
    (fun r _ q _ => ⟨wide_one, (exSq_units (r := r) (q := q)).2.2⟩) (hst.sized (exSq_sized (by norm_num)))

/-- a matrix of zeros meets the condition on the start of `ShearWithin` -/
example (m : Mesh) (P : ℕ → ℕ → ℝ) : MatWithin m (Mat.zeros (m.nids.length * 5)) (FMat.zeros (m.nids.length * 5)) P (fun _ _ _ _ => 0) (fun _ _ _ _ => 0) :=
  ⟨rfl, rfl, fun _ _ _ _ _ _ _ _ => ⟨0, rfl, by simp [Mat.zeros], by simp [Mat.zeros]⟩⟩

end Meshless
