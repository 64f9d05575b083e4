import Verif.Props.ShearBound
import Verif.Lemmas.MagCellT

/-! C157: an explicit bound on the rounding errors of the cell-based `add_k0s` in double precision. -/

set_option autoImplicit false

namespace Meshless
open Spec

def prC8 : ProfS := ⟨1 / 4, 8, 19, 850, 40, 4600, 512, 15000000⟩
def prC64 : ProfS := ⟨1 / 4, 64, 19, 47000, 310, 4600, 512, 600000000⟩
def prC1000 : ProfS := ⟨1 / 4, 1000, 19, 12000000, 4800, 4600, 512, 150000000000⟩
def prCThin : ProfS := ⟨1 / 20, 64, 52, 47000, 310, 1300000, 64000, 4000000000000⟩
theorem prC8_ok : prC8.okS = true := by decide +kernel
theorem prC8_chk : prC8.chkCellS = true := by decide +kernel
theorem prC64_ok : prC64.okS = true := by decide +kernel
theorem prC64_chk : prC64.chkCellS = true := by decide +kernel
theorem prC1000_ok : prC1000.okS = true := by decide +kernel
theorem prC1000_chk : prC1000.chkCellS = true := by decide +kernel
theorem prCThin_ok : prCThin.okS = true := by decide +kernel
theorem prCThin_chk : prCThin.chkCellS = true := by decide +kernel

theorem SameStatic.fitsIn {m m' : Mesh} (h : SameStatic m m') {σ G L : ℝ} (hs : FitsIn m σ G L) : FitsIn m' σ G L := by
  intro t ht
  obtain ⟨l, h1, h2, h3, h4, h5⟩ := hs t (h.eids ▸ ht)
  refine ⟨l, h1, h2, ?_, ?_, ?_⟩
  · unfold IsCorner at *
    simp only [h.tria, h.snx, h.sny]
    exact h3
  · rw [h.striArea]; exact h4
  · unfold IsCorner at *
    simp only [h.tria, h.snx, h.sny, h.xyz]
    exact h5

private theorem shear_of {f : Fmt} (hf : Double f) {p : ProfS} (hp : p.okS = true) (hc : p.chkCellS = true) (hM : 0 ≤ p.M ∧ p.M ≤ 2 ^ 60) (hE : 0 ≤ p.E ∧ p.E ≤ 2 ^ 60)
    {m : Mesh} (w : WF m) (hi : Indexed m) (hm : FlatMesh m) (G : Key → Geo) {pn : Bool} (hh : HasProps m pn) {g L : ℝ} (hg : Medium g) (hs : ShearsUpTo m pn g)
    (hz : FitsIn m p.σ p.G L) {al : ℝ} (hal : al = 0 ∨ Medium al) (fa : Bool) (hlen : m.eids.length ≤ 2 ^ 40) {P : ℕ → ℕ → ℝ}
    (hP : ∀ r < 5, ∀ q < 5, Wide (P r q) ∧ shearUnit g L r q ≤ P r q) : ShearWithin f m G pn "cell-based" al fa P p.E p.M :=
  shear_within hf ⟨by exact_mod_cast hM.1, by exact_mod_cast hM.2⟩ ⟨by exact_mod_cast hE.1, by exact_mod_cast hE.2⟩ w hm (fun _ => rfl) (fun _ => rfl)
    (fun t ht => by
      obtain ⟨l, h1, h2, h3⟩ := hz t ht
      exact cellS_step hf hp hc w hm hi hh hg hs ht h1 h2 h3 hal fa) hlen hP

section
variable {f : Fmt} (hf : Double f) {m : Mesh} (hn : Numbered m) (hm : FlatMesh m) (G : Key → Geo) {pn : Bool} (hh : HasProps m pn) {g L : ℝ} (hg : Medium g)
  (hs : ShearsUpTo m pn g) {al : ℝ} (hal : al = 0 ∨ Medium al) (fa : Bool) (hlen : m.eids.length ≤ 2 ^ 40) {P : ℕ → ℕ → ℝ}
  (hP : ∀ r < 5, ∀ q < 5, Wide (P r q) ∧ shearUnit g L r q ≤ P r q)
include hf hn hm hh hg hs hal hlen hP

/-- C157: triangles of area at least a quarter of `l²`, coordinates up to `8 l` -/
theorem C157_add_k0s_error_8 (hz : FitsIn m (1 / 4) 8 L) : ShearWithin f m G pn "cell-based" al fa P 15000000 512 := by
  have := shear_of hf prC8_ok prC8_chk (by norm_num [prC8]) (by norm_num [prC8]) hn.wf hn.indexed hm G hh hg hs
    (by norm_num [prC8]; norm_num at hz; exact hz) hal fa hlen hP
  norm_num [prC8] at this ⊢
  exact this

/-- C157: coordinates up to `64 l` -/
theorem C157_add_k0s_error_64 (hz : FitsIn m (1 / 4) 64 L) : ShearWithin f m G pn "cell-based" al fa P 600000000 512 := by
  have := shear_of hf prC64_ok prC64_chk (by norm_num [prC64]) (by norm_num [prC64]) hn.wf hn.indexed hm G hh hg hs
    (by norm_num [prC64]; norm_num at hz; exact hz) hal fa hlen hP
  norm_num [prC64] at this ⊢
  exact this

/-- C157: coordinates up to `1000 l` -/
theorem C157_add_k0s_error_1000 (hz : FitsIn m (1 / 4) 1000 L) : ShearWithin f m G pn "cell-based" al fa P 150000000000 512 := by
  have := shear_of hf prC1000_ok prC1000_chk (by norm_num [prC1000]) (by norm_num [prC1000]) hn.wf hn.indexed hm G hh hg hs
    (by norm_num [prC1000]; norm_num at hz; exact hz) hal fa hlen hP
  norm_num [prC1000] at this ⊢
  exact this

/-- C157: thinner triangles, of area at least a twentieth of `l²` -/
theorem C157_add_k0s_error_thin (hz : FitsIn m (1 / 20) 64 L) : ShearWithin f m G pn "cell-based" al fa P 4000000000000 64000 := by
  have := shear_of hf prCThin_ok prCThin_chk (by norm_num [prCThin]) (by norm_num [prCThin]) hn.wf hn.indexed hm G hh hg hs
    (by norm_num [prCThin]; norm_num at hz; exact hz) hal fa hlen hP
  norm_num [prCThin] at this ⊢
  exact this

end

private theorem stiff_of {f : Fmt} (hf : Double f) {p0 : Prof} (hp0 : p0.ok = true) (hc0 : p0.chk = true) (hM0 : 0 ≤ p0.M ∧ p0.M ≤ 2 ^ 60) (hE0 : 0 ≤ p0.E ∧ p0.E ≤ 2 ^ 60)
    {p : ProfS} (hp : p.okS = true) (hc : p.chkCellS = true) (hM : 0 ≤ p.M ∧ p.M ≤ 2 ^ 60) (hE : 0 ≤ p.E ∧ p.E ≤ 2 ^ 60) {m : Mesh} (hr : Reachable m) (hpr : Proper m)
    (hg : Planar m) {pn : Bool} (hh : HasProps m pn) (hne : m.nids ≠ []) {a b d g L : ℝ} (ha : Medium a) (hb : Medium b) (hd : Medium d) (hgm : Medium g)
    (hl : LamsUpTo m pn a b d) (hs : ShearsUpTo m pn g) (hfit : Fits m p0.σ p0.G) (hz : FitsIn m p.σ p.G L) {al : ℝ} (hal : al = 0 ∨ Medium al) (fa : Bool)
    (hlen : m.ekeys.length ≤ 2 ^ 38) (hlen' : m.eids.length ≤ 2 ^ 40) {P : ℕ → ℕ → ℝ}
    (hP : ∀ r < 5, ∀ q < 5, Wide (P r q) ∧ behind a b d r q ≤ P r q ∧ shearUnit g L r q ≤ P r q) : StiffWithin f m pn "cell-based" al fa P p0.E p0.M p.E p.M := by
  have hst := calcK0_static m pn hr.wf
  exact stiff_from hf hp0 hc0 hM0 hE0 hr hpr hg hh hne ha hb hd hl hfit hlen (fun r hr q hq => (hP r hr q hq).2.1) fun hidx =>
    shear_of hf hp hc hM hE (hst.wf hr.wf) hidx (hst.planar hg).flatMesh (f.calcK0 m pn).2.1 (hst.hasProps hh) hgm (hst.shearsUpTo hs) (hst.fitsIn hz) hal fa
      (by rw [hst.eids]; exact hlen') (fun r hr q hq => ⟨(hP r hr q hq).1, (hP r hr q hq).2.2⟩)

section
variable {f : Fmt} (hf : Double f) {m : Mesh} (hr : Reachable m) (hp : Proper m) (hg : Planar m) {pn : Bool} (hh : HasProps m pn) (hne : m.nids ≠ []) {a b d g L : ℝ}
  (ha : Medium a) (hb : Medium b) (hd : Medium d) (hgm : Medium g) (hl : LamsUpTo m pn a b d) (hs : ShearsUpTo m pn g) {al : ℝ} (hal : al = 0 ∨ Medium al) (fa : Bool)
  (hlen : m.ekeys.length ≤ 2 ^ 38) (hlen' : m.eids.length ≤ 2 ^ 40) {P : ℕ → ℕ → ℝ}
  (hP : ∀ r < 5, ∀ q < 5, Wide (P r q) ∧ behind a b d r q ≤ P r q ∧ shearUnit g L r q ≤ P r q)
include hf hr hp hg hh hne ha hb hd hgm hl hs hal hlen hlen' hP

/-- C157: the complete stiffness matrix; triangles of area at least a quarter of `l²`, coordinates up to `8 l` -/
theorem C157_stiffness_error_8 (hfit : Fits m (1 / 4) 8) (hz : FitsIn m (1 / 4) 8 L) :
    StiffWithin f m pn "cell-based" al fa P 470000000 6144 15000000 512 := by
  have := stiff_of hf pr8_ok pr8_chk (by norm_num [pr8]) (by norm_num [pr8]) prC8_ok prC8_chk (by norm_num [prC8]) (by norm_num [prC8])
    hr hp hg hh hne ha hb hd hgm hl hs (by norm_num [pr8]; norm_num at hfit; exact hfit) (by norm_num [prC8]; norm_num at hz; exact hz) hal fa hlen hlen' hP
  norm_num [pr8, prC8] at this ⊢
  exact this

/-- C157: the complete stiffness matrix; coordinates up to `64 l` -/
theorem C157_stiffness_error_64 (hfit : Fits m (1 / 4) 64) (hz : FitsIn m (1 / 4) 64 L) :
    StiffWithin f m pn "cell-based" al fa P 26000000000 6144 600000000 512 := by
  have := stiff_of hf pr64_ok pr64_chk (by norm_num [pr64]) (by norm_num [pr64]) prC64_ok prC64_chk (by norm_num [prC64]) (by norm_num [prC64])
    hr hp hg hh hne ha hb hd hgm hl hs (by norm_num [pr64]; norm_num at hfit; exact hfit) (by norm_num [prC64]; norm_num at hz; exact hz) hal fa hlen hlen' hP
  norm_num [pr64, prC64] at this ⊢
  exact this

/-- C157: the complete stiffness matrix; coordinates up to `1000 l` -/
theorem C157_stiffness_error_1000 (hfit : Fits m (1 / 4) 1000) (hz : FitsIn m (1 / 4) 1000 L) :
    StiffWithin f m pn "cell-based" al fa P 6100000000000 6144 150000000000 512 := by
  have := stiff_of hf pr1000_ok pr1000_chk (by norm_num [pr1000]) (by norm_num [pr1000]) prC1000_ok prC1000_chk (by norm_num [prC1000]) (by norm_num [prC1000])
    hr hp hg hh hne ha hb hd hgm hl hs (by norm_num [pr1000]; norm_num at hfit; exact hfit) (by norm_num [prC1000]; norm_num at hz; exact hz) hal fa hlen hlen' hP
  norm_num [pr1000, prC1000] at this ⊢
  exact this

/-- C157: the complete stiffness matrix; thinner triangles, of area at least a twentieth of `l²` -/
theorem C157_stiffness_error_thin (hfit : Fits m (1 / 20) 64) (hz : FitsIn m (1 / 20) 64 L) :
    StiffWithin f m pn "cell-based" al fa P 3200000000000 153600 4000000000000 64000 := by
  have := stiff_of hf prThin_ok prThin_chk (by norm_num [prThin]) (by norm_num [prThin]) prCThin_ok prCThin_chk (by norm_num [prCThin]) (by norm_num [prCThin])
    hr hp hg hh hne ha hb hd hgm hl hs (by norm_num [prThin]; norm_num at hfit; exact hfit) (by norm_num [prCThin]; norm_num at hz; exact hz) hal fa hlen hlen' hP
  norm_num [prThin, prCThin] at this ⊢
  exact this

end

/-! ### the two-triangle square -/

theorem exSq_fitsIn {σ G : ℝ} (hσ : σ ≤ 1 / 2) (hG : 1 ≤ G) : FitsIn exSq σ G 1 := by
  intro t he
  rw [exMesh_eids] at he
  simp only [List.mem_cons, List.not_mem_nil, or_false] at he
  refine ⟨1, medium_one, le_rfl, fun i j hi hj => ?_, ?_, fun i hi => ?_⟩
  · unfold IsCorner at hi hj
    rcases he with rfl | rfl <;> simp only [exMesh_tria1, exMesh_tria2] at hi hj <;> rcases hi with rfl | rfl | rfl <;> rcases hj with rfl | rfl | rfl <;>
      simp only [nx, ny, exMesh_node1, exMesh_node2, exMesh_node3, exMesh_node4] <;> norm_num
  · have : triArea exSq t = 1 / 2 := by
      rcases he with rfl | rfl <;> simp only [triArea, sarea3, exMesh_tria1, exMesh_tria2, mean_single, nx, ny, exMesh_node1, exMesh_node2, exMesh_node3, exMesh_node4] <;> norm_num
    rw [this]; linarith
  · unfold IsCorner at hi
    rcases he with rfl | rfl <;> simp only [exMesh_tria1, exMesh_tria2] at hi <;> rcases hi with rfl | rfl | rfl <;>
      simp only [nx, ny, exMesh_node1, exMesh_node2, exMesh_node3, exMesh_node4] <;> refine ⟨?_, ?_, ?_⟩ <;> norm_num <;> linarith

/-- C157: in double precision every entry of the complete stiffness matrix of the square is a number within `7e-6` of the exact one -/
example (pn fa : Bool) : ∃ K F, Assembled exSq pn "cell-based" (1 / 10) fa K ∧ FmtAssembled Fmt.binary64 exSq pn "cell-based" (1 / 10) fa F ∧
    ∀ i ∈ exSq.nids, ∀ j ∈ exSq.nids, ∀ r < 5, ∀ s < 5, ∃ x, F.get (5 * exSq.nids.idxOf i + r) (5 * exSq.nids.idxOf j + s) = .fin x ∧
      |x - K.get (5 * exSq.nids.idxOf i + r) (5 * exSq.nids.idxOf j + s)| ≤ 7 / 1000000 := by
  obtain ⟨K, F, h1, h2, _, _, h3⟩ := C157_stiffness_error_8 (P := fun _ _ => 1) C153_binary64 (exMesh_reachable exIso exIso exIso exIso exIso exIso) (exMesh_proper ..)
    (exMesh_planar ..) (exMesh_props _ _ _ _ _ _ pn) (by rw [exMesh_nids]; simp) medium_one medium_one medium_one medium_one (exSq_upTo pn) (exSq_shearsUpTo pn)
    (Or.inr medium_tenth) fa (by rw [exMesh_ekeys]; norm_num) (by rw [exMesh_eids]; norm_num) (fun r _ q _ => exSq_units (r := r) (q := q))
    (exSq_fits (by norm_num) (by norm_num)) (exSq_fitsIn (by norm_num) (by norm_num))
  refine ⟨K, F, h1, h2, fun i hi j hj r hr s hs => ?_⟩
  obtain ⟨x, e1, _, e2⟩ := h3 i hi j hj r hr s hs
  refine ⟨x, e1, e2.trans ?_⟩
  obtain ⟨n1, n2⟩ := exSq_counts i j r s
  have h0 : (0:ℝ) ≤ (contributions exSq i j : ℕ) := Nat.cast_nonneg _
  have h0' : (0:ℝ) ≤ (shearCount exSq i j r s : ℕ) := Nat.cast_nonneg _
  dsimp only
  rw [one_mul, div_le_iff₀ (by positivity)]
  generalize ((contributions exSq i j : ℕ) : ℝ) = n at n1 h0
  generalize ((shearCount exSq i j r s : ℕ) : ℝ) = k at n2 h0'
  have q1 : n * n ≤ 5 * 5 := mul_le_mul n1 n1 h0 (by norm_num)
  have q2 : k * n ≤ 2 * 5 := mul_le_mul n2 n1 h0 (by norm_num)
  have q3 : k * k ≤ 2 * 2 := mul_le_mul n2 n2 h0' (by norm_num)
  have q4 : 16 * n * (470000000 + 4 * n * 6144 + 1) + 2 * k * (15000000 + 4 * n * 6144 + k * 512 + 1) ≤ 40000000000 := by linarith
  refine q4.trans ?_
  norm_num

/-- adding the shear part to any matrix -/
example (pn fa : Bool) (G : Key → Geo) : ShearWithin Fmt.binary64 (calcK0 exSq pn).1 G pn "cell-based" (1 / 10) fa (fun _ _ => 1) 4000000000000 64000 := by
  have hr := exMesh_reachable exIso exIso exIso exIso exIso exIso
  have hst := calcK0_static exSq pn hr.wf
  obtain ⟨K, hK, _⟩ := calcK0_proper hr.wf (exMesh_proper ..) (exMesh_props _ _ _ _ _ _ pn) (by rw [exMesh_nids]; simp)
  have hnum : Numbered (calcK0 exSq pn).1 := Numbered.intro _ hr pn K hK []
  exact C157_add_k0s_error_thin C153_binary64 hnum (hst.planar (exMesh_planar ..)).flatMesh _ (hst.hasProps (exMesh_props _ _ _ _ _ _ pn)) medium_one
    (hst.shearsUpTo (exSq_shearsUpTo pn)) (Or.inr medium_tenth) fa (by rw [hst.eids, exMesh_eids]; norm_num)
    (fun r _ q _ => ⟨wide_one, (exSq_units (r := r) (q := q)).2.2⟩) (hst.fitsIn (exSq_fitsIn (by norm_num) (by norm_num)))

end Meshless
