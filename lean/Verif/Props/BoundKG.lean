import Verif.Lemmas.MagKGSum
import Verif.Lemmas.KGLin
import Verif.Props.Bound

/-! C160: an explicit bound on the rounding errors of `calc_kG` in double precision. -/

set_option autoImplicit false

namespace Meshless
open Spec

def gr8 : GProf := ⟨pr8, 2, 83000, 12288, 990000000⟩
def gr64 : GProf := ⟨pr64, 2, 4600000, 12288, 54000000000⟩
def gr1000 : GProf := ⟨pr1000, 2, 1100000000, 12288, 13000000000000⟩
theorem gr8_ok : gr8.ok = true := by decide +kernel
theorem gr64_ok : gr64.ok = true := by decide +kernel
theorem gr1000_ok : gr1000.ok = true := by decide +kernel
theorem gr8_chk : gr8.chk = true := by decide +kernel
theorem gr64_chk : gr64.chk = true := by decide +kernel
theorem gr1000_chk : gr1000.chk = true := by decide +kernel

private theorem within_of {f : Fmt} (hf : Double f) {p : GProf} (hp0 : p.ok = true) (hc : p.chk = true) (hM : 0 ≤ p.M ∧ p.M ≤ 2 ^ 60) (hE : 0 ≤ p.E ∧ p.E ≤ 2 ^ 60)
    {m : Mesh} (hr : Reachable m) (hp : Proper m) (hg : Planar m) {pn : Bool} (hh : HasProps m pn) (hne : m.nids ≠ []) {a b d n : ℝ} (ha : Medium a) (hb : Medium b)
    (hn : Medium n) (hl : LamsUpTo m pn a b d) (hlen : m.ekeys.length ≤ 2 ^ 38) {x : List ℝ} (hx : x.length = 5 * m.nids.length)
    (hfit : Loaded m p.p.σ p.p.G a b n (vec x)) :
    ∃ K F, calcKG (calcK0 m pn).1 x pn = .ok K ∧ f.calcKG (f.calcK0 m pn).1 (f.calcK0 m pn).2.1 x pn = .ok F ∧ F.dim = K.dim ∧
      ∀ i ∈ m.nids, ∀ j ∈ m.nids, ∀ r < 5, ∀ s < 5, |K.get (dofNo m i r) (dofNo m j s)| ≤ (if r = 2 ∧ s = 2 then n * (4 * contributionsKG m i j * p.M) else 0) ∧
        ∃ v, F.get (dofNo m i r) (dofNo m j s) = .fin v ∧ |v - K.get (dofNo m i r) (dofNo m j s)| ≤ kGErr (contributionsKG m i j) n p.E p.M r s := by
  have hM' : 0 ≤ (p.M : ℝ) ∧ (p.M : ℝ) ≤ 2 ^ 60 := ⟨by exact_mod_cast hM.1, by exact_mod_cast hM.2⟩
  have hE' : 0 ≤ (p.E : ℝ) ∧ (p.E : ℝ) ≤ 2 ^ 60 := ⟨by exact_mod_cast hE.1, by exact_mod_cast hE.2⟩
  have hn0 : 0 ≤ n := le_trans (by positivity) hn.1
  obtain ⟨K, F, h1, h2, h3, h4⟩ := calcKG_tot hf hp0 hc hM' hE' hr.wf hp hg hh hne ha hb hn hl hx hfit hlen
  refine ⟨K, F, h1, h2, h3, fun i hi j hj r hr s hs => ?_⟩
  obtain ⟨v, e1, e2, e3⟩ := h4 i hi j hj r hr s hs
  unfold kGErr
  split at e3
  · rename_i hrs
    rw [if_pos hrs] at e2 ⊢
    rw [if_pos hrs]
    refine ⟨e2.trans_eq (by push_cast; ring), v, e1, e3.trans_eq ?_⟩
    rw [u64_eq]; push_cast; ring
  · rename_i hrs
    rw [if_neg hrs] at e2 ⊢
    rw [if_neg hrs]
    exact ⟨e2.trans_eq (by simp), v, e1, e3.trans_eq (by simp)⟩

section
variable {f : Fmt} (hf : Double f) {m : Mesh} (hr : Reachable m) (hp : Proper m) (hg : Planar m) {pn : Bool} (hh : HasProps m pn) (hne : m.nids ≠ []) {a b d n : ℝ}
  (ha : Medium a) (hb : Medium b) (hn : Medium n) (hl : LamsUpTo m pn a b d) (hlen : m.ekeys.length ≤ 2 ^ 38)
include hf hr hp hg hh hne ha hb hn hl hlen

private theorem bound_of {p : GProf} (hp0 : p.ok = true) (hc : p.chk = true) (hM : 0 ≤ p.M ∧ p.M ≤ 2 ^ 60) (hE : 0 ≤ p.E ∧ p.E ≤ 2 ^ 60)
    {x : List ℝ} (hx : x.length = 5 * m.nids.length) (hfit : Loaded m p.p.σ p.p.G a b n (vec x)) : KGWithin f m pn x n p.E p.M := by
  obtain ⟨K, F, h1, h2, h3, h4⟩ := within_of hf hp0 hc hM hE hr hp hg hh hne ha hb hn hl hlen hx hfit
  exact ⟨K, F, h1, h2, h3, fun i hi j hj r hr s hs => (h4 i hi j hj r hr s hs).2⟩

private theorem near_of {p : GProf} (hp0 : p.ok = true) (hc : p.chk = true) (hM : 0 ≤ p.M ∧ p.M ≤ 2 ^ 60) (hE : 0 ≤ p.E ∧ p.E ≤ 2 ^ 60)
    {x y : List ℝ} (hx : x.length = 5 * m.nids.length) (hy : y.length = 5 * m.nids.length) (hfit : Loaded m p.p.σ p.p.G a b n (vec y)) {e : ℝ} (he : Medium e)
    (hd : Loaded m p.p.σ p.p.G a b e fun i => vec y i - vec x i) : KGNear f m pn x y n e p.E p.M := by
  obtain ⟨K, F, h1, h2, h3, h4⟩ := within_of hf hp0 hc hM hE hr hp hg hh hne ha hb hn hl hlen hy hfit
  have hxy : y.length = x.length := hy.trans hx.symm
  have hc1 := comb_length (a := 1) (b := -1) hxy
  have hc2 : vec (comb 1 (-1) y x) = fun i => vec y i - vec x i := by
    funext i
    show (comb 1 (-1) y x).getD i 0 = _
    rw [comb_getD _ _ _ _ hxy]
    simp only [vec]; ring
  obtain ⟨K', _, g1, _, _, g4⟩ := within_of hf hp0 hc hM hE hr hp hg hh hne ha hb he hl hlen (x := comb 1 (-1) y x) (hc1.trans hy) (by rw [hc2]; exact hd)
  rcases calcKG_lin (m := (calcK0 m pn).1) (pn := pn) 1 (-1) hxy with ⟨er, q, _⟩ | ⟨K1, K2, K3, q1, q2, q3, q4, q5, q6⟩
  · rw [h1] at q; cases q
  obtain rfl : K = K1 := Except.ok.inj (h1.symm.trans q1)
  obtain rfl : K' = K3 := Except.ok.inj (g1.symm.trans q3)
  refine ⟨K2, F, q2, h2, h3.trans q4, fun i hi j hj r hr s hs => ?_⟩
  obtain ⟨_, v, v1, v2⟩ := h4 i hi j hj r hr s hs
  have k := (g4 i hi j hj r hr s hs).1
  rw [q6] at k
  refine ⟨v, v1, ?_⟩
  rw [show v - K2.get (dofNo m i r) (dofNo m j s) = (v - K.get (dofNo m i r) (dofNo m j s)) +
    (1 * K.get (dofNo m i r) (dofNo m j s) + -1 * K2.get (dofNo m i r) (dofNo m j s)) by ring]
  exact (abs_add_le _ _).trans (add_le_add v2 k)

section
variable {x : List ℝ} (hx : x.length = 5 * m.nids.length)
include hx

/-- C160: triangles of area at least a quarter of `l²`, coordinates up to `8 l` -/
theorem C160_kG_error_8 (hfit : Loaded m (1 / 4) 8 a b n (vec x)) : KGWithin f m pn x n 990000000 12288 := by
  have := bound_of hf hr hp hg hh hne ha hb hn hl hlen gr8_ok gr8_chk (by norm_num [gr8]) (by norm_num [gr8]) hx (by norm_num [gr8, pr8]; exact hfit)
  norm_num [gr8] at this ⊢
  exact this

/-- C160: coordinates up to `64 l` -/
theorem C160_kG_error_64 (hfit : Loaded m (1 / 4) 64 a b n (vec x)) : KGWithin f m pn x n 54000000000 12288 := by
  have := bound_of hf hr hp hg hh hne ha hb hn hl hlen gr64_ok gr64_chk (by norm_num [gr64]) (by norm_num [gr64]) hx (by norm_num [gr64, pr64]; exact hfit)
  norm_num [gr64] at this ⊢
  exact this

/-- C160: coordinates up to `1000 l` -/
theorem C160_kG_error_1000 (hfit : Loaded m (1 / 4) 1000 a b n (vec x)) : KGWithin f m pn x n 13000000000000 12288 := by
  have := bound_of hf hr hp hg hh hne ha hb hn hl hlen gr1000_ok gr1000_chk (by norm_num [gr1000]) (by norm_num [gr1000]) hx (by norm_num [gr1000, pr1000]; exact hfit)
  norm_num [gr1000] at this ⊢
  exact this

variable {y : List ℝ} (hy : y.length = 5 * m.nids.length) {e : ℝ} (he : Medium e)
include hy he

/-- C160: from displacements that are themselves off by `e` -/
theorem C160_kG_near_8 (hfit : Loaded m (1 / 4) 8 a b n (vec y)) (hd : Loaded m (1 / 4) 8 a b e fun i => vec y i - vec x i) :
    KGNear f m pn x y n e 990000000 12288 := by
  have := near_of hf hr hp hg hh hne ha hb hn hl hlen gr8_ok gr8_chk (by norm_num [gr8]) (by norm_num [gr8]) hx hy (by norm_num [gr8, pr8]; exact hfit) he
    (by norm_num [gr8, pr8]; exact hd)
  norm_num [gr8] at this ⊢
  exact this

theorem C160_kG_near_64 (hfit : Loaded m (1 / 4) 64 a b n (vec y)) (hd : Loaded m (1 / 4) 64 a b e fun i => vec y i - vec x i) :
    KGNear f m pn x y n e 54000000000 12288 := by
  have := near_of hf hr hp hg hh hne ha hb hn hl hlen gr64_ok gr64_chk (by norm_num [gr64]) (by norm_num [gr64]) hx hy (by norm_num [gr64, pr64]; exact hfit) he
    (by norm_num [gr64, pr64]; exact hd)
  norm_num [gr64] at this ⊢
  exact this

theorem C160_kG_near_1000 (hfit : Loaded m (1 / 4) 1000 a b n (vec y)) (hd : Loaded m (1 / 4) 1000 a b e fun i => vec y i - vec x i) :
    KGNear f m pn x y n e 13000000000000 12288 := by
  have := near_of hf hr hp hg hh hne ha hb hn hl hlen gr1000_ok gr1000_chk (by norm_num [gr1000]) (by norm_num [gr1000]) hx hy (by norm_num [gr1000, pr1000]; exact hfit) he
    (by norm_num [gr1000, pr1000]; exact hd)
  norm_num [gr1000] at this ⊢
  exact this

end
end

theorem exSq_fitsAt {σ G : ℝ} (hσ : σ ≤ 1 / 2) (hG : 1 ≤ G) {t : ℕ} (he : t ∈ exSq.eids) : FitsAt exSq σ G 1 t := by
  rw [exMesh_eids] at he
  simp only [List.mem_cons, List.not_mem_nil, or_false] at he
  refine ⟨fun i j hi hj => ?_, ?_, fun i hi => ?_⟩
  · unfold IsCorner at hi hj
    rcases he with rfl | rfl <;> simp only [exMesh_tria1, exMesh_tria2] at hi hj <;> rcases hi with rfl | rfl | rfl <;> rcases hj with rfl | rfl | rfl <;>
      simp only [nx, ny, exMesh_node1, exMesh_node2, exMesh_node3, exMesh_node4] <;> norm_num
  · have : triArea exSq t = 1 / 2 := by
      rcases he with rfl | rfl <;> simp only [triArea, sarea3, exMesh_tria1, exMesh_tria2, mean_single, nx, ny, exMesh_node1, exMesh_node2, exMesh_node3, exMesh_node4] <;> norm_num
    rw [this]; linarith
  · unfold IsCorner at hi
    rcases he with rfl | rfl <;> simp only [exMesh_tria1, exMesh_tria2] at hi <;> rcases hi with rfl | rfl | rfl <;>
      simp only [nx, ny, exMesh_node1, exMesh_node2, exMesh_node3, exMesh_node4] <;> norm_num <;>
      first | linarith | (refine ⟨?_, ?_⟩ <;> linarith) | (refine ⟨?_, ?_, ?_⟩ <;> linarith)

/-- C160: the two-triangle square under displacements up to `n / 1024`, with `l = 1` -/
theorem exSq_loaded {σ G n : ℝ} (hσ : σ ≤ 1 / 2) (hG : 1 ≤ G) {x : ℕ → ℝ} (hx : ∀ i ∈ exSq.nids, ∀ r < 5, r ≠ 2 → |x (dofNo exSq i r)| ≤ n / 1024) :
    Loaded exSq σ G 1 1 n x := by
  intro k hk
  refine ⟨1, medium_one, fun t ht => exSq_fitsAt hσ hG (trias_mem (exMesh_reachable exIso exIso exIso exIso exIso exIso).wf (exMesh_proper ..) hk ht),
    fun i hi => ⟨fun r hr => ?_, fun r hr => ?_⟩⟩
  · rw [mul_one, mul_one]; exact hx i hi r (by omega) (by omega)
  · rw [mul_one, mul_one]; exact hx i hi r (by omega) (by omega)

/-- C160: displacements of the square: stretching, shearing and bending -/
noncomputable def exDisp : List ℝ := [0, 0, 0, 0, 0, 1 / 1024, 0, 7, 0, 1 / 2048, 1 / 2048, 1 / 1024, 3, 1 / 1024, 0, 0, -1 / 1024, -2, 0, -1 / 1024]

theorem exDisp_loaded {σ G : ℝ} (hσ : σ ≤ 1 / 2) (hG : 1 ≤ G) : Loaded exSq σ G 1 1 1 (vec exDisp) := by
  refine exSq_loaded hσ hG fun i hi r hr h2 => ?_
  rw [exMesh_nids] at hi
  simp only [List.mem_cons, List.not_mem_nil, or_false] at hi
  have hn : exSq.nids = [1, 2, 3, 4] := exMesh_nids ..
  unfold dofNo
  rw [hn]
  interval_cases r <;> rcases hi with rfl | rfl | rfl | rfl <;> simp [vec, exDisp] <;> norm_num at *

/-- C160: the same displacements, not quite -/
noncomputable def exDisp' : List ℝ := [0, 0, 0, 0, 0, 1 / 1024 - 1 / 2 ^ 50, 0, 7, 0, 1 / 2048, 1 / 2048, 1 / 1024, 3, 1 / 1024 - 1 / 2 ^ 60, 0, 0, -1 / 1024, -2, 0, -1 / 1024]

theorem exDisp'_loaded {σ G : ℝ} (hσ : σ ≤ 1 / 2) (hG : 1 ≤ G) : Loaded exSq σ G 1 1 1 (vec exDisp') := by
  refine exSq_loaded hσ hG fun i hi r hr h2 => ?_
  rw [exMesh_nids] at hi
  simp only [List.mem_cons, List.not_mem_nil, or_false] at hi
  have hn : exSq.nids = [1, 2, 3, 4] := exMesh_nids ..
  unfold dofNo
  rw [hn]
  interval_cases r <;> rcases hi with rfl | rfl | rfl | rfl <;> simp [vec, exDisp'] <;> norm_num [abs_of_nonneg] at *

theorem exDisp_diff {σ G : ℝ} (hσ : σ ≤ 1 / 2) (hG : 1 ≤ G) : Loaded exSq σ G 1 1 (1 / 2 ^ 40) fun i => vec exDisp' i - vec exDisp i := by
  refine exSq_loaded hσ hG fun i hi r hr h2 => ?_
  rw [exMesh_nids] at hi
  simp only [List.mem_cons, List.not_mem_nil, or_false] at hi
  have hn : exSq.nids = [1, 2, 3, 4] := exMesh_nids ..
  unfold dofNo
  rw [hn]
  interval_cases r <;> rcases hi with rfl | rfl | rfl | rfl <;> simp [vec, exDisp', exDisp] <;> norm_num [abs_of_nonneg] at *

example (pn : Bool) : KGWithin Fmt.binary64 exSq pn exDisp 1 990000000 12288 :=
  C160_kG_error_8 C153_binary64 (exMesh_reachable exIso exIso exIso exIso exIso exIso) (exMesh_proper ..) (exMesh_planar ..)
    (exMesh_props _ _ _ _ _ _ pn) (by rw [exMesh_nids]; simp) medium_one medium_one medium_one (exSq_upTo pn) (by rw [exMesh_ekeys]; norm_num)
    (by rw [exMesh_nids]; rfl) (exDisp_loaded (by norm_num) (by norm_num))

example (pn : Bool) : KGWithin Fmt.binary64 exSq pn exDisp 1 54000000000 12288 ∧ KGWithin Fmt.binary64 exSq pn exDisp 1 13000000000000 12288 :=
  ⟨C160_kG_error_64 C153_binary64 (exMesh_reachable exIso exIso exIso exIso exIso exIso) (exMesh_proper ..) (exMesh_planar ..)
    (exMesh_props _ _ _ _ _ _ pn) (by rw [exMesh_nids]; simp) medium_one medium_one medium_one (exSq_upTo pn) (by rw [exMesh_ekeys]; norm_num)
    (by rw [exMesh_nids]; rfl) (exDisp_loaded (by norm_num) (by norm_num)),
   C160_kG_error_1000 C153_binary64 (exMesh_reachable exIso exIso exIso exIso exIso exIso) (exMesh_proper ..) (exMesh_planar ..)
    (exMesh_props _ _ _ _ _ _ pn) (by rw [exMesh_nids]; simp) medium_one medium_one medium_one (exSq_upTo pn) (by rw [exMesh_ekeys]; norm_num)
    (by rw [exMesh_nids]; rfl) (exDisp_loaded (by norm_num) (by norm_num))⟩

private theorem medium_40 : Medium (1 / 2 ^ 40) := by constructor <;> norm_num

example (pn : Bool) : KGNear Fmt.binary64 exSq pn exDisp exDisp' 1 (1 / 2 ^ 40) 990000000 12288 :=
  C160_kG_near_8 C153_binary64 (exMesh_reachable exIso exIso exIso exIso exIso exIso) (exMesh_proper ..) (exMesh_planar ..)
    (exMesh_props _ _ _ _ _ _ pn) (by rw [exMesh_nids]; simp) medium_one medium_one medium_one (exSq_upTo pn) (by rw [exMesh_ekeys]; norm_num)
    (by rw [exMesh_nids]; rfl) (by rw [exMesh_nids]; rfl) medium_40 (exDisp'_loaded (by norm_num) (by norm_num)) (exDisp_diff (by norm_num) (by norm_num))

example (pn : Bool) : KGNear Fmt.binary64 exSq pn exDisp exDisp' 1 (1 / 2 ^ 40) 54000000000 12288 ∧ KGNear Fmt.binary64 exSq pn exDisp exDisp' 1 (1 / 2 ^ 40) 13000000000000 12288 :=
  ⟨C160_kG_near_64 C153_binary64 (exMesh_reachable exIso exIso exIso exIso exIso exIso) (exMesh_proper ..) (exMesh_planar ..)
    (exMesh_props _ _ _ _ _ _ pn) (by rw [exMesh_nids]; simp) medium_one medium_one medium_one (exSq_upTo pn) (by rw [exMesh_ekeys]; norm_num)
    (by rw [exMesh_nids]; rfl) (by rw [exMesh_nids]; rfl) medium_40 (exDisp'_loaded (by norm_num) (by norm_num)) (exDisp_diff (by norm_num) (by norm_num)),
   C160_kG_near_1000 C153_binary64 (exMesh_reachable exIso exIso exIso exIso exIso exIso) (exMesh_proper ..) (exMesh_planar ..)
    (exMesh_props _ _ _ _ _ _ pn) (by rw [exMesh_nids]; simp) medium_one medium_one medium_one (exSq_upTo pn) (by rw [exMesh_ekeys]; norm_num)
    (by rw [exMesh_nids]; rfl) (by rw [exMesh_nids]; rfl) medium_40 (exDisp'_loaded (by norm_num) (by norm_num)) (exDisp_diff (by norm_num) (by norm_num))⟩

/-- C160: on the square at most 5 edges contribute to an entry; under membrane forces of the order of 1, the entries of kG are within 6e-6 -/
theorem C160_square {E : ℝ} (hE : E = 990000000) (i j : ℕ) : kGErr (contributionsKG exSq i j) 1 E 12288 2 2 ≤ 6 / 10 ^ 6 := by
  have hc : contributionsKG exSq i j ≤ 5 := by
    unfold contributionsKG
    refine List.countP_le_length.trans ?_
    rw [exMesh_ekeys]; simp
  have hc' : (contributionsKG exSq i j : ℝ) ≤ 5 := by exact_mod_cast hc
  have h0 : (0:ℝ) ≤ contributionsKG exSq i j := Nat.cast_nonneg _
  unfold kGErr
  rw [if_pos ⟨rfl, rfl⟩, hE]
  generalize (contributionsKG exSq i j : ℝ) = c at hc' h0
  rw [div_le_div_iff₀ (by positivity) (by positivity)]
  nlinarith

end Meshless
