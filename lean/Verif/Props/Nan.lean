import Verif.Lemmas.IeeeNanRun
import Verif.Props.Ieee
import Verif.Props.Patch
import Verif.Spec.Modes

/-!
C151: in which format the numbers are kept does not change whether and how the functions fail. C152: an area that is 0, infinite or NaN ends in
NaN entries, without an exception.
-/

set_option autoImplicit false

namespace Meshless
open Spec

section
variable (f : Fmt) {m : Mesh}

theorem geoLike_after (hr : Reachable m) {pn : Bool} {K : Mat} (hK : (calcK0 m pn).2 = .ok K) :
    ∀ k ∈ (calcK0 m pn).1.ekeys, GeoLike ((calcK0 m pn).1.edge k) ((f.calcK0 m pn).2.1 k) := by
  intro k hk
  rw [(calcK0_fst f m pn).2]
  exact geo_like f ((calcK0_ok hr.wf hK).2.1.geom k hk)

/-- C151: `calc_k0` -/
theorem C151_k0 (hr : Reachable m) (pn : Bool) : SameEnd (calcK0 m pn).2 (f.calcK0 m pn).2.2 := by
  by_cases hm : m.ekeys.any (edgeMissing m pn)
  · exact Or.inl ⟨.valueError, by unfold calcK0; rw [if_pos hm], by unfold Fmt.calcK0; rw [if_pos hm]⟩
  rcases hg : geomPass m m.ekeys with ⟨m1, _ | e⟩
  swap
  · exact Or.inl ⟨e, by unfold calcK0; rw [if_neg hm, hg], by unfold Fmt.calcK0; rw [if_neg hm, hg]⟩
  by_cases hn : m1.nids = []
  · exact Or.inl ⟨.valueError, by unfold calcK0; rw [if_neg hm, hg]; dsimp only; rw [if_pos hn],
      by unfold Fmt.calcK0; rw [if_neg hm, hg]; dsimp only; rw [if_pos hn]⟩
  have hn' : m.nids ≠ [] := by
    have := (geomPass_spec m.ekeys m hr.wf.ekeys_nodup).1.nids
    rw [hg] at this
    rwa [← this]
  obtain ⟨m2, hs, hq, e2, _, _⟩ := calcK0_shape hr.wf (by simpa using hm) (by rw [hg]) hn'
  have e3 : m2 = numberNodes m1 m1.nids 0 := by
    rw [e2, hg, show m1.nids = m.nids by simpa [hg] using (geomPass_spec m.ekeys m hr.wf.ekeys_nodup).1.nids]
  have := loop_fmt (p := k0Edge m2 pn) (g := f.k0Edge m2 (fun k => f.geo m2 (m2.edge k)) pn)
    m2.ekeys (K := Mat.zeros (m2.nids.length * 5)) (K' := FMat.zeros (m2.nids.length * 5)) rfl
    fun k hk M M' hd => k0Edge_fmt pn (geo_like f (hq.geom k hk)) hd
  unfold calcK0 Fmt.calcK0
  rw [if_neg hm, if_neg hm, hg]
  dsimp only
  rw [if_neg hn, if_neg hn, ← e3]
  generalize Fmt.loop (f.k0Edge m2 (fun k => f.geo m2 (m2.edge k)) pn) (FMat.zeros (m2.nids.length * 5)) m2.ekeys = a at this ⊢
  generalize matLoop (k0Edge m2 pn) (Mat.zeros (m2.nids.length * 5)) m2.ekeys = b at this ⊢
  obtain ⟨F, o⟩ := a
  obtain ⟨G, o'⟩ := b
  dsimp only at this
  obtain ⟨rfl, h2⟩ := this
  rcases o with _ | e
  · exact Or.inr ⟨G, F, rfl, rfl, h2⟩
  · exact Or.inl ⟨e, rfl, rfl⟩

/-- C151: `calc_kG`, for every displacement vector and whatever the numbers in it -/
theorem C151_kG (hr : Reachable m) {pn : Bool} {K : Mat} (hK : (calcK0 m pn).2 = .ok K) {d d' : List ℝ} (hl : d'.length = d.length) :
    SameEnd (calcKG (calcK0 m pn).1 d pn) (f.calcKG (f.calcK0 m pn).1 (f.calcK0 m pn).2.1 d' pn) := by
  have hg := geoLike_after f hr hK
  rw [(calcK0_fst f m pn).1]
  generalize (f.calcK0 m pn).2.1 = g at hg ⊢
  have := loop_fmt (p := kGEdge (calcK0 m pn).1 d pn) (g := f.kGEdge (calcK0 m pn).1 g d' pn)
    (calcK0 m pn).1.ekeys (K := Mat.zeros (d.length / 5 * 5)) (K' := FMat.zeros (d'.length / 5 * 5)) (by simp [FMat.zeros, Mat.zeros, hl])
    fun k hk M M' hd => kGEdge_fmt hl pn (hg k hk) hd
  unfold calcKG Fmt.calcKG
  generalize Fmt.loop (f.kGEdge (calcK0 m pn).1 g d' pn) (FMat.zeros (d'.length / 5 * 5)) (calcK0 m pn).1.ekeys = a at this ⊢
  generalize matLoop (kGEdge (calcK0 m pn).1 d pn) (Mat.zeros (d.length / 5 * 5)) (calcK0 m pn).1.ekeys = b at this ⊢
  obtain ⟨F, o⟩ := a
  obtain ⟨G, o'⟩ := b
  dsimp only at this
  obtain ⟨rfl, h2⟩ := this
  rcases o with _ | e
  · exact Or.inr ⟨G, F, rfl, rfl, h2⟩
  · exact Or.inl ⟨e, rfl, rfl⟩

/-- C151: `add_k0s` with any method name, on matrices of equal size: the same exception or none, and the size is kept -/
theorem C151_k0s (hr : Reachable m) {pn : Bool} {K : Mat} (hK : (calcK0 m pn).2 = .ok K) (method : String) (al : ℝ) (fa : Bool) {M : Mat} {F : FMat}
    (hd : F.dim = M.dim) : (f.addK0s F (f.calcK0 m pn).1 (f.calcK0 m pn).2.1 pn method al fa).2 = (addK0s M (calcK0 m pn).1 pn method al fa).2 ∧
      (f.addK0s F (f.calcK0 m pn).1 (f.calcK0 m pn).2.1 pn method al fa).1.dim = (addK0s M (calcK0 m pn).1 pn method al fa).1.dim := by
  have hg := geoLike_after f hr hK
  rw [(calcK0_fst f m pn).1]
  exact addK0s_fmt f hg pn method al fa hd

/-! ### NaN -/

variable (hr : Reachable m) (hp : Proper m) {pn : Bool} {k : Key} (hk : k ∈ m.ekeys)
include hr hp hk

omit hr hp hk in
theorem SameStatic.atEdge {m' : Mesh} (h : SameStatic m m') {k : Key} {i : ℕ} (hi : AtEdge m k i) : AtEdge m' k i := by
  obtain ⟨t, h1, h2⟩ := hi
  refine ⟨t, by rw [h.trias]; exact h1, ?_⟩
  unfold IsCorner at *
  rw [h.tria]; exact h2

omit hk in
theorem writes_mem {i : ℕ} (hi : AtEdge m k i) (hk : k ∈ m.ekeys) : i ∈ m.nids := by
  obtain ⟨t, h1, h2⟩ := hi
  rcases edge_shape hr.wf hp hk with ⟨t', o, e1, e2, _⟩ | ⟨t1, t2, o1, o2, e1, e2, e3, _⟩
  · rw [e1] at h1
    obtain rfl : t = t' := by simpa using h1
    rcases (e2.corner_iff i).1 h2 with rfl | rfl | rfl
    exacts [e2.ina, e2.inb, e2.ino]
  · rw [e1] at h1
    have h1 : t = t1 ∨ t = t2 := by simpa using h1
    rcases h1 with rfl | rfl
    · rcases (e2.corner_iff i).1 h2 with rfl | rfl | rfl
      exacts [e2.ina, e2.inb, e2.ino]
    · rcases (e3.corner_iff i).1 h2 with rfl | rfl | rfl
      exacts [e3.ina, e3.inb, e3.ino]

omit hr hp hk in
theorem lastIdx {l : List ℕ} (hn : l.Nodup) {i : ℕ} (h : l.getLast? = some i) : l.idxOf i + 1 = l.length := by
  have hne : l ≠ [] := by rintro rfl; simp at h
  rw [List.getLast?_eq_some_getLast hne, Option.some.injEq] at h
  have h1 : l[l.length - 1]'(by have := List.length_pos_iff.2 hne; omega) = i := by rw [← h, List.getLast_eq_getElem]
  have h2 := hn.idxOf_getElem (l.length - 1) (by have := List.length_pos_iff.2 hne; omega)
  rw [h1] at h2
  have := List.length_pos_iff.2 hne
  omega

/-- the position an index of `calc_k0` stands for -/
theorem writesK0_ix {K : Mat} (hK : (calcK0 m pn).2 = .ok K) {i r : ℕ} (hi : WritesK0 m k i) (hr5 : r < 5) :
    ∃ x, IxOf (calcK0 m pn).1 k (-1) x ∧ pyIdx (m.nids.length * 5) (x * 5 + r) = some (dofNo m i r) := by
  obtain ⟨hs, hq, _, hne⟩ := calcK0_ok hr.wf hK
  rcases hi with hi | ⟨hb, hi⟩
  · refine ⟨_, Or.inl ⟨i, hs.atEdge hi, rfl⟩, ?_⟩
    have := corner_pos hq (hs.nids.symm ▸ writes_mem hr hp hi hk) hr5
    rw [hs.nids] at this
    exact this
  · refine ⟨-1, Or.inr ⟨?_, rfl⟩, ?_⟩
    · unfold OneTria at *; rw [hs.trias]; exact hb
    · have h1 := lastIdx hr.wf.nids_nodup hi
      unfold pyIdx dofNo
      rw [if_neg (by omega), if_pos (by omega)]
      congr 1
      omega

theorem writesKG_ix {K : Mat} (hK : (calcK0 m pn).2 = .ok K) {i : ℕ} (hi : WritesKG m k i) :
    ∃ x, IxOf (calcK0 m pn).1 k 0 x ∧ pyIdx (m.nids.length * 5) (x * 5 + 2) = some (dofNo m i 2) := by
  obtain ⟨hs, hq, _, hne⟩ := calcK0_ok hr.wf hK
  rcases hi with hi | ⟨hb, hi⟩
  · refine ⟨_, Or.inl ⟨i, hs.atEdge hi, rfl⟩, ?_⟩
    have := corner_pos hq (hs.nids.symm ▸ writes_mem hr hp hi hk) (r := 2) (by omega)
    rw [hs.nids] at this
    exact this
  · refine ⟨0, Or.inr ⟨?_, rfl⟩, ?_⟩
    · unfold OneTria at *; rw [hs.trias]; exact hb
    · rcases hl : m.nids with _ | ⟨a, l⟩
      · exact absurd hl hne
      · rw [hl] at hi
        obtain rfl : a = i := by simpa using hi
        unfold pyIdx dofNo
        rw [hl]
        simp
        omega

variable (hA : ¬ Usable ((f.calcK0 m pn).2.1 k).Ac)
include hA

/-- C152: k0 -/
theorem C152_k0 {F : FMat} (hF : (f.calcK0 m pn).2.2 = .ok F) {a b r s : ℕ} (ha : WritesK0 m k a) (hb : WritesK0 m k b) (hr4 : r ∈ [0, 1, 3, 4])
    (hs4 : s ∈ [0, 1, 3, 4]) : F.get (dofNo m a r) (dofNo m b s) = .nan := by
  rcases C151_k0 f hr pn with ⟨x, h1, h2⟩ | ⟨K, F', hK, h2, hd⟩
  · rw [h2] at hF; cases hF
  have h5 : ∀ q ∈ [0, 1, 3, 4], q < 5 := by decide
  obtain ⟨hs, hq, _, _⟩ := calcK0_ok hr.wf hK
  obtain ⟨x, hx, px⟩ := writesK0_ix hr hp hk hK ha (h5 r hr4)
  obtain ⟨y, hy, py⟩ := writesK0_ix hr hp hk hK hb (h5 s hs4)
  rw [(calcK0_fst f m pn).2] at hA
  rw [calcK0_snd f hK, hs.nids, hs.ekeys] at hF
  have key := nanAt_loop_mem (g := f.k0Edge (calcK0 m pn).1 (fun k => f.geo (calcK0 m pn).1 ((calcK0 m pn).1.edge k)) pn)
    (i := dofNo m a r) (j := dofNo m b s) (fun M a h => nanAt_k0Edge M a h) (n := m.nids.length * 5) (fun M a => k0Edge_dim_fmt M a) (a := k)
    (fun M hd hn => nanAt_k0Edge_new f (hs.wf hr.wf) (hs.proper hp) hq (hs.ekeys.symm ▸ hk) hA hx hy hr4 hs4 (by rw [hd]; exact px) (by rw [hd]; exact py) hn)
    m.ekeys (K := FMat.zeros (m.nids.length * 5)) rfl hk
  rcases hL : Fmt.loop (f.k0Edge (calcK0 m pn).1 (fun k => f.geo (calcK0 m pn).1 ((calcK0 m pn).1.edge k)) pn) (FMat.zeros (m.nids.length * 5)) m.ekeys with ⟨N, o⟩
  rw [hL] at hF key
  rcases o with _ | e
  · obtain rfl := Except.ok.inj hF
    exact key rfl
  · cases hF

/-- C152: `add_k0s` does not repair the entries -/
theorem C152_assembled {method : String} {al : ℝ} {fa : Bool} {F : FMat} (hF : FmtAssembled f m pn method al fa F) {a b r s : ℕ} (ha : WritesK0 m k a)
    (hb : WritesK0 m k b) (hr4 : r ∈ [0, 1, 3, 4]) (hs4 : s ∈ [0, 1, 3, 4]) : F.get (dofNo m a r) (dofNo m b s) = .nan := by
  obtain ⟨K0, h0, h1⟩ := hF
  have := nanAt_addK0s (f := f) (m := (f.calcK0 m pn).1) (g := (f.calcK0 m pn).2.1) (pn := pn) (method := method) (al := al) (fa := fa)
    (C152_k0 f hr hp hk hA h0 ha hb hr4 hs4 : NanAt _ _ K0)
  rw [h1] at this
  exact this

/-- C152: kG, for every displacement vector -/
theorem C152_kG {F0 : FMat} (hF0 : (f.calcK0 m pn).2.2 = .ok F0) {d : List ℝ} (hd : d.length = 5 * m.nids.length) {F : FMat}
    (hF : f.calcKG (f.calcK0 m pn).1 (f.calcK0 m pn).2.1 d pn = .ok F) {a b : ℕ} (ha : WritesKG m k a) (hb : WritesKG m k b) :
    F.get (dofNo m a 2) (dofNo m b 2) = .nan := by
  rcases C151_k0 f hr pn with ⟨x, h1, h2⟩ | ⟨K, F', hK, _, _⟩
  · rw [h2] at hF0; cases hF0
  obtain ⟨hs, hq, _, _⟩ := calcK0_ok hr.wf hK
  obtain ⟨x, hx, px⟩ := writesKG_ix hr hp hk hK ha
  obtain ⟨y, hy, py⟩ := writesKG_ix hr hp hk hK hb
  rw [(calcK0_fst f m pn).2] at hA
  rw [(calcK0_fst f m pn).1, (calcK0_fst f m pn).2] at hF
  unfold Fmt.calcKG at hF
  have hdim : d.length / 5 * 5 = m.nids.length * 5 := by omega
  rw [hdim, hs.ekeys] at hF
  have key := nanAt_loop_mem (g := f.kGEdge (calcK0 m pn).1 (fun k => f.geo (calcK0 m pn).1 ((calcK0 m pn).1.edge k)) d pn)
    (i := dofNo m a 2) (j := dofNo m b 2) (fun M a h => nanAt_kGEdge M a h) (n := m.nids.length * 5) (fun M a => kGEdge_dim_fmt M a) (a := k)
    (fun M hd hn => nanAt_kGEdge_new f (hs.wf hr.wf) (hs.proper hp) hq (hs.ekeys.symm ▸ hk) hA hx hy (by rw [hd]; exact px) (by rw [hd]; exact py) hn)
    m.ekeys (K := FMat.zeros (m.nids.length * 5)) rfl hk
  rcases hL : Fmt.loop (f.kGEdge (calcK0 m pn).1 (fun k => f.geo (calcK0 m pn).1 ((calcK0 m pn).1.edge k)) d pn) (FMat.zeros (m.nids.length * 5)) m.ekeys with ⟨N, o⟩
  rw [hL] at hF key
  rcases o with _ | e
  · obtain rfl := Except.ok.inj hF
    exact key rfl
  · cases hF

omit hA in
/-- C152: triangles with all corners on the line x = 0 or all on y = 0 have such an area in every format; `calc_k0` returns all the same -/
theorem C152_flat (hx : OnAxis m k) (hh : HasProps m pn) : ¬ Usable ((f.calcK0 m pn).2.1 k).Ac ∧
    ∃ F, (f.calcK0 m pn).2.2 = .ok F ∧ F.dim = 5 * m.nids.length ∧ ∀ a b, WritesK0 m k a → WritesK0 m k b → ∀ r ∈ [0, 1, 3, 4], ∀ s ∈ [0, 1, 3, 4],
      F.get (dofNo m a r) (dofNo m b s) = .nan := by
  have hne : m.nids ≠ [] := List.ne_nil_of_mem (hr.wf.ends k hk).1
  obtain ⟨K, hK, hd, hs, hq, _⟩ := calcK0_proper hr.wf hp hh hne
  have hA : ¬ Usable ((f.calcK0 m pn).2.1 k).Ac := by
    rw [(calcK0_fst f m pn).2]
    have hx' : OnAxis (calcK0 m pn).1 k := by
      rcases hx with h | h
      · exact Or.inl fun i hi => by rw [hs.pos, hs.xyz]; exact h i (hs.symm.atEdge hi)
      · exact Or.inr fun i hi => by rw [hs.pos, hs.xyz]; exact h i (hs.symm.atEdge hi)
    have := geo_onAxis f (hs.wf hr.wf) (hs.proper hp) hq (hs.ekeys.symm ▸ hk) hx'
    dsimp only
    revert this
    rcases (f.geo (calcK0 m pn).1 ((calcK0 m pn).1.edge k)).Ac with x | t | _
    · exact fun h hn => hn h
    · exact fun h => h.elim
    · exact fun _ h => h
  refine ⟨hA, ?_⟩
  rcases C151_k0 f hr pn with ⟨x, h1, _⟩ | ⟨K', F, h1, h2, h3⟩
  · rw [hK] at h1; cases h1
  · rw [hK] at h1
    obtain rfl := Except.ok.inj h1
    exact ⟨F, h2, by rw [h3, hd]; ring, fun a b ha hb r hr4 s hs4 => C152_k0 f hr hp hk hA h2 ha hb hr4 hs4⟩

end

/-! ### cases -/

/-- C151: the square with two triangles, and a mesh on which `calc_k0` fails -/
example (f : Fmt) (pn : Bool) := C151_k0 f (exMesh_reachable exIso exIso exIso exIso exIso exIso) pn
example (f : Fmt) (p : Lam) : (f.calcK0 (exDeg p) true).2.2 = .error .keyError ∨ (f.calcK0 (exDeg p) true).2.2 = .error .notImplemented := by
  rcases C151_k0 f (exDeg_reachable p) true with ⟨x, h1, h2⟩ | ⟨K, F, h1, _⟩ <;>
    rcases (C08_degenerate (exDeg_reachable p) (e := 1) (show 1 ∈ [1] by simp) (Or.inl rfl) true).2 (exDeg_props p) with h | h <;> rw [h] at h1 <;>
    first | cases h1; simp [h2] | exact absurd h1 (by simp)

example (f : Fmt) (pn : Bool) (d d' : List ℝ) (hl : d'.length = d.length) : ∃ K, (calcK0 exSq pn).2 = .ok K ∧
    SameEnd (calcKG (calcK0 exSq pn).1 d pn) (f.calcKG (f.calcK0 exSq pn).1 (f.calcK0 exSq pn).2.1 d' pn) := by
  have hr := exMesh_reachable exIso exIso exIso exIso exIso exIso
  obtain ⟨K, hK, _⟩ := C11_success hr (exMesh_proper ..) (by rw [exMesh_nids]; simp) (exMesh_props _ _ _ _ _ _ pn)
  exact ⟨K, hK, C151_kG f hr hK hl⟩

/-- `add_k0s` on a matrix of zeros in binary64: the outcome is the exact one -/
example (pn : Bool) (method : String) (n : ℕ) : ∃ K, (calcK0 exSq pn).2 = .ok K ∧
    (Fmt.binary64.addK0s (FMat.zeros n) (Fmt.binary64.calcK0 exSq pn).1 (Fmt.binary64.calcK0 exSq pn).2.1 pn method 0 true).2 =
      (addK0s (Mat.zeros n) (calcK0 exSq pn).1 pn method 0 true).2 := by
  have hr := exMesh_reachable exIso exIso exIso exIso exIso exIso
  obtain ⟨K, hK, _⟩ := C11_success hr (exMesh_proper ..) (by rw [exMesh_nids]; simp) (exMesh_props _ _ _ _ _ _ pn)
  exact ⟨K, hK, (C151_k0s Fmt.binary64 hr hK method 0 true (M := Mat.zeros n) (F := FMat.zeros n) rfl).1⟩

/-- a triangle of no area beside a good one -/
noncomputable def exSliver : Mesh :=
  run (match readDelaunay [.d2 0 0, .d2 0 1, .d2 0 2, .d2 1 1] (toInts [(0, 1, 2), (1, 2, 3)]) with | .ok m => m | .error _ => emptyMesh)
    [.setTriaProp 1 (some exIso), .setTriaProp 2 (some exIso)]

theorem exSliver_reachable : Reachable exSliver := .delaunay [.d2 0 0, .d2 0 1, .d2 0 2, .d2 1 1] (toInts [(0, 1, 2), (1, 2, 3)]) _ rfl _
theorem exSliver_nids : exSliver.nids = [1, 2, 3, 4] := rfl
theorem exSliver_eids : exSliver.eids = [1, 2] := rfl
theorem exSliver_ekeys : exSliver.ekeys = [(1, 2), (2, 3), (1, 3), (3, 4), (2, 4)] := rfl
theorem exSliver_tria1 : exSliver.tria 1 = ⟨1, 2, 3, some exIso, [(1, 2), (2, 3), (1, 3)]⟩ := rfl
theorem exSliver_tria2 : exSliver.tria 2 = ⟨2, 3, 4, some exIso, [(2, 3), (3, 4), (2, 4)]⟩ := rfl
theorem exSliver_e12 : (exSliver.edge (1, 2)).trias = [1] := rfl
theorem exSliver_e23 : (exSliver.edge (2, 3)).trias = [1, 2] := rfl
theorem exSliver_e13 : (exSliver.edge (1, 3)).trias = [1] := rfl
theorem exSliver_e34 : (exSliver.edge (3, 4)).trias = [2] := rfl
theorem exSliver_e24 : (exSliver.edge (2, 4)).trias = [2] := rfl
theorem exSliver_x1 : (exSliver.pos 1).x = 0 ∧ (exSliver.node 1).xyz.x = 0 := ⟨rfl, rfl⟩
theorem exSliver_x2 : (exSliver.pos 2).x = 0 ∧ (exSliver.node 2).xyz.x = 0 := ⟨rfl, rfl⟩
theorem exSliver_x3 : (exSliver.pos 3).x = 0 ∧ (exSliver.node 3).xyz.x = 0 := ⟨rfl, rfl⟩

theorem exSliver_proper : Proper exSliver := by
  refine ⟨?_, ?_, ?_⟩
  · intro e he
    rw [exSliver_eids] at he
    simp only [List.mem_cons, List.not_mem_nil, or_false] at he
    rcases he with rfl | rfl
    · rw [exSliver_tria1]; simp
    · rw [exSliver_tria2]; simp
  · intro k hk
    rw [exSliver_ekeys] at hk
    simp only [List.mem_cons, List.not_mem_nil, or_false] at hk
    rcases hk with rfl | rfl | rfl | rfl | rfl
    · rw [exSliver_e12]; simp
    · rw [exSliver_e23]; simp
    · rw [exSliver_e13]; simp
    · rw [exSliver_e34]; simp
    · rw [exSliver_e24]; simp
  · intro e he e' he' h
    rw [exSliver_eids] at he he'
    simp only [List.mem_cons, List.not_mem_nil, or_false] at he he'
    have h1 := h 1
    simp only [IsCorner] at h1
    rcases he with rfl | rfl <;> rcases he' with rfl | rfl <;> simp [exSliver_tria1, exSliver_tria2] at h1 ⊢

theorem exSliver_props : HasProps exSliver false := by
  intro e he
  rw [exSliver_eids] at he
  simp only [List.mem_cons, List.not_mem_nil, or_false] at he
  rcases he with rfl | rfl <;> rfl

theorem exSliver_at {i : ℕ} : AtEdge exSliver (1, 2) i ↔ i = 1 ∨ i = 2 ∨ i = 3 := by
  unfold AtEdge
  rw [exSliver_e12]
  simp [IsCorner, exSliver_tria1]

theorem exSliver_axis : OnAxis exSliver (1, 2) := by
  left
  intro i hi
  rcases exSliver_at.1 hi with rfl | rfl | rfl
  exacts [exSliver_x1, exSliver_x2, exSliver_x3]

/-- C152: in binary64 `calc_k0` returns a matrix with NaN at the corners of the flat triangle and at the fourth node, which does not belong to it -/
example : ∃ F, (Fmt.binary64.calcK0 exSliver false).2.2 = .ok F ∧ F.get 0 0 = .nan ∧ F.get 15 15 = .nan ∧ F.get 3 19 = .nan := by
  obtain ⟨_, F, h1, _, h2⟩ := C152_flat Fmt.binary64 exSliver_reachable exSliver_proper (pn := false) (k := (1, 2)) (by rw [exSliver_ekeys]; simp)
    exSliver_axis exSliver_props
  have a1 : WritesK0 exSliver (1, 2) 1 := Or.inl (exSliver_at.2 (by simp))
  have a4 : WritesK0 exSliver (1, 2) 4 := Or.inr ⟨by unfold OneTria; rw [exSliver_e12]; rfl, by rw [exSliver_nids]; rfl⟩
  have d1 : ∀ r, dofNo exSliver 1 r = r := fun r => by unfold dofNo; rw [exSliver_nids]; simp
  have d4 : ∀ r, dofNo exSliver 4 r = 15 + r := fun r => by unfold dofNo; rw [exSliver_nids]; rfl
  refine ⟨F, h1, ?_, ?_, ?_⟩
  · have := h2 1 1 a1 a1 0 (by simp) 0 (by simp); rwa [d1] at this
  · have := h2 4 4 a4 a4 0 (by simp) 0 (by simp); rwa [d4] at this
  · have := h2 1 4 a1 a4 3 (by simp) 4 (by simp); rwa [d1, d4] at this

/-- C152: `add_k0s` and `calc_kG` on it, in every format -/
example (f : Fmt) (method : String) (al : ℝ) (fa : Bool) (F : FMat) (hF : FmtAssembled f exSliver false method al fa F) :
    F.get (dofNo exSliver 1 0) (dofNo exSliver 1 0) = .nan :=
  C152_assembled f exSliver_reachable exSliver_proper (k := (1, 2)) (by rw [exSliver_ekeys]; simp)
    (C152_flat f exSliver_reachable exSliver_proper (by rw [exSliver_ekeys]; simp) exSliver_axis exSliver_props).1 hF
    (Or.inl (exSliver_at.2 (by simp))) (Or.inl (exSliver_at.2 (by simp))) (by simp) (by simp)

example (f : Fmt) (d : List ℝ) (hd : d.length = 20) : ∃ F0 F, (f.calcK0 exSliver false).2.2 = .ok F0 ∧
    f.calcKG (f.calcK0 exSliver false).1 (f.calcK0 exSliver false).2.1 d false = .ok F ∧ F.get (dofNo exSliver 1 2) (dofNo exSliver 1 2) = .nan := by
  have hk : (1, 2) ∈ exSliver.ekeys := by rw [exSliver_ekeys]; simp
  have hd' : d.length = 5 * exSliver.nids.length := by rw [hd, exSliver_nids]; rfl
  obtain ⟨hA, F0, h1, _⟩ := C152_flat f exSliver_reachable exSliver_proper hk exSliver_axis exSliver_props
  obtain ⟨K, hK, _⟩ := C11_success exSliver_reachable exSliver_proper (by rw [exSliver_nids]; simp) exSliver_props
  obtain ⟨G, hG, _⟩ := (C49_after exSliver_reachable exSliver_proper hK [] (by simp)).2 d hd'
  rcases C151_kG f exSliver_reachable hK (d := d) (d' := d) rfl with ⟨x, e1, _⟩ | ⟨_, F, _, e2, _⟩
  · rw [show run (calcK0 exSliver false).1 [] = (calcK0 exSliver false).1 from rfl] at hG
    rw [hG] at e1; cases e1
  · exact ⟨F0, F, h1, e2, C152_kG f exSliver_reachable exSliver_proper hk hA h1 hd' e2 (Or.inl (exSliver_at.2 (by simp))) (Or.inl (exSliver_at.2 (by simp)))⟩

end Meshless
