import Verif.Spec.Iso
import Verif.Props.K0Outcome

set_option autoImplicit false

namespace Meshless
open Spec

theorem sortPair_comm (a b : ℕ) : sortPair a b = sortPair b a := by
  unfold sortPair
  split <;> split <;> simp only [Prod.mk.injEq] <;> omega

theorem sortPair_lt {a b : ℕ} (h : a ≠ b) : (sortPair a b).1 < (sortPair a b).2 := by
  rcases sortPair_cases a b with ⟨e, l⟩ | ⟨e, l⟩ <;> rw [e] <;> simp only <;> omega

theorem sortPair_of_lt {k : Key} (h : k.1 < k.2) : sortPair k.1 k.2 = k := by
  unfold sortPair; rw [if_pos (by omega)]

/-- key of the renamed edge -/
def keyMap (π : ℕ → ℕ) (k : Key) : Key := sortPair (π k.1) (π k.2)

section
variable {π σ : ℕ → ℕ} {s a b : ℝ} {m m' : Mesh}

theorem isCorner_mem (m : Mesh) (e i : ℕ) : IsCorner m e i ↔ i ∈ corners m e := by simp [IsCorner, corners]

theorem Spec.SamePlate.inj (h : SamePlate π σ s a b m m') (w' : WF m') {i j : ℕ} (hi : i ∈ m.nids) (hj : j ∈ m.nids) (e : π i = π j) : i = j :=
  List.inj_on_of_nodup_map (h.nids.nodup_iff.1 w'.nids_nodup) hi hj e

theorem Spec.SamePlate.inje (h : SamePlate π σ s a b m m') (w' : WF m') {i j : ℕ} (hi : i ∈ m.eids) (hj : j ∈ m.eids) (e : σ i = σ j) : i = j :=
  List.inj_on_of_nodup_map (h.eids.nodup_iff.1 w'.eids_nodup) hi hj e

theorem Spec.SamePlate.mem_nids (h : SamePlate π σ s a b m m') {i : ℕ} (hi : i ∈ m.nids) : π i ∈ m'.nids :=
  h.nids.mem_iff.2 (List.mem_map_of_mem hi)

theorem Spec.SamePlate.mem_eids (h : SamePlate π σ s a b m m') {i : ℕ} (hi : i ∈ m.eids) : σ i ∈ m'.eids :=
  h.eids.mem_iff.2 (List.mem_map_of_mem hi)

theorem Spec.SamePlate.eids_of (h : SamePlate π σ s a b m m') {e' : ℕ} (he : e' ∈ m'.eids) : ∃ e ∈ m.eids, σ e = e' :=
  List.mem_map.1 (h.eids.mem_iff.1 he)

theorem Spec.SamePlate.nids_of (h : SamePlate π σ s a b m m') {e' : ℕ} (he : e' ∈ m'.nids) : ∃ e ∈ m.nids, π e = e' :=
  List.mem_map.1 (h.nids.mem_iff.1 he)

theorem Spec.SamePlate.corner (h : SamePlate π σ s a b m m') {e : ℕ} (he : e ∈ m.eids) (i' : ℕ) :
    IsCorner m' (σ e) i' ↔ ∃ i, IsCorner m e i ∧ π i = i' := by
  rw [isCorner_mem, (h.tri e he).mem_iff, List.mem_map]
  simp only [isCorner_mem]

theorem Spec.SamePlate.distinct (h : SamePlate π σ s a b m m') (w : WF m) (w' : WF m') (hd : ∀ e ∈ m.eids, (m.tria e).Distinct) :
    ∀ e ∈ m'.eids, (m'.tria e).Distinct := by
  intro e' he'
  obtain ⟨e, he, rfl⟩ := h.eids_of he'
  obtain ⟨d1, d2, d3⟩ := hd e he
  have hc := fun i hi => corner_mem w hd he (i := i) hi
  have c1 := hc _ (Or.inl rfl); have c2 := hc _ (Or.inr (Or.inl rfl)); have c3 := hc _ (Or.inr (Or.inr rfl))
  have hn : ((corners m e).map π).Nodup := by
    simp only [corners, List.map_cons, List.map_nil, List.nodup_cons, List.mem_cons, List.not_mem_nil, or_false, not_or, List.nodup_nil,
      not_false_eq_true, and_true]
    exact ⟨⟨fun q => d1 (h.inj w' c1 c2 q), fun q => d3 (h.inj w' c3 c1 q.symm)⟩, fun q => d2 (h.inj w' c2 c3 q)⟩
  have := (h.tri e he).nodup_iff.2 hn
  simp only [corners, List.nodup_cons, List.mem_cons, List.not_mem_nil, or_false, not_or, List.nodup_nil, not_false_eq_true, and_true] at this
  exact ⟨this.1.1, this.2, fun q => this.1.2 q.symm⟩

theorem key_lt (w : WF m) (hd : ∀ e ∈ m.eids, (m.tria e).Distinct) {k : Key} (hk : k ∈ m.ekeys) : k.1 < k.2 := by
  obtain ⟨e, he, hke⟩ := (w.mem_ekeys k).1 hk
  exact ((mem_edgeIds (hd e he) k).1 hke).1

theorem keyMap_ends (π : ℕ → ℕ) (k : Key) : ((keyMap π k).1 = π k.1 ∧ (keyMap π k).2 = π k.2) ∨ ((keyMap π k).1 = π k.2 ∧ (keyMap π k).2 = π k.1) := by
  unfold keyMap
  rcases sortPair_cases (π k.1) (π k.2) with ⟨e, _⟩ | ⟨e, _⟩ <;> rw [e] <;> simp

theorem Spec.SamePlate.keyMap_inj (h : SamePlate π σ s a b m m') (w : WF m) (w' : WF m') (hd : ∀ e ∈ m.eids, (m.tria e).Distinct) {k l : Key}
    (hk : k ∈ m.ekeys) (hl : l ∈ m.ekeys) (e : keyMap π k = keyMap π l) : k = l := by
  have kl := key_lt w hd hk; have ll := key_lt w hd hl
  obtain ⟨k1, k2⟩ := w.ends k hk
  obtain ⟨l1, l2⟩ := w.ends l hl
  have e1 := congrArg Prod.fst e
  have e2 := congrArg Prod.snd e
  rcases keyMap_ends π k with ⟨a1, a2⟩ | ⟨a1, a2⟩ <;> rcases keyMap_ends π l with ⟨b1, b2⟩ | ⟨b1, b2⟩ <;> rw [a1, b1] at e1 <;> rw [a2, b2] at e2
  · exact Prod.ext (h.inj w' k1 l1 e1) (h.inj w' k2 l2 e2)
  · have q1 := h.inj w' k1 l2 e1; have q2 := h.inj w' k2 l1 e2; omega
  · have q1 := h.inj w' k2 l1 e1; have q2 := h.inj w' k1 l2 e2; omega
  · exact Prod.ext (h.inj w' k1 l1 e2) (h.inj w' k2 l2 e1)

theorem Spec.SamePlate.key_of_tria (h : SamePlate π σ s a b m m') (w : WF m) (w' : WF m') (hd : ∀ e ∈ m.eids, (m.tria e).Distinct) {e : ℕ}
    (he : e ∈ m.eids) (k' : Key) : k' ∈ (m'.tria (σ e)).edgeIds ↔ ∃ k ∈ (m.tria e).edgeIds, keyMap π k = k' := by
  have hd' := h.distinct w w' hd
  rw [mem_edgeIds (hd' _ (h.mem_eids he))]
  have hc : ∀ i', (m'.tria (σ e)).HasCorner i' ↔ ∃ i, IsCorner m e i ∧ π i = i' := h.corner he
  rw [hc, hc]
  constructor
  · rintro ⟨hlt, ⟨i, hi, e1⟩, j, hj, e2⟩
    have hij : i ≠ j := by rintro rfl; omega
    refine ⟨sortPair i j, (mem_edgeIds (hd e he) _).2 ⟨sortPair_lt hij, ?_, ?_⟩, ?_⟩
    · rcases sortPair_cases i j with ⟨q, _⟩ | ⟨q, _⟩ <;> rw [q]
      exacts [hi, hj]
    · rcases sortPair_cases i j with ⟨q, _⟩ | ⟨q, _⟩ <;> rw [q]
      exacts [hj, hi]
    · have : keyMap π (sortPair i j) = sortPair (π i) (π j) := by
        unfold keyMap
        rcases sortPair_cases i j with ⟨q, _⟩ | ⟨q, _⟩ <;> rw [q]
        exact sortPair_comm _ _
      rw [this, e1, e2, sortPair_of_lt hlt]
  · rintro ⟨k, hk, rfl⟩
    obtain ⟨kl, c1, c2⟩ := (mem_edgeIds (hd e he) k).1 hk
    have n1 := corner_mem w hd he c1
    have n2 := corner_mem w hd he c2
    refine ⟨sortPair_lt fun q => (by have := h.inj w' n1 n2 q; omega), ?_, ?_⟩
    · rcases keyMap_ends π k with ⟨a1, _⟩ | ⟨a1, _⟩ <;> rw [a1]
      exacts [⟨_, c1, rfl⟩, ⟨_, c2, rfl⟩]
    · rcases keyMap_ends π k with ⟨_, a1⟩ | ⟨_, a1⟩ <;> rw [a1]
      exacts [⟨_, c2, rfl⟩, ⟨_, c1, rfl⟩]

theorem Spec.SamePlate.ekeys (h : SamePlate π σ s a b m m') (w : WF m) (w' : WF m') (hd : ∀ e ∈ m.eids, (m.tria e).Distinct) :
    m'.ekeys.Perm (m.ekeys.map (keyMap π)) := by
  have hn : (m.ekeys.map (keyMap π)).Nodup := w.ekeys_nodup.map_on fun k hk l hl e => h.keyMap_inj w w' hd hk hl e
  refine (List.perm_ext_iff_of_nodup w'.ekeys_nodup hn).2 fun k' => ?_
  rw [w'.mem_ekeys, List.mem_map]
  constructor
  · rintro ⟨e', he', hk'⟩
    obtain ⟨e, he, rfl⟩ := h.eids_of he'
    obtain ⟨k, hk, rfl⟩ := (h.key_of_tria w w' hd he k').1 hk'
    exact ⟨k, (w.mem_ekeys k).2 ⟨e, he, hk⟩, rfl⟩
  · rintro ⟨k, hk, rfl⟩
    obtain ⟨e, he, hke⟩ := (w.mem_ekeys k).1 hk
    exact ⟨σ e, h.mem_eids he, (h.key_of_tria w w' hd he _).2 ⟨k, hke, rfl⟩⟩

theorem Spec.SamePlate.key_mem (h : SamePlate π σ s a b m m') (w : WF m) (w' : WF m') (hd : ∀ e ∈ m.eids, (m.tria e).Distinct) {k : Key}
    (hk : k ∈ m.ekeys) : keyMap π k ∈ m'.ekeys := (h.ekeys w w' hd).mem_iff.2 (List.mem_map_of_mem hk)

theorem Spec.SamePlate.trias (h : SamePlate π σ s a b m m') (w : WF m) (w' : WF m') (hd : ∀ e ∈ m.eids, (m.tria e).Distinct) {k : Key}
    (hk : k ∈ m.ekeys) : (m'.edge (keyMap π k)).trias.Perm ((m.edge k).trias.map σ) := by
  have hd' := h.distinct w w' hd
  rw [w'.etrias _ (h.key_mem w w' hd hk), w.etrias k hk, sideTrias_distinct hd', sideTrias_distinct hd]
  refine (List.perm_ext_iff_of_nodup (w'.eids_nodup.filter _) ((w.eids_nodup.filter _).map_on fun e he e' he' q =>
    h.inje w' (List.mem_of_mem_filter he) (List.mem_of_mem_filter he') q)).2 fun e' => ?_
  simp only [List.mem_filter, List.mem_map, decide_eq_true_eq]
  constructor
  · rintro ⟨he', hk'⟩
    obtain ⟨e, he, rfl⟩ := h.eids_of he'
    obtain ⟨l, hl, q⟩ := (h.key_of_tria w w' hd he _).1 hk'
    have := h.keyMap_inj w w' hd ((w.mem_ekeys l).2 ⟨e, he, hl⟩) hk q
    exact ⟨e, ⟨he, this ▸ hl⟩, rfl⟩
  · rintro ⟨e, ⟨he, hke⟩, rfl⟩
    exact ⟨h.mem_eids he, (h.key_of_tria w w' hd he _).2 ⟨k, hke, rfl⟩⟩

theorem Spec.SamePlate.proper (h : SamePlate π σ s a b m m') (w : WF m) (w' : WF m') (hp : Proper m) : Proper m' := by
  refine ⟨h.distinct w w' hp.distinct, ?_, ?_⟩
  · intro k' hk'
    obtain ⟨k, hk, rfl⟩ := List.mem_map.1 ((h.ekeys w w' hp.distinct).mem_iff.1 hk')
    rw [(h.trias w w' hp.distinct hk).length_eq, List.length_map]
    exact hp.manifold k hk
  · intro e' he' f' hf' hc
    obtain ⟨e, he, rfl⟩ := h.eids_of he'
    obtain ⟨f, hf, rfl⟩ := h.eids_of hf'
    congr 1
    refine hp.simple e he f hf fun i => ?_
    have key : ∀ x ∈ m.eids, ∀ i ∈ m.nids, IsCorner m' (σ x) (π i) ↔ IsCorner m x i := by
      intro x hx i hi
      rw [h.corner hx]
      constructor
      · rintro ⟨j, hj, q⟩
        exact h.inj w' (corner_mem w hp.distinct hx hj) hi q ▸ hj
      · intro hi'; exact ⟨i, hi', rfl⟩
    constructor
    · intro hi
      have hin := corner_mem w hp.distinct he hi
      exact (key f hf i hin).1 ((hc _).1 ((key e he i hin).2 hi))
    · intro hi
      have hin := corner_mem w hp.distinct hf hi
      exact (key e he i hin).1 ((hc _).2 ((key f hf i hin).2 hi))

theorem Spec.SamePlate.hasProps (h : SamePlate π σ s a b m m') (w : WF m) (hp : Proper m) {pn : Bool} (hh : HasProps m pn) : HasProps m' pn := by
  unfold HasProps at *
  cases pn with
  | true =>
    simp only [if_true] at *
    intro e' he' i' hi'
    obtain ⟨e, he, rfl⟩ := h.eids_of he'
    obtain ⟨i, hi, rfl⟩ := (h.corner he i').1 hi'
    rw [h.nprop i (corner_mem w hp.distinct he hi)]
    exact hh e he i hi
  | false =>
    simp only [Bool.false_eq_true, if_false] at *
    intro e' he'
    obtain ⟨e, he, rfl⟩ := h.eids_of he'
    rw [h.tprop e he]
    exact hh e he

/-! ### geometry -/

theorem Spec.SamePlate.tri_sarea (h : SamePlate π σ s a b m m') (w : WF m) (hp : Proper m) {e : ℕ} (he : e ∈ m.eids) :
    |sarea m' [[(m'.tria (σ e)).n1], [(m'.tria (σ e)).n2], [(m'.tria (σ e)).n3]]| =
      s ^ 2 * |sarea m [[(m.tria e).n1], [(m.tria e).n2], [(m.tria e).n3]]| := by
  have hc := fun i hi => corner_mem w hp.distinct he (i := i) hi
  have c1 := hc _ (Or.inl rfl); have c2 := hc _ (Or.inr (Or.inl rfl)); have c3 := hc _ (Or.inr (Or.inr rfl))
  have x1 := h.hx _ c1; have x2 := h.hx _ c2; have x3 := h.hx _ c3
  have y1 := h.hy _ c1; have y2 := h.hy _ c2; have y3 := h.hy _ c3
  rw [← abs_of_nonneg (sq_nonneg s), ← abs_mul]
  have hperm := perm3_cases (h.tri e he).symm
  rcases hperm with ⟨e1, e2, e3⟩ | ⟨e1, e2, e3⟩ | ⟨e1, e2, e3⟩ | ⟨e1, e2, e3⟩ | ⟨e1, e2, e3⟩ | ⟨e1, e2, e3⟩ <;>
    rw [e1, e2, e3, sarea3, sarea3] <;> simp only [mean_single, x1, x2, x3, y1, y2, y3]
  · congr 1; ring
  · rw [← abs_neg]; congr 1; ring
  · rw [← abs_neg]; congr 1; ring
  · congr 1; ring
  · congr 1; ring
  · rw [← abs_neg]; congr 1; ring

theorem Spec.SamePlate.triArea (h : SamePlate π σ s a b m m') (w : WF m) (hp : Proper m) {e : ℕ} (he : e ∈ m.eids) :
    triArea m' (σ e) = s ^ 2 * triArea m e := h.tri_sarea w hp he

theorem Spec.SamePlate.mean (h : SamePlate π σ s a b m m') {t o : ℕ} {k : Key} (hs : Side m t k o) (f : ℕ → ℝ) :
    Spec.mean f (corners m' (σ t)) = (f (π k.1) + f (π k.2) + f (π o)) / 3 := by
  have h1 := ((h.tri t hs.mem).map f).sum_eq
  have h2 := (hs.perm.map (fun i => f (π i))).sum_eq
  simp only [Mesh.triaNodes, corners, List.map_cons, List.map_nil, List.sum_cons, List.sum_nil, add_zero] at h1 h2
  simp only [Spec.mean, corners, List.map_cons, List.map_nil, List.sum_cons, List.sum_nil, add_zero, List.length_cons, List.length_nil]
  push_cast
  rw [h1, h2]; ring

/-- the smoothing domain of the renamed edge, up to the direction of traversal -/
theorem Spec.SamePlate.dom (h : SamePlate π σ s a b m m') (w : WF m) (w' : WF m') (hp : Proper m) {k : Key} (hk : k ∈ m.ekeys) :
    ∃ ε : ℝ, (ε = 1 ∨ ε = -1) ∧ sarea m' (Spec.dom m' (keyMap π k)) = ε * (s ^ 2 * sarea m (Spec.dom m k)) ∧
      ∀ f f' : ℕ → ℝ, (∀ i ∈ m.nids, f' (π i) = f i) →
        circDy m' (Spec.dom m' (keyMap π k)) f' = ε * (s * circDy m (Spec.dom m k) f) ∧
        circDx m' (Spec.dom m' (keyMap π k)) f' = ε * (s * circDx m (Spec.dom m k) f) := by
  have htp := h.trias w w' hp.distinct hk
  rcases edge_shape w hp hk with ⟨t, o, htr, hs, _⟩ | ⟨t1, t2, o1, o2, htr, hs1, hs2, _, _, _, _⟩
  · rw [htr, List.map_singleton, List.perm_singleton] at htp
    have hdom : Spec.dom m k = [[k.1], corners m t, [k.2]] := by simp [Spec.dom, htr]
    have hdom' : Spec.dom m' (keyMap π k) = [[(keyMap π k).1], corners m' (σ t), [(keyMap π k).2]] := by simp [Spec.dom, htp]
    have x1 := h.hx _ hs.ina; have x2 := h.hx _ hs.inb; have x3 := h.hx _ hs.ino
    have y1 := h.hy _ hs.ina; have y2 := h.hy _ hs.inb; have y3 := h.hy _ hs.ino
    rcases keyMap_ends π k with ⟨a1, a2⟩ | ⟨a1, a2⟩
    · refine ⟨1, Or.inl rfl, ?_, fun f f' hf => ⟨?_, ?_⟩⟩
      · rw [hdom, hdom', a1, a2, sarea3, sarea3]; simp only [mean_single, mean_corners hs, h.mean hs, x1, x2, x3, y1, y2, y3]; ring
      · rw [hdom, hdom', a1, a2, circDy3, circDy3]
        simp only [mean_single, mean_corners hs, h.mean hs, y1, y2, y3, hf _ hs.ina, hf _ hs.inb, hf _ hs.ino]; ring
      · rw [hdom, hdom', a1, a2, circDx3, circDx3]
        simp only [mean_single, mean_corners hs, h.mean hs, x1, x2, x3, hf _ hs.ina, hf _ hs.inb, hf _ hs.ino]; ring
    · refine ⟨-1, Or.inr rfl, ?_, fun f f' hf => ⟨?_, ?_⟩⟩
      · rw [hdom, hdom', a1, a2, sarea3, sarea3]; simp only [mean_single, mean_corners hs, h.mean hs, x1, x2, x3, y1, y2, y3]; ring
      · rw [hdom, hdom', a1, a2, circDy3, circDy3]
        simp only [mean_single, mean_corners hs, h.mean hs, y1, y2, y3, hf _ hs.ina, hf _ hs.inb, hf _ hs.ino]; ring
      · rw [hdom, hdom', a1, a2, circDx3, circDx3]
        simp only [mean_single, mean_corners hs, h.mean hs, x1, x2, x3, hf _ hs.ina, hf _ hs.inb, hf _ hs.ino]; ring
  · rw [htr] at htp
    have hdom : Spec.dom m k = [[k.1], corners m t1, [k.2], corners m t2] := by simp [Spec.dom, htr]
    have x1 := h.hx _ hs1.ina; have x2 := h.hx _ hs1.inb; have x3 := h.hx _ hs1.ino; have x4 := h.hx _ hs2.ino
    have y1 := h.hy _ hs1.ina; have y2 := h.hy _ hs1.inb; have y3 := h.hy _ hs1.ino; have y4 := h.hy _ hs2.ino
    have htp' : (m'.edge (keyMap π k)).trias = [σ t1, σ t2] ∨ (m'.edge (keyMap π k)).trias = [σ t2, σ t1] := by
      have hl := htp.length_eq
      rcases hx : (m'.edge (keyMap π k)).trias with _ | ⟨x, _ | ⟨y, _ | ⟨z, l⟩⟩⟩ <;> rw [hx] at hl <;> simp at hl
      rw [hx] at htp
      rcases perm2_cases htp.symm with ⟨e1, e2⟩ | ⟨e1, e2⟩ <;> rw [e1, e2] <;> simp
    rcases htp' with htr' | htr' <;> rcases keyMap_ends π k with ⟨a1, a2⟩ | ⟨a1, a2⟩
    · have hdom' : Spec.dom m' (keyMap π k) = [[π k.1], corners m' (σ t1), [π k.2], corners m' (σ t2)] := by simp [Spec.dom, htr', a1, a2]
      refine ⟨1, Or.inl rfl, ?_, fun f f' hf => ⟨?_, ?_⟩⟩
      · rw [hdom, hdom']; simp only [sarea4, sarea3, mean_single, mean_corners hs1, mean_corners hs2, h.mean hs1, h.mean hs2, x1, x2, x3, x4, y1, y2, y3, y4]; ring
      · rw [hdom, hdom', circDy4, circDy4]
        simp only [mean_single, mean_corners hs1, mean_corners hs2, h.mean hs1, h.mean hs2, y1, y2, y3, y4, hf _ hs1.ina, hf _ hs1.inb, hf _ hs1.ino, hf _ hs2.ino]; ring
      · rw [hdom, hdom', circDx4, circDx4]
        simp only [mean_single, mean_corners hs1, mean_corners hs2, h.mean hs1, h.mean hs2, x1, x2, x3, x4, hf _ hs1.ina, hf _ hs1.inb, hf _ hs1.ino, hf _ hs2.ino]; ring
    · have hdom' : Spec.dom m' (keyMap π k) = [[π k.2], corners m' (σ t1), [π k.1], corners m' (σ t2)] := by simp [Spec.dom, htr', a1, a2]
      refine ⟨-1, Or.inr rfl, ?_, fun f f' hf => ⟨?_, ?_⟩⟩
      · rw [hdom, hdom']; simp only [sarea4, sarea3, mean_single, mean_corners hs1, mean_corners hs2, h.mean hs1, h.mean hs2, x1, x2, x3, x4, y1, y2, y3, y4]; ring
      · rw [hdom, hdom', circDy4, circDy4]
        simp only [mean_single, mean_corners hs1, mean_corners hs2, h.mean hs1, h.mean hs2, y1, y2, y3, y4, hf _ hs1.ina, hf _ hs1.inb, hf _ hs1.ino, hf _ hs2.ino]; ring
      · rw [hdom, hdom', circDx4, circDx4]
        simp only [mean_single, mean_corners hs1, mean_corners hs2, h.mean hs1, h.mean hs2, x1, x2, x3, x4, hf _ hs1.ina, hf _ hs1.inb, hf _ hs1.ino, hf _ hs2.ino]; ring
    · have hdom' : Spec.dom m' (keyMap π k) = [[π k.1], corners m' (σ t2), [π k.2], corners m' (σ t1)] := by simp [Spec.dom, htr', a1, a2]
      refine ⟨-1, Or.inr rfl, ?_, fun f f' hf => ⟨?_, ?_⟩⟩
      · rw [hdom, hdom']; simp only [sarea4, sarea3, mean_single, mean_corners hs1, mean_corners hs2, h.mean hs1, h.mean hs2, x1, x2, x3, x4, y1, y2, y3, y4]; ring
      · rw [hdom, hdom', circDy4, circDy4]
        simp only [mean_single, mean_corners hs1, mean_corners hs2, h.mean hs1, h.mean hs2, y1, y2, y3, y4, hf _ hs1.ina, hf _ hs1.inb, hf _ hs1.ino, hf _ hs2.ino]; ring
      · rw [hdom, hdom', circDx4, circDx4]
        simp only [mean_single, mean_corners hs1, mean_corners hs2, h.mean hs1, h.mean hs2, x1, x2, x3, x4, hf _ hs1.ina, hf _ hs1.inb, hf _ hs1.ino, hf _ hs2.ino]; ring
    · have hdom' : Spec.dom m' (keyMap π k) = [[π k.2], corners m' (σ t2), [π k.1], corners m' (σ t1)] := by simp [Spec.dom, htr', a1, a2]
      refine ⟨1, Or.inl rfl, ?_, fun f f' hf => ⟨?_, ?_⟩⟩
      · rw [hdom, hdom']; simp only [sarea4, sarea3, mean_single, mean_corners hs1, mean_corners hs2, h.mean hs1, h.mean hs2, x1, x2, x3, x4, y1, y2, y3, y4]; ring
      · rw [hdom, hdom', circDy4, circDy4]
        simp only [mean_single, mean_corners hs1, mean_corners hs2, h.mean hs1, h.mean hs2, y1, y2, y3, y4, hf _ hs1.ina, hf _ hs1.inb, hf _ hs1.ino, hf _ hs2.ino]; ring
      · rw [hdom, hdom', circDx4, circDx4]
        simp only [mean_single, mean_corners hs1, mean_corners hs2, h.mean hs1, h.mean hs2, x1, x2, x3, x4, hf _ hs1.ina, hf _ hs1.inb, hf _ hs1.ino, hf _ hs2.ino]; ring

theorem Spec.SamePlate.planar (h : SamePlate π σ s a b m m') (w : WF m) (w' : WF m') (hp : Proper m) (hg : Planar m) (hs0 : s ≠ 0)
    (hbasic : ∀ i ∈ m'.nids, (m'.node i).cp (m'.node i).xyz = (m'.node i).xyz)
    (hflat : ∀ i ∈ m'.nids, ∀ j ∈ m'.nids, (m'.node i).xyz.z = (m'.node j).xyz.z) : Planar m' := by
  refine ⟨hbasic, hflat, ?_, ?_⟩
  · intro e' he'
    obtain ⟨e, he, rfl⟩ := h.eids_of he'
    have := h.tri_sarea w hp he
    intro h0
    rw [h0, abs_zero] at this
    have h2 : s ^ 2 ≠ 0 := pow_ne_zero 2 hs0
    rcases mul_eq_zero.1 this.symm with q | q
    · exact h2 q
    · exact hg.nondeg e he (abs_eq_zero.1 q)
  · intro k' hk' u1 u2 hu
    obtain ⟨k, hk, rfl⟩ := List.mem_map.1 ((h.ekeys w w' hp.distinct).mem_iff.1 hk')
    have htp := h.trias w w' hp.distinct hk
    rw [hu] at htp
    have hs4 : 0 < s ^ 2 * s ^ 2 := by positivity
    rcases edge_shape w hp hk with ⟨t, o, htr, hs, _⟩ | ⟨t1, t2, o1, o2, htr, hs1, hs2, _, _, _, _⟩
    · rw [htr] at htp; simpa using htp.length_eq
    · rw [htr] at htp
      have hop := hg.opposite k hk t1 t2 htr
      have x1 := h.hx _ hs1.ina; have x2 := h.hx _ hs1.inb; have x3 := h.hx _ hs1.ino; have x4 := h.hx _ hs2.ino
      have y1 := h.hy _ hs1.ina; have y2 := h.hy _ hs1.inb; have y3 := h.hy _ hs1.ino; have y4 := h.hy _ hs2.ino
      have hkey : sarea m' [[(keyMap π k).1], [(keyMap π k).2], corners m' u1] * sarea m' [[(keyMap π k).1], [(keyMap π k).2], corners m' u2] =
          s ^ 2 * s ^ 2 * (sarea m [[k.1], [k.2], corners m t1] * sarea m [[k.1], [k.2], corners m t2]) := by
        rcases perm2_cases htp.symm with ⟨e1, e2⟩ | ⟨e1, e2⟩ <;> rw [e1, e2] <;> rcases keyMap_ends π k with ⟨a1, a2⟩ | ⟨a1, a2⟩ <;>
          rw [a1, a2, sarea3, sarea3, sarea3, sarea3] <;>
          simp only [mean_single, mean_corners hs1, mean_corners hs2, h.mean hs1, h.mean hs2, x1, x2, x3, x4, y1, y2, y3, y4] <;> ring
      rw [hkey]
      exact mul_neg_of_pos_of_neg hs4 hop

theorem Spec.SamePlate.grad (h : SamePlate π σ s a b m m') (w : WF m) (w' : WF m') (hp : Proper m) {k : Key} (hk : k ∈ m.ekeys) (hs0 : s ≠ 0)
    {f f' : ℕ → ℝ} (hf : ∀ i ∈ m.nids, f' (π i) = f i) :
    gradX m' (Spec.dom m' (keyMap π k)) f' = gradX m (Spec.dom m k) f / s ∧ gradY m' (Spec.dom m' (keyMap π k)) f' = gradY m (Spec.dom m k) f / s := by
  obtain ⟨ε, he, h1, h2⟩ := h.dom w w' hp hk
  obtain ⟨h3, h4⟩ := h2 f f' hf
  have hε : ε ≠ 0 := by rcases he with rfl | rfl <;> norm_num
  unfold gradX gradY
  rw [h1, h3, h4]
  by_cases hz : sarea m (Spec.dom m k) = 0
  · simp [hz]
  · constructor <;> field_simp

theorem Spec.SamePlate.avg (h : SamePlate π σ s a b m m') (w : WF m) (w' : WF m') (hp : Proper m) (hg : Planar m) {k : Key} (hk : k ∈ m.ekeys) (hs0 : s ≠ 0)
    (pn : Bool) (sel : Lam → ℝ) : Spec.avg m' pn (keyMap π k) sel = Spec.avg m pn k sel := by
  have htp := h.trias w w' hp.distinct hk
  have hs2' : s ^ 2 ≠ 0 := pow_ne_zero 2 hs0
  rcases edge_shape w hp hk with ⟨t, o, htr, hs, _⟩ | ⟨t1, t2, o1, o2, htr, hs1, hs2, _, _, _, _⟩
  · rw [htr, List.map_singleton, List.perm_singleton] at htp
    have hdom : Spec.dom m k = [[k.1], corners m t, [k.2]] := by simp [Spec.dom, htr]
    have hdom' : Spec.dom m' (keyMap π k) = [[(keyMap π k).1], corners m' (σ t), [(keyMap π k).2]] := by simp [Spec.dom, htp]
    unfold Spec.avg
    cases pn with
    | true =>
      rw [if_pos rfl, if_pos rfl, hdom, hdom']
      simp only [List.map_cons, List.map_nil, List.sum_cons, List.sum_nil, mean_single, mean_corners hs, h.mean hs, List.length_cons, List.length_nil,
        h.nprop _ hs.ina, h.nprop _ hs.inb, h.nprop _ hs.ino]
      rcases keyMap_ends π k with ⟨a1, a2⟩ | ⟨a1, a2⟩ <;> rw [a1, a2, h.nprop _ hs.ina, h.nprop _ hs.inb]
      ring
    | false =>
      simp only [Bool.false_eq_true, if_false, htr, htp, List.map_cons, List.map_nil, List.sum_cons, List.sum_nil, add_zero, h.triArea w hp hs.mem,
        h.tprop _ hs.mem]
      have hA0 : Spec.triArea m t ≠ 0 := abs_ne_zero.2 (hg.nondeg t hs.mem)
      field_simp
  · rw [htr] at htp
    have hdom : Spec.dom m k = [[k.1], corners m t1, [k.2], corners m t2] := by simp [Spec.dom, htr]
    have htp' : (m'.edge (keyMap π k)).trias = [σ t1, σ t2] ∨ (m'.edge (keyMap π k)).trias = [σ t2, σ t1] := by
      have hl := htp.length_eq
      rcases hx : (m'.edge (keyMap π k)).trias with _ | ⟨x, _ | ⟨y, _ | ⟨z, l⟩⟩⟩ <;> rw [hx] at hl <;> simp at hl
      rw [hx] at htp
      rcases perm2_cases htp.symm with ⟨e1, e2⟩ | ⟨e1, e2⟩ <;> rw [e1, e2] <;> simp
    have p1 : 0 < Spec.triArea m t1 := abs_pos.2 (hg.nondeg t1 hs1.mem)
    have p2 : 0 < Spec.triArea m t2 := abs_pos.2 (hg.nondeg t2 hs2.mem)
    unfold Spec.avg
    cases pn with
    | true =>
      rw [if_pos rfl, if_pos rfl, hdom]
      rcases htp' with htr' | htr' <;> rcases keyMap_ends π k with ⟨a1, a2⟩ | ⟨a1, a2⟩ <;>
      · simp only [Spec.dom, htr', a1, a2, List.map_cons, List.map_nil, List.sum_cons, List.sum_nil, mean_single, mean_corners hs1, mean_corners hs2, h.mean hs1,
          h.mean hs2, List.length_cons, List.length_nil, h.nprop _ hs1.ina, h.nprop _ hs1.inb, h.nprop _ hs1.ino, h.nprop _ hs2.ino]
        try ring
    | false =>
      have e1 := h.triArea w hp hs1.mem
      have e2 := h.triArea w hp hs2.mem
      rcases htp' with htr' | htr' <;>
        simp only [Bool.false_eq_true, if_false, htr, htr', List.map_cons, List.map_nil, List.sum_cons, List.sum_nil, add_zero, e1, e2,
          h.tprop _ hs1.mem, h.tprop _ hs2.mem]
      · field_simp
      · rw [add_comm (s ^ 2 * Spec.triArea m t2), add_comm (s ^ 2 * Spec.triArea m t2 * _)]
        field_simp

/-- the energy does not depend on the description -/
theorem Spec.SamePlate.energy (h : SamePlate π σ s a b m m') (w : WF m) (w' : WF m') (hp : Proper m) (hg : Planar m) (hs0 : s ≠ 0) (pn : Bool)
    {v u v' u' : ℕ → ℝ} (hv : ∀ r < 5, ∀ i ∈ m.nids, disp m' v' r (π i) = disp m v r i)
    (hu : ∀ r < 5, ∀ i ∈ m.nids, disp m' u' r (π i) = disp m u r i) : Spec.energy m' pn v' u' = Spec.energy m pn v u := by
  have heps : ∀ k ∈ m.ekeys, ∀ x x' : ℕ → ℝ, (∀ r < 5, ∀ i ∈ m.nids, disp m' x' r (π i) = disp m x r i) →
      ∀ p, eps m' (keyMap π k) x' p = eps m k x p / s := by
    intro k hk x x' hx p
    obtain ⟨x0, y0⟩ := h.grad w w' hp hk hs0 (hx 0 (by norm_num))
    obtain ⟨x1, y1⟩ := h.grad w w' hp hk hs0 (hx 1 (by norm_num))
    obtain ⟨x3, y3⟩ := h.grad w w' hp hk hs0 (hx 3 (by norm_num))
    obtain ⟨x4, y4⟩ := h.grad w w' hp hk hs0 (hx 4 (by norm_num))
    unfold eps
    rw [x0, y0, x1, y1, x3, y3, x4, y4]
    fin_cases p <;> simp <;> ring
  unfold Spec.energy
  rw [((h.ekeys w w' hp.distinct).map _).sum_eq, List.map_map]
  congr 1
  refine List.map_congr_left fun k hk => ?_
  simp only [Function.comp]
  obtain ⟨ε, he, h1, _⟩ := h.dom w w' hp hk
  have habs : |sarea m' (Spec.dom m' (keyMap π k))| = s ^ 2 * |sarea m (Spec.dom m k)| := by
    rw [h1, abs_mul, abs_mul, abs_of_nonneg (sq_nonneg s)]
    rcases he with rfl | rfl <;> simp
  rw [habs, Finset.mul_sum, Finset.mul_sum]
  refine Finset.sum_congr rfl fun p _ => ?_
  rw [Finset.mul_sum, Finset.mul_sum]
  refine Finset.sum_congr rfl fun q _ => ?_
  rw [heps k hk v v' hv, heps k hk u u' hu, h.avg w w' hp hg hk hs0]
  field_simp

end

end Meshless
