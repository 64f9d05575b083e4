import Verif.Lemmas.ShearModes
import Verif.Props.K0Energy
import Verif.Props.K0s
import Mathlib.LinearAlgebra.FiniteDimensional.Lemmas
import Mathlib.Tactic.IntervalCases

/-! C73–C76: the zero-energy modes of the stiffness matrices, and the solvability of the static problem. -/

set_option autoImplicit false

namespace Meshless
open Spec Finset

theorem slot_inUse {m : Mesh} (w : WF m) (hp : Proper m) {pn : Bool} {l : Lam} (h : Slot m pn (some l)) : InUse m pn l := by
  unfold Slot at h
  unfold InUse
  cases pn with
  | true =>
    simp only [if_true] at h ⊢
    obtain ⟨t, ht, i, hi, e⟩ := h
    exact ⟨i, corner_mem w hp.distinct ht hi, e.symm⟩
  | false =>
    simp only [Bool.false_eq_true, if_false] at h ⊢
    obtain ⟨t, ht, e⟩ := h
    exact ⟨t, ht, e.symm⟩

theorem slot_some {m : Mesh} {pn : Bool} (hh : HasProps m pn) {o : Option Lam} (h : Slot m pn o) : ∃ l, o = some l := by
  unfold Slot at h
  unfold HasProps at hh
  cases pn with
  | true =>
    simp only [if_true] at h hh
    obtain ⟨t, ht, i, hi, rfl⟩ := h
    exact Option.isSome_iff_exists.1 (hh t ht i hi)
  | false =>
    simp only [Bool.false_eq_true, if_false] at h hh
    obtain ⟨t, ht, rfl⟩ := h
    exact Option.isSome_iff_exists.1 (hh t ht)

theorem sum_pos_of {L : List (ℝ × Option Lam)} {g : Option Lam → ℝ} (h1 : ∀ x ∈ L, 0 ≤ x.1) (h2 : (L.map Prod.fst).sum = 1) (h3 : ∀ x ∈ L, 0 < g x.2) :
    0 < (L.map fun x => x.1 * g x.2).sum := by
  by_contra hcon
  push Not at hcon
  have hz : (L.map fun x => x.1 * g x.2).sum = 0 := le_antisymm hcon (List.sum_nonneg (by
    intro y hy; obtain ⟨x, hx, rfl⟩ := List.mem_map.1 hy; exact mul_nonneg (h1 x hx) (h3 x hx).le))
  have hall : ∀ x ∈ L, x.1 = 0 := by
    clear h2 hcon
    induction L with
    | nil => simp
    | cons a L ih =>
      simp only [List.map_cons, List.sum_cons] at hz
      have p1 : 0 ≤ a.1 * g a.2 := mul_nonneg (h1 a (by simp)) (h3 a (by simp)).le
      have p2 : 0 ≤ (L.map fun x => x.1 * g x.2).sum := List.sum_nonneg (by
        intro y hy; obtain ⟨x, hx, rfl⟩ := List.mem_map.1 hy; exact mul_nonneg (h1 x (by simp [hx])) (h3 x (by simp [hx])).le)
      intro x hx
      rcases List.mem_cons.1 hx with rfl | hx
      · exact (mul_eq_zero.1 (by linarith : x.1 * g x.2 = 0)).resolve_right (h3 x (by simp)).ne'
      · exact ih (fun x hx => h1 x (by simp [hx])) (fun x hx => h3 x (by simp [hx])) (by linarith) x hx
  have : (L.map Prod.fst).sum = 0 := List.sum_eq_zero (by intro y hy; obtain ⟨x, hx, rfl⟩ := List.mem_map.1 hy; exact hall x hx)
  rw [this] at h2; exact absurd h2 (by norm_num)

/-- the energy density of a domain is positive definite when all laminates are -/
theorem avg_stiff {m : Mesh} (w : WF m) (hp : Proper m) (hg : Planar m) {pn : Bool} (hh : HasProps m pn) (hl : ∀ l, InUse m pn l → StiffABD l) {k : Key}
    (hk : k ∈ m.ekeys) (x : Fin 6 → ℝ) : 0 ≤ ∑ p, ∑ q, x p * avg m pn k (fun l => abd l p q) * x q ∧
      (∑ p, ∑ q, x p * avg m pn k (fun l => abd l p q) * x q = 0 → x = 0) := by
  by_cases hx : x = 0
  · subst hx; simp
  · obtain ⟨L, h1, h2, h3⟩ := avg_weights w hp hg pn hk
    have : 0 < ∑ p, ∑ q, x p * avg m pn k (fun l => abd l p q) * x q := by
      simp only [h3]
      rw [quad_avg L abd]
      refine sum_pos_of (g := fun o => ofProp (fun l => ∑ p, ∑ q, x p * abd l p q * x q) o) (fun z hz => (h1 z hz).1) h2 (fun z hz => ?_)
      obtain ⟨l, e⟩ := slot_some hh (h1 z hz).2
      have hs := (h1 z hz).2
      rw [e] at hs ⊢
      exact hl l (slot_inUse w hp hs) x hx
    exact ⟨this.le, fun h => absurd h this.ne'⟩

theorem energy_zero_eps {m : Mesh} (w : WF m) (hp : Proper m) (hg : Planar m) {pn : Bool} (hh : HasProps m pn) (hl : ∀ l, InUse m pn l → StiffABD l)
    {d : ℕ → ℝ} : 0 ≤ energy m pn d d ∧ (energy m pn d d = 0 → ∀ k ∈ m.ekeys, eps m k d = 0) := by
  have hnn : ∀ k ∈ m.ekeys, 0 ≤ |sarea m (dom m k)| * ∑ p, ∑ q, eps m k d p * avg m pn k (fun l => abd l p q) * eps m k d q :=
    fun k hk => mul_nonneg (abs_nonneg _) (avg_stiff w hp hg hh hl hk _).1
  refine ⟨List.sum_nonneg (by intro y hy; obtain ⟨k, hk, rfl⟩ := List.mem_map.1 hy; exact hnn k hk), fun h k hk => ?_⟩
  unfold energy at h
  have : ∀ k ∈ m.ekeys, |sarea m (dom m k)| * ∑ p, ∑ q, eps m k d p * avg m pn k (fun l => abd l p q) * eps m k d q = 0 := by
    generalize m.ekeys = ks at h hnn
    induction ks with
    | nil => simp
    | cons a ks ih =>
      simp only [List.map_cons, List.sum_cons] at h
      have p1 := hnn a (by simp)
      have p2 : 0 ≤ (ks.map fun k => |sarea m (dom m k)| * ∑ p, ∑ q, eps m k d p * avg m pn k (fun l => abd l p q) * eps m k d q).sum :=
        List.sum_nonneg (by intro y hy; obtain ⟨k, hk, rfl⟩ := List.mem_map.1 hy; exact hnn k (by simp [hk]))
      intro k hk
      rcases List.mem_cons.1 hk with rfl | hk
      · linarith
      · exact ih (by linarith) (fun k hk => hnn k (by simp [hk])) k hk
  have h0 := this k hk
  have hA : |sarea m (dom m k)| ≠ 0 := abs_ne_zero.2 (sarea_dom_ne w hp hg hk)
  exact (avg_stiff w hp hg hh hl hk _).2 ((mul_eq_zero.1 h0).resolve_left hA)

theorem eps_unstrained {m : Mesh} {k : Key} {d : ℕ → ℝ} (h : eps m k d = 0) :
    Unstrained m (disp m d 0) (disp m d 1) k ∧ Unstrained m (disp m d 3) (disp m d 4) k := by
  have h0 : ∀ r, eps m k d r = 0 := fun r => by rw [h]; rfl
  exact ⟨⟨h0 0, h0 1, h0 2⟩, ⟨h0 3, h0 4, h0 5⟩⟩

/-- C73: no spurious membrane or bending modes. On a one-piece plate with positive definite laminates the energy of a displacement
vanishes exactly when the in-plane displacements are a rigid motion and the rotations are of the form `(p - r y, q + r x)`. -/
theorem C73_modes {m : Mesh} (hr : Reachable m) (hp : Proper m) (hg : Planar m) (ho : OnePiece m) {pn : Bool} {K : Mat}
    (hK : (calcK0 m pn).2 = .ok K) (hl : ∀ l, InUse m pn l → StiffABD l) (d : ℕ → ℝ) :
    form K.dim K.get d d = 0 ↔
      (∃ a b c, RigidField m (disp m d 0) (disp m d 1) a b c) ∧ ∃ p q r, RigidField m (disp m d 3) (disp m d 4) p q r := by
  obtain ⟨_, _, hh, _⟩ := calcK0_ok hr.wf hK
  rw [C18_energy hr hp hg hK]
  constructor
  · intro h
    have h0 := (energy_zero_eps hr.wf hp hg hh hl).2 h
    exact ⟨rigid_field hr.wf hp hg ho fun k hk => (eps_unstrained (h0 k hk)).1, rigid_field hr.wf hp hg ho fun k hk => (eps_unstrained (h0 k hk)).2⟩
  · rintro ⟨⟨a, b, c, h1⟩, p, q, r, h2⟩
    apply energy_zero_right
    intro k hk
    have := eps_linear hr.wf hp hg hk (d := d) (c := fun s => if s = 0 then a else if s = 1 then b else if s = 3 then p else q)
      (p := fun s => if s = 1 then c else if s = 4 then r else 0) (q := fun s => if s = 0 then -c else if s = 3 then -r else 0) (by
        intro s hs i hi
        simp only [List.mem_cons, List.not_mem_nil, or_false] at hs
        rcases hs with rfl | rfl | rfl | rfl
        · rw [(h1 i hi).1]; simp; ring
        · rw [(h1 i hi).2]; simp
        · rw [(h2 i hi).1]; simp; ring
        · rw [(h2 i hi).2]; simp)
    rw [this]
    funext s
    fin_cases s <;> simp

theorem SameStatic.onePiece {m m' : Mesh} (h : SameStatic m m') (ho : OnePiece m) : OnePiece m' := by
  have hA : Adjacent m' = Adjacent m := by funext e e'; unfold Adjacent; simp only [h.ekeys, h.trias]
  refine ⟨?_, ?_⟩
  · rw [h.eids, hA]; exact ho.walk
  · intro i hi
    obtain ⟨e, he, hc⟩ := ho.used i (h.nids ▸ hi)
    exact ⟨e, h.eids.symm ▸ he, by unfold IsCorner at *; rw [h.tria]; exact hc⟩

theorem SameStatic.inUse {m m' : Mesh} (h : SameStatic m m') {pn : Bool} {l : Lam} : InUse m' pn l ↔ InUse m pn l := by
  unfold InUse; simp only [h.nids, h.eids, h.tria, h.prop]

theorem SameStatic.flatMesh {m m' : Mesh} (h : SameStatic m m') (hg : Planar m) : FlatMesh m' :=
  ⟨(h.planar hg).basic, (h.planar hg).flat, (h.planar hg).nondeg⟩

/-! ### with the transverse shear stiffness -/

/-- value of a laminate quantity averaged over a triangle -/
theorem cavg_pos {m : Mesh} (w : WF m) {pn : Bool} (hh : HasProps m pn) {e : ℕ} (he : e ∈ m.eids) {sel : Lam → ℝ} (hs : ∀ l, InUse m pn l → 0 < sel l) :
    0 < cavg m pn e sel := by
  unfold HasProps at hh
  unfold cavg
  cases pn with
  | false =>
    simp only [Bool.false_eq_true, if_false] at hh ⊢
    obtain ⟨l, hl⟩ := Option.isSome_iff_exists.1 (hh e he)
    rw [hl]
    exact hs l (by unfold InUse; simp only [Bool.false_eq_true, if_false]; exact ⟨e, he, hl⟩)
  | true =>
    simp only [if_true] at hh ⊢
    have op : ∀ i, IsCorner m e i → 0 < ofProp sel (m.node i).prop := by
      intro i hi
      obtain ⟨l, hl⟩ := Option.isSome_iff_exists.1 (hh e he i hi)
      rw [hl]
      exact hs l (by unfold InUse; simp only [if_true]; exact ⟨i, w.corner_mem he (isCorner_mem.1 hi), hl⟩)
    have h1 := op _ (Or.inl rfl)
    have h2 := op _ (Or.inr (Or.inl rfl))
    have h3 := op _ (Or.inr (Or.inr rfl))
    rw [mean_corners']
    linarith

theorem shearMod_pos {m : Mesh} (w : WF m) {pn : Bool} (hh : HasProps m pn) (hl : ∀ l, InUse m pn l → StiffShear l) {al : ℝ} (ha : 0 ≤ al) (fa : Bool) {e : ℕ}
    (he : e ∈ m.eids) (r : Fin 2) : 0 < shearMod m pn al fa e r := by
  unfold shearMod
  dsimp only
  have hh0 : 0 < cavg m pn e fun l => l.h := cavg_pos w hh he fun l h => (hl l h).1
  apply mul_pos (div_pos (by positivity) (by positivity))
  split
  · exact mul_pos (cavg_pos w hh he fun l h => (hl l h).2.2.1) (cavg_pos w hh he fun l h => (hl l h).2.2.2.1)
  · exact mul_pos (cavg_pos w hh he fun l h => (hl l h).2.1) (cavg_pos w hh he fun l h => (hl l h).2.2.2.2)

theorem shearEnergy_zero {m : Mesh} (w : WF m) (hf : FlatMesh m) {pn : Bool} (hh : HasProps m pn) (hl : ∀ l, InUse m pn l → StiffShear l) {al : ℝ} (ha : 0 ≤ al)
    (fa : Bool) {g : ℕ → (ℕ → ℝ) → Fin 2 → ℝ} {v : ℕ → ℝ} :
    0 ≤ shearEnergy m pn al fa g v v ∧ (shearEnergy m pn al fa g v v = 0 → ∀ e ∈ m.eids, g e v 0 = 0 ∧ g e v 1 = 0) := by
  have hmod := fun e he r => shearMod_pos w hh hl ha fa (e := e) he r
  have hA : ∀ e ∈ m.eids, 0 < triArea m e := fun e he => abs_pos.2 (hf.nondeg e he)
  set t : ℕ → ℝ := fun e => triArea m e * (g e v 0 * shearMod m pn al fa e 0 * g e v 0 + g e v 1 * shearMod m pn al fa e 1 * g e v 1) with ht
  have hnn : ∀ e ∈ m.eids, 0 ≤ t e ∧ (t e = 0 → g e v 0 = 0 ∧ g e v 1 = 0) := by
    intro e he
    have m0 := hmod e he 0
    have m1 := hmod e he 1
    have q0 : 0 ≤ g e v 0 * shearMod m pn al fa e 0 * g e v 0 := by have := mul_nonneg m0.le (mul_self_nonneg (g e v 0)); linarith
    have q1 : 0 ≤ g e v 1 * shearMod m pn al fa e 1 * g e v 1 := by have := mul_nonneg m1.le (mul_self_nonneg (g e v 1)); linarith
    refine ⟨mul_nonneg (hA e he).le (by linarith), fun h0 => ?_⟩
    have hs := (mul_eq_zero.1 h0).resolve_left (hA e he).ne'
    have z0 : g e v 0 * shearMod m pn al fa e 0 * g e v 0 = 0 := by linarith
    have z1 : g e v 1 * shearMod m pn al fa e 1 * g e v 1 = 0 := by linarith
    constructor
    · rcases mul_eq_zero.1 z0 with h | h
      · exact (mul_eq_zero.1 h).resolve_right m0.ne'
      · exact h
    · rcases mul_eq_zero.1 z1 with h | h
      · exact (mul_eq_zero.1 h).resolve_right m1.ne'
      · exact h
  have hsum : shearEnergy m pn al fa g v v = (m.eids.map t).sum := rfl
  rw [hsum]
  refine ⟨List.sum_nonneg (by intro y hy; obtain ⟨e, he, rfl⟩ := List.mem_map.1 hy; exact (hnn e he).1), fun h => ?_⟩
  clear_value t
  clear hsum hA hmod
  generalize m.eids = es at h hnn
  induction es with
  | nil => simp
  | cons a es ih =>
    simp only [List.map_cons, List.sum_cons] at h
    have p1 := (hnn a (by simp)).1
    have p2 : 0 ≤ (es.map t).sum := List.sum_nonneg (by intro y hy; obtain ⟨k, hk, rfl⟩ := List.mem_map.1 hy; exact (hnn k (by simp [hk])).1)
    intro k hk
    rcases List.mem_cons.1 hk with rfl | hk
    · exact (hnn k (by simp)).2 (by linarith)
    · exact ih (by linarith) (fun k hk => hnn k (by simp [hk])) k hk

theorem form_add (n : ℕ) (K L : ℕ → ℕ → ℝ) (v u : ℕ → ℝ) : form n L v u = form n K v u + form n (fun i j => L i j - K i j) v u := by
  unfold form
  rw [← Finset.sum_add_distrib]
  refine Finset.sum_congr rfl fun i _ => ?_
  rw [← Finset.sum_add_distrib]
  refine Finset.sum_congr rfl fun j _ => ?_
  ring

theorem rotFactor_ne (method : String) : rotFactor method ≠ 0 := by
  unfold rotFactor; split <;> norm_num

/-- origin of the shear gaps of a triangle -/
noncomputable def shearOrigin (m : Mesh) (method : String) (e : ℕ) : List ℕ := if method = "cell-based" then corners m e else [(cellNSOrient m e).1]

/-- the stiffness matrix of a plate: `calc_k0`, then `add_k0s` with one of the cell methods -/
structure Stiffness (m : Mesh) (pn : Bool) (method : String) (al : ℝ) (fa : Bool) (K : Mat) : Prop where
  cell : method = "cell-based" ∨ method = "cell-based-no-smoothing"
  made : ∃ K0, (calcK0 m pn).2 = .ok K0 ∧ addK0s K0 (calcK0 m pn).1 pn method al fa = (K, none)

/-- the energy of the complete stiffness matrix: membrane and bending plus shear -/
theorem stiffness_energy {m : Mesh} (hr : Reachable m) {pn : Bool} (hg : GoodPlate m pn) {method : String} {al : ℝ} {fa : Bool} {K : Mat}
    (hK : Stiffness m pn method al fa K) : K.dim = 5 * m.nids.length ∧ ∃ K0, (calcK0 m pn).2 = .ok K0 ∧ K0.dim = K.dim ∧
      ∀ v u, form K.dim K.get v u = form K0.dim K0.get v u + shearEnergy (calcK0 m pn).1 pn al fa
        (if method = "cell-based" then cellStrain (calcK0 m pn).1 else wholeGamma (calcK0 m pn).1) v u := by
  obtain ⟨hme, K0, hK0, hadd⟩ := hK
  obtain ⟨hs, hq, hh, hne⟩ := calcK0_ok hr.wf hK0
  have hm : Numbered (calcK0 m pn).1 := .intro m hr pn K0 hK0 []
  have hf := hs.flatMesh hg.planar
  have hh2 := hs.hasProps hh
  have ht : Thick (calcK0 m pn).1 pn := fun e he => (cavg_pos (hs.wf hr.wf) hh2 he fun l h => (hg.shear l (hs.inUse.1 h)).1).ne'
  have hd : K0.dim = 5 * (calcK0 m pn).1.nids.length := by rw [(calcK0_sum hr.wf hK0).1, hs.nids]; ring
  rcases hme with rfl | rfl
  · obtain ⟨K', h1, h2, h3⟩ := C38_energy hm hf hh2 ht al fa hd
    rw [hadd] at h1
    have : K = K' := by injection h1
    subst this
    refine ⟨by rw [h2, hd, hs.nids], K0, hK0, h2.symm, fun v u => ?_⟩
    rw [h2, form_add _ K0.get, h3, if_pos rfl]
  · obtain ⟨K', h1, h2, h3⟩ := C39_energy hm hf hh2 ht al fa hd
    rw [hadd] at h1
    have : K = K' := by injection h1
    subst this
    refine ⟨by rw [h2, hd, hs.nids], K0, hK0, h2.symm, fun v u => ?_⟩
    rw [h2, form_add _ K0.get, h3, if_neg (by decide)]

/-- what a displacement without energy looks like -/
theorem modes_total {m : Mesh} (hr : Reachable m) {pn : Bool} (hg : GoodPlate m pn) {method : String} {al : ℝ} (ha : 0 ≤ al) {fa : Bool} {K : Mat}
    (hK : Stiffness m pn method al fa K) {d : ℕ → ℝ} :
    0 ≤ form K.dim K.get d d ∧ (form K.dim K.get d d = 0 → (∃ a b c, RigidField m (disp m d 0) (disp m d 1) a b c) ∧
      ∃ p q r, RigidField m (disp m d 3) (disp m d 4) p q r ∧
        (∀ e ∈ m.eids, ∃ c, Aff m e (disp m d 2) c (-(rotFactor method * (p - r * mean (ny m) (shearOrigin (calcK0 m pn).1 method e))))
          (-(rotFactor method * (q + r * mean (nx m) (shearOrigin (calcK0 m pn).1 method e)))))) := by
  obtain ⟨hdim, K0, hK0, hd0, hform⟩ := stiffness_energy hr hg hK
  obtain ⟨hs, hq, hh, hne⟩ := calcK0_ok hr.wf hK0
  set m2 := (calcK0 m pn).1 with hm2
  have w2 := hs.wf hr.wf
  have hf := hs.flatMesh hg.planar
  have hh2 := hs.hasProps hh
  have hl2 : ∀ l, InUse m2 pn l → StiffShear l := fun l h => hg.shear l (hs.inUse.1 h)
  obtain ⟨n1, z1⟩ := energy_zero_eps hr.wf hg.proper hg.planar hh hg.abd (d := d)
  obtain ⟨n2, z2⟩ := shearEnergy_zero w2 hf hh2 hl2 ha fa (g := if method = "cell-based" then cellStrain m2 else wholeGamma m2) (v := d)
  have hf0 := C18_energy hr hg.proper hg.planar hK0 d d
  rw [hform, hf0]
  refine ⟨by linarith, fun h => ?_⟩
  have hsz := z2 (by linarith)
  have hk0 : form K0.dim K0.get d d = 0 := by rw [hf0]; linarith
  obtain ⟨h1, p, q, r, h2⟩ := (C73_modes hr hg.proper hg.planar hg.piece hK0 hg.abd d).1 hk0
  refine ⟨h1, p, q, r, h2, fun e he => ?_⟩
  have he2 : e ∈ m2.eids := hs.eids.symm ▸ he
  have hg2 := hs.planar hg.planar
  obtain ⟨c, P, Q, hA⟩ := aff_exists hr.wf hg.proper hg.planar he (disp m d 2)
  have hin : ∀ i ∈ corners m2 e, i ∈ m.nids := by
    intro i hi; rw [hs.scorners] at hi; exact hr.wf.corner_mem he hi
  have hw : ∀ i ∈ corners m2 e, disp m2 d 2 i = c + P * nx m2 i + Q * ny m2 i := by
    intro i hi
    rw [hs.sdisp, hs.snx, hs.sny]
    rw [hs.scorners] at hi
    exact hA i (isCorner_mem.2 hi)
  have hx : ∀ i ∈ corners m2 e, disp m2 d 3 i = p - r * ny m2 i := by
    intro i hi; rw [hs.sdisp, hs.sny]; exact (h2 i (hin i hi)).1
  have hy : ∀ i ∈ corners m2 e, disp m2 d 4 i = q + r * nx m2 i := by
    intro i hi; rw [hs.sdisp, hs.snx]; exact (h2 i (hin i hi)).2
  obtain ⟨g0, g1⟩ := hsz e he2
  refine ⟨c, ?_⟩
  unfold rotFactor shearOrigin
  rcases hK.cell with rfl | rfl
  · rw [if_pos rfl] at g0 g1 ⊢
    rw [if_pos rfl]
    obtain ⟨c0, c1⟩ := cellGamma_affine w2 hf he2 hw hx hy
    obtain ⟨r0, r1⟩ := rotSum_affine hx hy
    unfold cellStrain at g0 g1
    rw [c0, r0, sixthErr_eq.2, hs.sny] at g0
    rw [c1, r1, sixthErr_eq.2, hs.snx] at g1
    have e0 : P = -((1 + 1 / 10 ^ 15) * (p - r * mean (ny m) (corners m2 e))) := by linarith
    have e1 : Q = -((1 + 1 / 10 ^ 15) * (q + r * mean (nx m) (corners m2 e))) := by linarith
    rw [← e0, ← e1]; exact hA
  · rw [if_neg (by decide)] at g0 g1 ⊢
    rw [if_neg (by decide)]
    obtain ⟨c0, c1⟩ := wholeGamma_affine hf he2 hw hx hy
    rw [c0, hs.sny] at g0
    rw [c1, hs.snx] at g1
    rw [mean_single, mean_single]
    have e0 : P = -(1 * (p - r * ny m (cellNSOrient m2 e).1)) := by linarith
    have e1 : Q = -(1 * (q + r * nx m (cellNSOrient m2 e).1)) := by linarith
    rw [← e0, ← e1]; exact hA

/-- C74: the smoothed method has no spurious mode. On a one-piece plate of at least two triangles the complete stiffness matrix (`calc_k0`,
then `add_k0s` with "cell-based") has zero energy exactly for the rigid motions: an in-plane one, and uniform rotations with the
deflection that goes with them (`10^-15` is the effect of the literal `0.166666666666667`). -/
theorem C74_modes {m : Mesh} (hr : Reachable m) {pn : Bool} (hg : GoodPlate m pn) (h2 : 2 ≤ m.eids.length) {al : ℝ} (ha : 0 ≤ al) {fa : Bool} {K : Mat}
    (hK : Stiffness m pn "cell-based" al fa K) (d : ℕ → ℝ) :
    form K.dim K.get d d = 0 ↔ (∃ a b c, RigidField m (disp m d 0) (disp m d 1) a b c) ∧
      ∃ p q s, ∀ i ∈ m.nids, disp m d 3 i = p ∧ disp m d 4 i = q ∧ disp m d 2 i = s - (1 + 1 / 10 ^ 15) * (p * nx m i + q * ny m i) := by
  have hθ : rotFactor "cell-based" = 1 + 1 / 10 ^ 15 := if_pos rfl
  constructor
  · intro h
    obtain ⟨h1, p, q, r, h3, h4⟩ := (modes_total hr hg ha hK).2 h
    obtain ⟨_, K0, hK0, _⟩ := stiffness_energy hr hg hK
    obtain ⟨hs, _⟩ := calcK0_ok hr.wf hK0
    have ho : ∀ e, shearOrigin (calcK0 m pn).1 "cell-based" e = corners m e := fun e => by unfold shearOrigin; rw [if_pos rfl, hs.scorners]
    simp only [ho] at h4
    have hr0 := no_twist hr.wf hg.proper hg.planar hg.piece h2 (rotFactor_ne _) h4
    subst hr0
    obtain ⟨s, h5⟩ := deflection_affine hr.wf hg.proper hg.piece (d := d) (p := p) (q := q) (θ := rotFactor "cell-based") (fun e he => by
      obtain ⟨c, hc⟩ := h4 e he
      exact ⟨c, by simpa using hc⟩)
    refine ⟨h1, p, q, s, fun i hi => ⟨?_, ?_, ?_⟩⟩
    · rw [(h3 i hi).1]; ring
    · rw [(h3 i hi).2]; ring
    · rw [h5 i hi, hθ]
  · rintro ⟨h1, p, q, s, h3⟩
    obtain ⟨_, K0, hK0, _, hform⟩ := stiffness_energy hr hg hK
    obtain ⟨hs, _, hh, _⟩ := calcK0_ok hr.wf hK0
    have hm : Numbered (calcK0 m pn).1 := .intro m hr pn K0 hK0 []
    rw [hform, (C73_modes hr hg.proper hg.planar hg.piece hK0 hg.abd d).2 ⟨h1, p, q, 0, fun i hi => ⟨by rw [(h3 i hi).1]; ring, by rw [(h3 i hi).2.1]; ring⟩⟩,
      zero_add, if_pos rfl]
    refine shearEnergy_null fun e he => ?_
    have hin := hs.nids
    obtain ⟨g0, g1⟩ := patch_cell hm (hs.flatMesh hg.planar) (z := d) (c := s) (p := -((1 + 1 / 10 ^ 15) * p)) (q := -((1 + 1 / 10 ^ 15) * q)) (r := p) (s := q)
      (fun i hi => by rw [hs.sdisp, hs.snx, hs.sny, (h3 i (hin ▸ hi)).2.2]; ring)
      (fun i hi => by rw [hs.sdisp]; exact (h3 i (hin ▸ hi)).1) (fun i hi => by rw [hs.sdisp]; exact (h3 i (hin ▸ hi)).2.1) he
    rw [g0, g1]
    constructor <;> ring

theorem gapOrigin_eq {m : Mesh} (hf : FlatMesh m) {e : ℕ} (he : e ∈ m.eids) : (cellNSOrient m e).1 = gapOrigin m e := by
  rw [cellNSOrient_eq]
  unfold gapOrigin
  rcases lt_or_gt_of_ne (hf.nondeg e he) with h | h
  · rw [if_pos (by unfold tpoly; exact h), if_neg (by unfold tpoly; linarith)]
  · rw [if_neg (by unfold tpoly; linarith), if_pos (by unfold tpoly; exact h)]

theorem SameStatic.gapOrigin {m m' : Mesh} (h : SameStatic m m') : gapOrigin m' = gapOrigin m := by
  funext e; unfold Spec.gapOrigin tpoly; rw [h.ssarea, h.tria]

/-- C77, weaker form: without smoothing the zero-energy displacements are the rigid motions provided some interior edge is not parallel to the
line through the shear gap origins of its two triangles. (Without that proviso false, see `C77_false`.) -/
theorem C77_modes_partial {m : Mesh} (hr : Reachable m) {pn : Bool} (hg : GoodPlate m pn) {al : ℝ} (ha : 0 ≤ al) {fa : Bool} {K : Mat}
    (hK : Stiffness m pn "cell-based-no-smoothing" al fa K) {k : Key} (hk : k ∈ m.ekeys) {t1 t2 : ℕ} (htr : (m.edge k).trias = [t1, t2])
    (hpar : (ny m (gapOrigin m t1) - ny m (gapOrigin m t2)) * (nx m k.2 - nx m k.1) - (nx m (gapOrigin m t1) - nx m (gapOrigin m t2)) * (ny m k.2 - ny m k.1) ≠ 0)
    (d : ℕ → ℝ) : form K.dim K.get d d = 0 ↔ (∃ a b c, RigidField m (disp m d 0) (disp m d 1) a b c) ∧
      ∃ p q s, ∀ i ∈ m.nids, disp m d 3 i = p ∧ disp m d 4 i = q ∧ disp m d 2 i = s - (p * nx m i + q * ny m i) := by
  have hθ : rotFactor "cell-based-no-smoothing" = 1 := if_neg (by decide)
  obtain ⟨_, K0, hK0, _, hform⟩ := stiffness_energy hr hg hK
  obtain ⟨hs, _, hh, _⟩ := calcK0_ok hr.wf hK0
  have hf2 := hs.flatMesh hg.planar
  constructor
  · intro h
    obtain ⟨h1, p, q, r, h3, h4⟩ := (modes_total hr hg ha hK).2 h
    have ho : ∀ e ∈ m.eids, shearOrigin (calcK0 m pn).1 "cell-based-no-smoothing" e = [gapOrigin m e] := fun e he => by
      unfold shearOrigin; rw [if_neg (by decide), gapOrigin_eq hf2 (hs.eids.symm ▸ he), hs.gapOrigin]
    have h4' : ∀ e ∈ m.eids, ∃ c, Aff m e (disp m d 2) c (-(p - r * ny m (gapOrigin m e))) (-(q + r * nx m (gapOrigin m e))) := by
      intro e he
      obtain ⟨c, hc⟩ := h4 e he
      rw [ho e he, hθ, one_mul, one_mul, mean_single, mean_single] at hc
      exact ⟨c, hc⟩
    obtain ⟨o1, hs1, _⟩ := side_of hr.wf hg.proper.distinct hk (t := t1) (by rw [htr]; simp)
    obtain ⟨o2, hs2, _⟩ := side_of hr.wf hg.proper.distinct hk (t := t2) (by rw [htr]; simp)
    obtain ⟨c1, f1⟩ := h4' t1 hs1.mem
    obtain ⟨c2, f2⟩ := h4' t2 hs2.mem
    obtain ⟨a1, a2, _⟩ := aff_values hs1 f1
    obtain ⟨b1, b2, _⟩ := aff_values hs2 f2
    have hr0 : r * ((ny m (gapOrigin m t1) - ny m (gapOrigin m t2)) * (nx m k.2 - nx m k.1) -
        (nx m (gapOrigin m t1) - nx m (gapOrigin m t2)) * (ny m k.2 - ny m k.1)) = 0 := by linarith
    have hr0 := (mul_eq_zero.1 hr0).resolve_right hpar
    subst hr0
    obtain ⟨s, h5⟩ := deflection_affine hr.wf hg.proper hg.piece (d := d) (p := p) (q := q) (θ := 1) (fun e he => by
      obtain ⟨c, hc⟩ := h4' e he
      exact ⟨c, by simpa using hc⟩)
    refine ⟨h1, p, q, s, fun i hi => ⟨?_, ?_, ?_⟩⟩
    · rw [(h3 i hi).1]; ring
    · rw [(h3 i hi).2]; ring
    · rw [h5 i hi, one_mul]
  · rintro ⟨h1, p, q, s, h3⟩
    have hm : Numbered (calcK0 m pn).1 := .intro m hr pn K0 hK0 []
    rw [hform, (C73_modes hr hg.proper hg.planar hg.piece hK0 hg.abd d).2 ⟨h1, p, q, 0, fun i hi => ⟨by rw [(h3 i hi).1]; ring, by rw [(h3 i hi).2.1]; ring⟩⟩,
      zero_add, if_neg (by decide)]
    refine shearEnergy_null fun e he => ?_
    have hin := hs.nids
    obtain ⟨g0, g1⟩ := patch_whole hm hf2 (z := d) (c := s) (p := -p) (q := -q) (r := p) (s := q)
      (fun i hi => by rw [hs.sdisp, hs.snx, hs.sny, (h3 i (hin ▸ hi)).2.2]; ring)
      (fun i hi => by rw [hs.sdisp]; exact (h3 i (hin ▸ hi)).1) (fun i hi => by rw [hs.sdisp]; exact (h3 i (hin ▸ hi)).2.1) he
    rw [g0, g1]
    constructor <;> ring

theorem rigid_zero {m : Mesh} {f g : ℕ → ℝ} {a b c : ℝ} (h : RigidField m f g a b c) {i j : ℕ} (hi : i ∈ m.nids) (hj : j ∈ m.nids)
    (hp : nx m i ≠ nx m j ∨ ny m i ≠ ny m j) (f0 : f i = 0) (g0 : g i = 0) (f1 : f j = 0) (g1 : g j = 0) : a = 0 ∧ b = 0 ∧ c = 0 := by
  obtain ⟨x1, y1⟩ := h i hi
  obtain ⟨x2, y2⟩ := h j hj
  rw [f0] at x1; rw [g0] at y1; rw [f1] at x2; rw [g1] at y2
  have hc : c = 0 := by
    rcases hp with hp | hp
    · have : c * (nx m i - nx m j) = 0 := by linarith
      exact (mul_eq_zero.1 this).resolve_right (sub_ne_zero.2 hp)
    · have : c * (ny m i - ny m j) = 0 := by linarith
      exact (mul_eq_zero.1 this).resolve_right (sub_ne_zero.2 hp)
  subst hc
  exact ⟨by linarith, by linarith, rfl⟩

/-- C75: a plate with sufficient supports is stable. With either cell method the energy of every displacement that respects the supports and is
not zero is positive. -/
theorem C75_positive {m : Mesh} (hr : Reachable m) {pn : Bool} (hg : GoodPlate m pn) {method : String} {al : ℝ} (ha : 0 ≤ al) {fa : Bool} {K : Mat}
    (hK : Stiffness m pn method al fa K) {S : Set ℕ} (hS : Held m S) {d : ℕ → ℝ} (hd : ∀ i < K.dim, i ∈ S → d i = 0) (hne : ∃ i < K.dim, d i ≠ 0) :
    0 < form K.dim K.get d d := by
  obtain ⟨hnn, hz⟩ := modes_total hr hg ha hK (d := d)
  rcases lt_or_eq_of_le hnn with h | h
  · exact h
  exfalso
  obtain ⟨⟨a, b, c, h1⟩, p, q, r, h2, h3⟩ := hz h.symm
  obtain ⟨hdim, _⟩ := stiffness_energy hr hg hK
  have hz0 : ∀ i ∈ m.nids, ∀ s < 5, dofNo m i s ∈ S → disp m d s i = 0 := by
    intro i hi s hs hm
    refine hd _ ?_ hm
    have := List.idxOf_lt_length_of_mem hi
    rw [hdim]; omega
  have huv : a = 0 ∧ b = 0 ∧ c = 0 := by
    obtain ⟨i, hi, j, hj, h | h⟩ := hS
    · exact rigid_zero h1 hi hj h.1 (hz0 i hi 0 (by omega) (h.2 0 (by omega)).1) (hz0 i hi 1 (by omega) (h.2 1 (by omega)).1)
        (hz0 j hj 0 (by omega) (h.2 0 (by omega)).2) (hz0 j hj 1 (by omega) (h.2 1 (by omega)).2)
    · exact rigid_zero h1 hi hj (Or.inr h.1) (hz0 i hi 0 (by omega) (h.2 0 (by omega)).1) (hz0 i hi 1 (by omega) (h.2 1 (by omega)).1)
        (hz0 j hj 0 (by omega) (h.2 0 (by omega)).2) (hz0 j hj 1 (by omega) (h.2 1 (by omega)).2)
  have hr0 : r = 0 ∧ p = 0 := by
    obtain ⟨i, hi, j, hj, h | h⟩ := hS
    · obtain ⟨a1, a2, a3⟩ := rigid_zero h2 hi hj h.1 (hz0 i hi 3 (by omega) (h.2 3 (by omega)).1) (hz0 i hi 4 (by omega) (h.2 4 (by omega)).1)
        (hz0 j hj 3 (by omega) (h.2 3 (by omega)).2) (hz0 j hj 4 (by omega) (h.2 4 (by omega)).2)
      exact ⟨a3, a1⟩
    · have x1 := (h2 i hi).1
      have x2 := (h2 j hj).1
      rw [hz0 i hi 3 (by omega) (h.2 3 (by omega)).1] at x1
      rw [hz0 j hj 3 (by omega) (h.2 3 (by omega)).2] at x2
      have hr : r * (ny m i - ny m j) = 0 := by linarith
      have := (mul_eq_zero.1 hr).resolve_right (sub_ne_zero.2 h.1)
      subst this
      exact ⟨rfl, by linarith⟩
  obtain ⟨rfl, rfl⟩ := hr0
  obtain ⟨s, h5⟩ := deflection_affine hr.wf hg.proper hg.piece (d := d) (p := 0) (q := q) (θ := rotFactor method) (fun e he => by
      obtain ⟨c, hc⟩ := h3 e he
      exact ⟨c, by simpa using hc⟩)
  have hq : q = 0 ∧ s = 0 := by
    obtain ⟨i, hi, j, hj, h | h⟩ := hS
    · have x1 := (h2 i hi).2
      rw [hz0 i hi 4 (by omega) (h.2 4 (by omega)).1] at x1
      have hq : q = 0 := by linarith
      have w1 := h5 i hi
      rw [hz0 i hi 2 (by omega) (h.2 2 (by omega)).1, hq] at w1
      exact ⟨hq, by linarith⟩
    · have w1 := h5 i hi
      have w2 := h5 j hj
      rw [hz0 i hi 2 (by omega) (h.2 2 (by omega)).1] at w1
      rw [hz0 j hj 2 (by omega) (h.2 2 (by omega)).2] at w2
      have hq : rotFactor method * q * (ny m i - ny m j) = 0 := by linarith
      have hq2 := (mul_eq_zero.1 ((mul_eq_zero.1 hq).resolve_right (sub_ne_zero.2 h.1))).resolve_left (rotFactor_ne _)
      subst hq2
      exact ⟨rfl, by linarith⟩
  obtain ⟨rfl, rfl⟩ := hq
  obtain ⟨rfl, rfl, rfl⟩ := huv
  obtain ⟨x, hx, hxd⟩ := hne
  apply hxd
  rw [hdim] at hx
  have hlt : x / 5 < m.nids.length := by omega
  have hmem : m.nids[x / 5] ∈ m.nids := List.getElem_mem hlt
  have hidx : m.nids.idxOf m.nids[x / 5] = x / 5 := hr.wf.nids_nodup.idxOf_getElem _ hlt
  have key : ∀ s, d (5 * (x / 5) + s) = disp m d s m.nids[x / 5] := fun s => by unfold disp; rw [hidx]
  have hx5 : x = 5 * (x / 5) + x % 5 := by omega
  rw [hx5, key]
  have hmod : x % 5 < 5 := Nat.mod_lt _ (by omega)
  generalize x % 5 = s at hmod
  interval_cases s
  · rw [(h1 _ hmem).1]; ring
  · rw [(h1 _ hmem).2]; ring
  · rw [h5 _ hmem]; ring
  · rw [(h2 _ hmem).1]; ring
  · rw [(h2 _ hmem).2]; ring

/-- a form that is definite on the free degrees of freedom gives a uniquely solvable system -/
theorem solve_unique {n : ℕ} (K : ℕ → ℕ → ℝ) (S : Set ℕ)
    (h : ∀ d : ℕ → ℝ, (∀ i < n, i ∈ S → d i = 0) → form n K d d = 0 → ∀ i < n, d i = 0) (f : ℕ → ℝ) :
    ∃ d : ℕ → ℝ, ((∀ i < n, i ∈ S → d i = 0) ∧ ∀ i < n, i ∉ S → ∑ j ∈ range n, K i j * d j = f i) ∧
      ∀ d' : ℕ → ℝ, ((∀ i < n, i ∈ S → d' i = 0) ∧ ∀ i < n, i ∉ S → ∑ j ∈ range n, K i j * d' j = f i) → ∀ i < n, d' i = d i := by
  classical
  let ext : (Fin n → ℝ) → ℕ → ℝ := fun d i => if h : i < n then d ⟨i, h⟩ else 0
  have hext : ∀ d (i : Fin n), ext d i = d i := fun d i => by simp [ext]
  have hsum : ∀ (d : Fin n → ℝ) (i : ℕ), ∑ j ∈ range n, K i j * ext d j = ∑ j : Fin n, K i j * d j := by
    intro d i
    rw [Finset.sum_range]
    exact Finset.sum_congr rfl fun j _ => by rw [hext]
  let T : (Fin n → ℝ) →ₗ[ℝ] (Fin n → ℝ) :=
    { toFun := fun d i => if (i : ℕ) ∈ S then d i else ∑ j : Fin n, K i j * d j
      map_add' := by
        intro x y; funext i
        by_cases hi : (i : ℕ) ∈ S
        · simp [hi]
        · simp [hi, mul_add, Finset.sum_add_distrib]
      map_smul' := by
        intro c x; funext i
        by_cases hi : (i : ℕ) ∈ S
        · simp [hi]
        · simp only [hi, if_false, Pi.smul_apply, smul_eq_mul, RingHom.id_apply]
          rw [Finset.mul_sum]
          exact Finset.sum_congr rfl fun j _ => by ring }
  have hT : ∀ d i, T d i = if (i : ℕ) ∈ S then d i else ∑ j : Fin n, K i j * d j := fun d i => rfl
  have hinj : Function.Injective T := by
    rw [← LinearMap.ker_eq_bot, LinearMap.ker_eq_bot']
    intro d hd
    have h0 : ∀ i : Fin n, (i : ℕ) ∈ S → d i = 0 := by
      intro i hi; have := congrFun hd i; rw [hT, if_pos hi] at this; exact this
    have h1 : ∀ i : Fin n, (i : ℕ) ∉ S → ∑ j : Fin n, K i j * d j = 0 := by
      intro i hi; have := congrFun hd i; rw [hT, if_neg hi] at this; exact this
    have := h (ext d) (fun i hi hS => by
      exact (hext d ⟨i, hi⟩).trans (h0 ⟨i, hi⟩ hS)) (by
      unfold form
      apply Finset.sum_eq_zero
      intro i hi
      rw [Finset.mem_range] at hi
      have e : ∑ j ∈ range n, ext d i * K i j * ext d j = ext d i * ∑ j ∈ range n, K i j * ext d j := by
        rw [Finset.mul_sum]; exact Finset.sum_congr rfl fun j _ => by ring
      rw [e, hsum]
      by_cases hS : i ∈ S
      · have e2 : ext d i = 0 := (hext d ⟨i, hi⟩).trans (h0 ⟨i, hi⟩ hS)
        rw [e2, zero_mul]
      · have := h1 ⟨i, hi⟩ hS
        have e2 : ∑ j : Fin n, K i j * d j = 0 := this
        rw [e2, mul_zero])
    funext i
    exact (hext d i).symm.trans (this i i.2)
  have hsur : Function.Surjective T := LinearMap.injective_iff_surjective.1 hinj
  obtain ⟨d, hd⟩ := hsur fun i => if (i : ℕ) ∈ S then 0 else f i
  refine ⟨ext d, ⟨fun i hi hS => ?_, fun i hi hS => ?_⟩, fun d' ⟨g1, g2⟩ i hi => ?_⟩
  · have := congrFun hd ⟨i, hi⟩
    rw [hT] at this
    simp only [hS, if_true] at this
    exact (hext d ⟨i, hi⟩).trans this
  · have := congrFun hd ⟨i, hi⟩
    rw [hT] at this
    simp only [hS, if_false] at this
    rw [hsum]; exact this
  · have : T (fun i => d' i) = T d := by
      rw [hd]
      funext j
      rw [hT]
      by_cases hS : (j : ℕ) ∈ S
      · simp only [hS, if_true]; exact g1 j j.2 hS
      · simp only [hS, if_false]
        rw [← g2 j j.2 hS, Finset.sum_range]
    have := congrFun (hinj this) ⟨i, hi⟩
    exact this.trans (hext d ⟨i, hi⟩).symm

/-- C76: the static problem of a supported plate has exactly one solution for every load: displacements zero at the supports, equilibrium of all
other degrees of freedom. -/
theorem C76_static {m : Mesh} (hr : Reachable m) {pn : Bool} (hg : GoodPlate m pn) {method : String} {al : ℝ} (ha : 0 ≤ al) {fa : Bool} {K : Mat}
    (hK : Stiffness m pn method al fa K) {S : Set ℕ} (hS : Held m S) (f : ℕ → ℝ) :
    ∃ d : ℕ → ℝ, ((∀ i < K.dim, i ∈ S → d i = 0) ∧ ∀ i < K.dim, i ∉ S → ∑ j ∈ range K.dim, K.get i j * d j = f i) ∧
      ∀ d' : ℕ → ℝ, ((∀ i < K.dim, i ∈ S → d' i = 0) ∧ ∀ i < K.dim, i ∉ S → ∑ j ∈ range K.dim, K.get i j * d' j = f i) → ∀ i < K.dim, d' i = d i := by
  refine solve_unique K.get S (fun d hd h0 => ?_) f
  by_contra hcon
  push Not at hcon
  exact absurd h0 (C75_positive hr hg ha hK hS hd hcon).ne'

/-! ### concrete cases: the unit square of two triangles, unit stiffnesses -/

/-- the example square -/
noncomputable abbrev exSq : Mesh := exMesh exIso exIso exIso exIso exIso exIso

theorem exIso_stiff : StiffABD exIso := by
  intro x hx
  simp only [exIso_abd]
  obtain ⟨i, hi⟩ := Function.ne_iff.1 hx
  have e : ∀ p : Fin 6, ∑ q, x p * (if p = q then 1 else 0) * x q = x p * x p := by
    intro p
    rw [Finset.sum_eq_single p]
    · rw [if_pos rfl, mul_one]
    · intro q _ hq; rw [if_neg (Ne.symm hq)]; ring
    · simp
  simp only [e]
  exact Finset.sum_pos' (fun p _ => mul_self_nonneg _) ⟨i, Finset.mem_univ _, mul_self_pos.2 hi⟩

theorem exIso_shear : StiffShear exIso := by
  unfold StiffShear exIso exLam; simp

theorem exSq_inUse {pn : Bool} {l : Lam} (h : InUse exSq pn l) : l = exIso := exMesh_homog exIso pn l h

theorem exSq_adj : Adjacent exSq 1 2 := ⟨(1, 3), by rw [exMesh_ekeys]; simp, by rw [exMesh_e13]; simp, by rw [exMesh_e13]; simp⟩

theorem exSq_piece : OnePiece exSq := by
  refine ⟨?_, ?_⟩
  · intro e he e' he'
    rw [exMesh_eids] at he he'
    simp only [List.mem_cons, List.not_mem_nil, or_false] at he he'
    rcases he with rfl | rfl <;> rcases he' with rfl | rfl
    · exact .refl
    · exact .single exSq_adj
    · exact .single (adjacent_symm exSq_adj)
    · exact .refl
  · intro i hi
    rw [exMesh_nids] at hi
    simp only [List.mem_cons, List.not_mem_nil, or_false] at hi
    rw [exMesh_eids]
    rcases hi with rfl | rfl | rfl | rfl
    · exact ⟨1, by simp, by unfold IsCorner; rw [exMesh_tria1]; simp⟩
    · exact ⟨1, by simp, by unfold IsCorner; rw [exMesh_tria1]; simp⟩
    · exact ⟨1, by simp, by unfold IsCorner; rw [exMesh_tria1]; simp⟩
    · exact ⟨2, by simp, by unfold IsCorner; rw [exMesh_tria2]; simp⟩

theorem exSq_good (pn : Bool) : GoodPlate exSq pn :=
  ⟨exMesh_proper .., exMesh_planar .., exSq_piece, fun _ h => exSq_inUse h ▸ exIso_stiff, fun _ h => exSq_inUse h ▸ exIso_shear⟩

/-- the analysis of a good plate returns a stiffness matrix -/
theorem stiffness_exists {m : Mesh} (hr : Reachable m) {pn : Bool} (hg : GoodPlate m pn) (hh : HasProps m pn) (hne : m.nids ≠ []) {method : String}
    (hme : method = "cell-based" ∨ method = "cell-based-no-smoothing") (al : ℝ) (fa : Bool) : ∃ K, Stiffness m pn method al fa K := by
  obtain ⟨K0, hK0, _⟩ := C11_success hr hg.proper hne hh
  obtain ⟨hs, _, _, _⟩ := calcK0_ok hr.wf hK0
  have hm : Numbered (calcK0 m pn).1 := .intro m hr pn K0 hK0 []
  have hh2 := hs.hasProps hh
  have ht : Thick (calcK0 m pn).1 pn := fun e he => (cavg_pos (hs.wf hr.wf) hh2 he fun l h => (hg.shear l (hs.inUse.1 h)).1).ne'
  have hd : K0.dim = 5 * (calcK0 m pn).1.nids.length := by rw [(calcK0_sum hr.wf hK0).1, hs.nids]; ring
  rcases hme with rfl | rfl
  · obtain ⟨K', h1, _⟩ := C38_energy hm (hs.flatMesh hg.planar) hh2 ht al fa hd
    exact ⟨K', Or.inl rfl, K0, hK0, h1⟩
  · obtain ⟨K', h1, _⟩ := C39_energy hm (hs.flatMesh hg.planar) hh2 ht al fa hd
    exact ⟨K', Or.inr rfl, K0, hK0, h1⟩

theorem exSq_stiffness {method : String} (hme : method = "cell-based" ∨ method = "cell-based-no-smoothing") (pn : Bool) (al : ℝ) (fa : Bool) :
    ∃ K, Stiffness exSq pn method al fa K :=
  stiffness_exists (exMesh_reachable ..) (exSq_good pn) (exMesh_props ..) (by rw [exMesh_nids]; simp) hme al fa

/-- clamping the left side (nodes 1 and 4, degrees of freedom 0-4 and 15-19) holds the square -/
theorem exSq_held : Held exSq {x | x < 5 ∨ 15 ≤ x} := by
  refine ⟨1, by rw [exMesh_nids]; simp, 4, by rw [exMesh_nids]; simp, Or.inl ⟨Or.inr ?_, fun r hr => ?_⟩⟩
  · simp only [ny, exMesh_node1, exMesh_node4]; norm_num
  · simp only [dofNo, exMesh_nids, Set.mem_ofPred_eq]
    norm_num [List.idxOf_cons]
    omega

/-- the supports of the project's cantilever tests (`u`, `v`, `w`, `phix` on the left side) hold it as well -/
example : Held exSq {x | x < 4 ∨ 15 ≤ x ∧ x < 19} := by
  refine ⟨1, by rw [exMesh_nids]; simp, 4, by rw [exMesh_nids]; simp, Or.inr ⟨?_, fun r hr => ?_⟩⟩
  · simp only [ny, exMesh_node1, exMesh_node4]; norm_num
  · simp only [dofNo, exMesh_nids, Set.mem_ofPred_eq]
    norm_num [List.idxOf_cons]
    omega

/-- C73 on the square -/
example : ∃ K, (calcK0 exSq true).2 = .ok K ∧ ∀ d, form K.dim K.get d d = 0 ↔
    (∃ a b c, RigidField exSq (disp exSq d 0) (disp exSq d 1) a b c) ∧ ∃ p q r, RigidField exSq (disp exSq d 3) (disp exSq d 4) p q r := by
  obtain ⟨K, hK, _⟩ := exMesh_k0 exIso exIso exIso exIso exIso exIso true
  exact ⟨K, hK, C73_modes (exMesh_reachable ..) (exMesh_proper ..) (exMesh_planar ..) exSq_piece hK (exSq_good true).abd⟩

/-- C74 on the square: the deflection of node 2 alone costs energy -/
example : ∃ K, Stiffness exSq false "cell-based" (1 / 5) true K ∧ form K.dim K.get (fun x => if x = 7 then 1 else 0) (fun x => if x = 7 then 1 else 0) ≠ 0 := by
  obtain ⟨K, hK⟩ := exSq_stiffness (Or.inl rfl) false (1 / 5) true
  refine ⟨K, hK, fun h => ?_⟩
  obtain ⟨_, p, q, s, h3⟩ := (C74_modes (exMesh_reachable ..) (exSq_good false) (by rw [exMesh_eids]; simp) (by norm_num) hK _).1 h
  have g1 := h3 1 (by rw [exMesh_nids]; simp)
  have g2 := h3 2 (by rw [exMesh_nids]; simp)
  simp only [disp, exMesh_nids, nx, ny, exMesh_node1, exMesh_node2] at g1 g2
  norm_num [List.idxOf_cons] at g1 g2
  obtain ⟨rfl, rfl, rfl⟩ := g1
  norm_num at g2

/-- C75 and C76 on the square, clamped at its left side: one solution for every load -/
example : ∃ K, Stiffness exSq true "cell-based-no-smoothing" (1 / 5) false K ∧ ∀ f : ℕ → ℝ, ∃ d : ℕ → ℝ, (∀ i < K.dim, i < 5 ∨ 15 ≤ i → d i = 0) ∧
    ∀ i < K.dim, ¬(i < 5 ∨ 15 ≤ i) → ∑ j ∈ range K.dim, K.get i j * d j = f i := by
  obtain ⟨K, hK⟩ := exSq_stiffness (Or.inr rfl) true (1 / 5) false
  refine ⟨K, hK, fun f => ?_⟩
  obtain ⟨d, h1, _⟩ := C76_static (exMesh_reachable ..) (exSq_good true) (by norm_num) hK exSq_held f
  exact ⟨d, h1.1, h1.2⟩

/-- rotations `(-y, x)` of the square about node 1, no deflection -/
noncomputable def exTwist : ℕ → ℝ := fun x => if x = 9 ∨ x = 14 then 1 else if x = 13 ∨ x = 18 then -1 else 0

/-- C77 is false without the proviso: on the square, whose triangles both measure shear gaps from node 1, twisting the normals about node 1 costs
no energy at all although the rotations are not uniform -/
theorem C77_false : ∃ K, Stiffness exSq true "cell-based-no-smoothing" 0 true K ∧ form K.dim K.get exTwist exTwist = 0 ∧
    ¬∃ p q, ∀ i ∈ exSq.nids, disp exSq exTwist 3 i = p ∧ disp exSq exTwist 4 i = q := by
  obtain ⟨K, hK⟩ := exSq_stiffness (Or.inr rfl) true 0 true
  obtain ⟨_, K0, hK0, _, hform⟩ := stiffness_energy (exMesh_reachable ..) (exSq_good true) hK
  obtain ⟨hs, _, _, _⟩ := calcK0_ok (exMesh_reachable ..).wf hK0
  have hv : ∀ i ∈ exSq.nids, disp exSq exTwist 0 i = 0 ∧ disp exSq exTwist 1 i = 0 ∧ disp exSq exTwist 2 i = 0 ∧
      disp exSq exTwist 3 i = 0 - 1 * ny exSq i ∧ disp exSq exTwist 4 i = 0 + 1 * nx exSq i := by
    intro i hi
    rw [exMesh_nids] at hi
    simp only [List.mem_cons, List.not_mem_nil, or_false] at hi
    rcases hi with rfl | rfl | rfl | rfl <;>
    simp only [disp, exMesh_nids, nx, ny, exMesh_node1, exMesh_node2, exMesh_node3, exMesh_node4] <;>
    norm_num [exTwist, List.idxOf_cons]
  refine ⟨K, hK, ?_, ?_⟩
  · rw [hform, (C73_modes (exMesh_reachable ..) (exSq_good true).proper (exSq_good true).planar (exSq_good true).piece hK0 (exSq_good true).abd exTwist).2
      ⟨⟨0, 0, 0, fun i hi => by rw [(hv i hi).1, (hv i hi).2.1]; simp⟩, 0, 0, 1, fun i hi => ⟨(hv i hi).2.2.2.1, (hv i hi).2.2.2.2⟩⟩, zero_add, if_neg (by decide)]
    refine shearEnergy_null fun e he => ?_
    have hf2 := hs.flatMesh (exSq_good true).planar
    have hc : ∀ i ∈ corners (calcK0 exSq true).1 e, i ∈ exSq.nids := by
      intro i hi; rw [hs.scorners] at hi; exact (exMesh_reachable ..).wf.corner_mem (hs.eids ▸ he) hi
    obtain ⟨g0, g1⟩ := wholeGamma_affine hf2 he (z := exTwist) (c := 0) (p := 0) (q := 0) (a := 0) (b := 0) (r := 1)
      (fun i hi => by rw [hs.sdisp, (hv i (hc i hi)).2.2.1]; ring) (fun i hi => by rw [hs.sdisp, hs.sny]; exact (hv i (hc i hi)).2.2.2.1)
      (fun i hi => by rw [hs.sdisp, hs.snx]; exact (hv i (hc i hi)).2.2.2.2)
    rw [g0, g1, gapOrigin_eq hf2 he, hs.snx, hs.sny, hs.gapOrigin]
    have ho : gapOrigin exSq e = 1 := by
      rw [hs.eids, exMesh_eids] at he
      simp only [List.mem_cons, List.not_mem_nil, or_false] at he
      rcases he with rfl | rfl
      · unfold gapOrigin tpoly
        rw [exMesh_tria1, sarea3]
        simp only [mean_single, nx, ny, exMesh_node1, exMesh_node2, exMesh_node3]
        norm_num
      · unfold gapOrigin tpoly
        rw [exMesh_tria2, sarea3]
        simp only [mean_single, nx, ny, exMesh_node1, exMesh_node4, exMesh_node3]
        norm_num
    rw [ho]
    simp only [nx, ny, exMesh_node1]
    norm_num
  · rintro ⟨p, q, h⟩
    have a1 := (h 1 (by rw [exMesh_nids]; simp)).2
    have a2 := (h 2 (by rw [exMesh_nids]; simp)).2
    rw [(hv 1 (by rw [exMesh_nids]; simp)).2.2.2.2] at a1
    rw [(hv 2 (by rw [exMesh_nids]; simp)).2.2.2.2] at a2
    simp only [nx, exMesh_node1, exMesh_node2] at a1 a2
    norm_num at a1 a2
    linarith

/-- the same square with the corners of its second triangle written in another order -/
noncomputable def exSqB : Mesh :=
  run (match readDelaunay exPts (toInts [(0, 1, 2), (3, 0, 2)]) with | .ok m => m | .error _ => emptyMesh) (exOps exIso exIso exIso exIso exIso exIso)

theorem exSqB_reachable : Reachable exSqB := .delaunay exPts (toInts [(0, 1, 2), (3, 0, 2)]) _ rfl _

theorem exSqB_nids : exSqB.nids = [1, 2, 3, 4] := rfl
theorem exSqB_eids : exSqB.eids = [1, 2] := rfl
theorem exSqB_ekeys : exSqB.ekeys = [(1, 2), (2, 3), (1, 3), (1, 4), (3, 4)] := rfl

theorem exSqB_tria1 : exSqB.tria 1 = ⟨1, 2, 3, some exIso, [(1, 2), (2, 3), (1, 3)]⟩ := rfl
theorem exSqB_tria2 : exSqB.tria 2 = ⟨4, 1, 3, some exIso, [(1, 3), (1, 4), (3, 4)]⟩ := rfl
theorem exSqB_node1 : (exSqB.node 1).xyz = ⟨0, 0, 0⟩ := rfl
theorem exSqB_node2 : (exSqB.node 2).xyz = ⟨1, 0, 0⟩ := rfl
theorem exSqB_node3 : (exSqB.node 3).xyz = ⟨1, 1, 0⟩ := rfl
theorem exSqB_node4 : (exSqB.node 4).xyz = ⟨0, 1, 0⟩ := rfl
theorem exSqB_e12 : (exSqB.edge (1, 2)).trias = [1] := rfl
theorem exSqB_e23 : (exSqB.edge (2, 3)).trias = [1] := rfl
theorem exSqB_e13 : (exSqB.edge (1, 3)).trias = [1, 2] := rfl
theorem exSqB_e34 : (exSqB.edge (3, 4)).trias = [2] := rfl
theorem exSqB_e14 : (exSqB.edge (1, 4)).trias = [2] := rfl

theorem exSqB_proper : Proper exSqB := by
  refine ⟨?_, ?_, ?_⟩
  · intro e he
    rw [exSqB_eids] at he
    simp only [List.mem_cons, List.not_mem_nil, or_false] at he
    rcases he with rfl | rfl
    · rw [exSqB_tria1]; simp
    · rw [exSqB_tria2]; simp
  · intro k hk
    rw [exSqB_ekeys] at hk
    simp only [List.mem_cons, List.not_mem_nil, or_false] at hk
    rcases hk with rfl | rfl | rfl | rfl | rfl
    · rw [exSqB_e12]; simp
    · rw [exSqB_e23]; simp
    · rw [exSqB_e13]; simp
    · rw [exSqB_e14]; simp
    · rw [exSqB_e34]; simp
  · intro e he e' he' h
    rw [exSqB_eids] at he he'
    simp only [List.mem_cons, List.not_mem_nil, or_false] at he he'
    have h2 := h 2
    simp only [IsCorner] at h2
    rcases he with rfl | rfl <;> rcases he' with rfl | rfl
    · rfl
    · rw [exSqB_tria1, exSqB_tria2] at h2; simp at h2
    · rw [exSqB_tria1, exSqB_tria2] at h2; simp at h2
    · rfl

theorem exSqB_planar : Planar exSqB := by
  refine ⟨?_, ?_, ?_, ?_⟩
  · intro i hi
    rw [exSqB_nids] at hi
    simp only [List.mem_cons, List.not_mem_nil, or_false] at hi
    rcases hi with rfl | rfl | rfl | rfl <;> rfl
  · have : ∀ i ∈ exSqB.nids, (exSqB.node i).xyz.z = 0 := by
      intro i hi
      rw [exSqB_nids] at hi
      simp only [List.mem_cons, List.not_mem_nil, or_false] at hi
      rcases hi with rfl | rfl | rfl | rfl <;> rfl
    intro i hi j hj
    rw [this i hi, this j hj]
  · intro e he
    rw [exSqB_eids] at he
    simp only [List.mem_cons, List.not_mem_nil, or_false] at he
    rcases he with rfl | rfl
    · rw [exSqB_tria1, sarea3]
      simp only [mean_single, nx, ny, exSqB_node1, exSqB_node2, exSqB_node3]
      norm_num
    · rw [exSqB_tria2, sarea3]
      simp only [mean_single, nx, ny, exSqB_node1, exSqB_node4, exSqB_node3]
      norm_num
  · intro k hk t1 t2 ht
    rw [exSqB_ekeys] at hk
    simp only [List.mem_cons, List.not_mem_nil, or_false] at hk
    rcases hk with rfl | rfl | rfl | rfl | rfl
    · rw [exSqB_e12] at ht; simp at ht
    · rw [exSqB_e23] at ht; simp at ht
    · rw [exSqB_e13] at ht
      simp only [List.cons.injEq, and_true] at ht
      obtain ⟨rfl, rfl⟩ := ht
      rw [sarea3, sarea3]
      simp only [mean, corners, exSqB_tria1, exSqB_tria2, List.map_cons, List.map_nil, List.sum_cons, List.sum_nil,
        nx, ny, exSqB_node1, exSqB_node2, exSqB_node3, exSqB_node4, List.length_cons, List.length_nil]
      norm_num
    · rw [exSqB_e14] at ht; simp at ht
    · rw [exSqB_e34] at ht; simp at ht

theorem exSqB_props : HasProps exSqB false := by
  intro e he
  rw [exSqB_eids] at he
  simp only [List.mem_cons, List.not_mem_nil, or_false] at he
  rcases he with rfl | rfl <;> rfl

theorem exSqB_inUse {l : Lam} (h : InUse exSqB false l) : l = exIso := by
  obtain ⟨e, he, h⟩ := h
  rw [exSqB_eids] at he
  simp only [List.mem_cons, List.not_mem_nil, or_false] at he
  rcases he with rfl | rfl
  · rw [exSqB_tria1] at h; exact (Option.some.inj h).symm
  · rw [exSqB_tria2] at h; exact (Option.some.inj h).symm

theorem exSqB_piece : OnePiece exSqB := by
  have hadj : Adjacent exSqB 1 2 := ⟨(1, 3), by rw [exSqB_ekeys]; simp, by rw [exSqB_e13]; simp, by rw [exSqB_e13]; simp⟩
  refine ⟨?_, ?_⟩
  · intro e he e' he'
    rw [exSqB_eids] at he he'
    simp only [List.mem_cons, List.not_mem_nil, or_false] at he he'
    rcases he with rfl | rfl <;> rcases he' with rfl | rfl
    · exact .refl
    · exact .single hadj
    · exact .single (adjacent_symm hadj)
    · exact .refl
  · intro i hi
    rw [exSqB_nids] at hi
    simp only [List.mem_cons, List.not_mem_nil, or_false] at hi
    rw [exSqB_eids]
    rcases hi with rfl | rfl | rfl | rfl
    · exact ⟨1, by simp, by unfold IsCorner; rw [exSqB_tria1]; simp⟩
    · exact ⟨1, by simp, by unfold IsCorner; rw [exSqB_tria1]; simp⟩
    · exact ⟨1, by simp, by unfold IsCorner; rw [exSqB_tria1]; simp⟩
    · exact ⟨2, by simp, by unfold IsCorner; rw [exSqB_tria2]; simp⟩

/-- with this corner order the twist of `C77_false` does cost energy -/
example : ∃ K, Stiffness exSqB false "cell-based-no-smoothing" 0 true K ∧ form K.dim K.get exTwist exTwist ≠ 0 := by
  have hg : GoodPlate exSqB false :=
    ⟨exSqB_proper, exSqB_planar, exSqB_piece, fun _ h => exSqB_inUse h ▸ exIso_stiff, fun _ h => exSqB_inUse h ▸ exIso_shear⟩
  obtain ⟨K, hK⟩ := stiffness_exists exSqB_reachable hg exSqB_props (by rw [exSqB_nids]; simp) (Or.inr rfl) 0 true
  have o1 : gapOrigin exSqB 1 = 1 := by
    unfold gapOrigin tpoly
    rw [exSqB_tria1, sarea3]
    simp only [mean_single, nx, ny, exSqB_node1, exSqB_node2, exSqB_node3]
    norm_num
  have o2 : gapOrigin exSqB 2 = 4 := by
    unfold gapOrigin tpoly
    rw [exSqB_tria2, sarea3]
    simp only [mean_single, nx, ny, exSqB_node1, exSqB_node4, exSqB_node3]
    norm_num
  refine ⟨K, hK, fun h => ?_⟩
  obtain ⟨_, p, q, s, h3⟩ := (C77_modes_partial exSqB_reachable hg le_rfl hK (k := (1, 3)) (by rw [exSqB_ekeys]; simp) exSqB_e13 (by
    simp only [o1, o2, nx, ny, exSqB_node1, exSqB_node4, exSqB_node3]; norm_num) exTwist).1 h
  have a1 := (h3 1 (by rw [exSqB_nids]; simp)).2.1
  have a2 := (h3 2 (by rw [exSqB_nids]; simp)).2.1
  simp only [disp, exSqB_nids] at a1 a2
  norm_num [exTwist, List.idxOf_cons] at a1 a2
  linarith

end Meshless
