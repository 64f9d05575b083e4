import Verif.Lemmas.FloatUnitsShear
import Mathlib.Tactic.IntervalCases
import Mathlib.RingTheory.Int.Basic

/-! C149: in floating point, results for the same mesh in units that differ by powers of two, or turned by half a turn, are the same numbers up to
the exact unit factors. -/

set_option autoImplicit false

namespace Meshless
open Spec

/-! ### the unit factors of matrices and displacement vectors -/

theorem Dg.sc_mul_of {s f ε : ℝ} (g : Dg) : g.sc s f ε = s ^ g.p * f ^ g.q * (if g.r then ε else 1) := rfl

theorem entryDg_sc {s f ε : ℝ} (hs : 0 < s) (hε : ε = 1 ∨ ε = -1) (i j : ℕ) :
    (entryDg ((i : ℤ) % 5) ((j : ℤ) % 5)).sc s f ε = f / s * (dofUnit s ε i * dofUnit s ε j) := by
  have h2 : ε * ε = 1 := by rcases hε with rfl | rfl <;> norm_num
  have hi : i % 5 < 5 := Nat.mod_lt _ (by norm_num)
  have hj : j % 5 < 5 := Nat.mod_lt _ (by norm_num)
  have ei : ((i : ℤ) % 5) = ((i % 5 : ℕ) : ℤ) := by push_cast; rfl
  have ej : ((j : ℤ) % 5) = ((j % 5 : ℕ) : ℤ) := by push_cast; rfl
  unfold dofUnit Dg.sc
  rw [ei, ej]
  generalize i % 5 = a at hi
  generalize j % 5 = b at hj
  have hs' := hs.ne'
  interval_cases a <;> interval_cases b <;> simp [entryDg, zpow_neg] <;> field_simp <;> (try ring_nf) <;> (try (rw [pow_two, h2])) <;> (try ring) <;> exact .inl trivial

theorem gMat_unitMat {s f ε : ℝ} (hs : 0 < s) (hε : ε = 1 ∨ ε = -1) {K K' : Mat} (hd : K.dim % 5 = 0) : GMat s f ε entryDg K K' ↔ UnitMat s f ε K K' := by
  unfold GMat UnitMat Gd
  simp only [entryDg_sc hs hε, hd, true_and]

theorem gDisp_of {s f ε : ℝ} (hs : 0 < s) (hε : ε = 1 ∨ ε = -1) {d d' : List ℝ} (h : UnitDisp s ε d d') : GDisp s f ε d d' := by
  refine ⟨h.1, fun i => ?_⟩
  unfold Gd
  rw [h.2]
  congr 1
  have hi : i % 5 < 5 := Nat.mod_lt _ (by norm_num)
  have hs' := hs.ne'
  unfold dofUnit
  rcases hε with rfl | rfl <;> (generalize i % 5 = a at hi; interval_cases a <;> simp [dispDg, Dg.sc, Dg.X, Dg.L, Dg.N, hs', div_neg])

/-! ### the statements -/

/-- C149, calc_k0: if rounding commutes with the unit factors `s` (length), `f` (force) and `ε` (1, or -1 for half a turn about z), then on the mesh in
the new units calc_k0 raises the same error or returns the same matrix, entry by entry multiplied by the exact unit factor (no further rounding),
and leaves the same smoothing domains behind. -/
theorem C149_k0 {R : Rounding} {s f ε : ℝ} (hs : 0 < s) (hf : 0 < f) (hε : ε = 1 ∨ ε = -1) (es : FlExact R s) (ef : FlExact R f) (ee : FlExact R ε)
    {m m' : Mesh} (h : UnitMesh s f ε m m') (pn : Bool) :
    (∀ e, (R.calcK0 m pn).2 = .error e → (R.calcK0 m' pn).2 = .error e) ∧
    (∀ K, (R.calcK0 m pn).2 = .ok K → ∃ K', (R.calcK0 m' pn).2 = .ok K' ∧ UnitMat s f ε K K') ∧
    UnitMesh s f ε (R.calcK0 m pn).1 (R.calcK0 m' pn).1 := by
  have : Grading R s f ε := ⟨hs, hf, hε, es, ef, ee⟩
  obtain ⟨h1, h2⟩ := R.calcK0_unit h pn
  refine ⟨fun e he => ?_, fun K hK => ?_, h2⟩
  · rw [he] at h1
    generalize (R.calcK0 m' pn).2 = x at h1 ⊢
    cases h1; rfl
  · rw [hK] at h1
    generalize (R.calcK0 m' pn).2 = x at h1 ⊢
    cases h1 with
    | ok hg => exact ⟨_, rfl, (gMat_unitMat hs hε hg.2.1).1 hg⟩

/-- C149, calc_kG: the same for the geometric stiffness matrix of a displacement vector in the new units -/
theorem C149_kG {R : Rounding} {s f ε : ℝ} (hs : 0 < s) (hf : 0 < f) (hε : ε = 1 ∨ ε = -1) (es : FlExact R s) (ef : FlExact R f) (ee : FlExact R ε)
    {m m' : Mesh} (h : UnitMesh s f ε m m') {d d' : List ℝ} (hd : UnitDisp s ε d d') (pn : Bool) :
    (∀ e, R.calcKG m d pn = .error e → R.calcKG m' d' pn = .error e) ∧
    ∀ K, R.calcKG m d pn = .ok K → ∃ K', R.calcKG m' d' pn = .ok K' ∧ UnitMat s f ε K K' := by
  have : Grading R s f ε := ⟨hs, hf, hε, es, ef, ee⟩
  have h1 := R.calcKG_unit h (gDisp_of (f := f) hs hε hd) pn
  refine ⟨fun e he => ?_, fun K hK => ?_⟩
  · rw [he] at h1
    generalize R.calcKG m' d' pn = x at h1 ⊢
    cases h1; rfl
  · rw [hK] at h1
    generalize R.calcKG m' d' pn = x at h1 ⊢
    cases h1 with
    | ok hg => exact ⟨_, rfl, (gMat_unitMat hs hε hg.2.1).1 hg⟩

/-- C149, add_k0s: the same error, and the same matrix in the new units, also when the call fails half way. The matrix passed in has five rows per
node. For "edge-based" only the units may change, not the axes. -/
theorem C149_k0s {R : Rounding} {s f ε : ℝ} (hs : 0 < s) (hf : 0 < f) (hε : ε = 1 ∨ ε = -1) (es : FlExact R s) (ef : FlExact R f) (ee : FlExact R ε)
    {m m' : Mesh} (h : UnitMesh s f ε m m') {K K' : Mat} (hd : K.dim % 5 = 0) (hK : UnitMat s f ε K K') (pn : Bool) (method : String)
    (hm : method = "edge-based" → ε = 1) (alpha : ℝ) (fromArea : Bool) :
    (R.addK0s K' m' pn method alpha fromArea).2 = (R.addK0s K m pn method alpha fromArea).2 ∧
    UnitMat s f ε (R.addK0s K m pn method alpha fromArea).1 (R.addK0s K' m' pn method alpha fromArea).1 := by
  have : Grading R s f ε := ⟨hs, hf, hε, es, ef, ee⟩
  obtain ⟨h1, h2⟩ := R.addK0s_unit h pn method hm alpha fromArea ((gMat_unitMat hs hε hd).2 hK)
  exact ⟨h1, (gMat_unitMat hs hε h2.2.1).1 h2⟩

/-! ### which factors are exact -/

theorem log_two_mul (a : ℤ) {x : ℝ} (hx : 0 < x) : Int.log 2 ((2:ℝ) ^ a * x) = a + Int.log 2 x := by
  have hp := two_zpow_pos a
  have hc : ((2:ℕ):ℝ) = 2 := by norm_num
  apply le_antisymm
  · rw [← Int.lt_add_one_iff, ← Int.lt_zpow_iff_log_lt (by norm_num) (mul_pos hp hx), hc, add_assoc, zpow_add₀ (by norm_num)]
    have := Int.lt_zpow_succ_log_self (b := 2) (by norm_num) x
    rw [hc] at this
    exact mul_lt_mul_of_pos_left this hp
  · rw [← Int.zpow_le_iff_le_log (by norm_num) (mul_pos hp hx), hc, zpow_add₀ (by norm_num)]
    have := Int.zpow_log_le_self (b := 2) (by norm_num) hx
    rw [hc] at this
    exact mul_le_mul_of_nonneg_left this hp.le

theorem fl64_two_zpow (a : ℤ) (x : ℝ) : fl64 ((2:ℝ) ^ a * x) = (2:ℝ) ^ a * fl64 x := by
  by_cases hx : x = 0
  · subst hx; simp [fl64_zero]
  have hp := two_zpow_pos a
  unfold fl64
  rw [abs_mul, abs_of_pos hp, log_two_mul a (abs_pos.2 hx), show a + Int.log 2 |x| - 52 = a + (Int.log 2 |x| - 52) by ring, zpow_add₀ (by norm_num),
    mul_div_mul_left _ _ hp.ne']
  ring

theorem rne_neg (z : ℝ) : rne (-z) = -rne z := by
  by_cases hz : z = ⌊z⌋
  · rw [hz, rne_int]
    exact rne_neg_int_cast _
  have h1 : (⌊z⌋ : ℝ) < z := lt_of_le_of_ne (Int.floor_le z) (Ne.symm hz)
  have h2 := Int.lt_floor_add_one z
  have hf : ⌊-z⌋ = -⌊z⌋ - 1 := by
    rw [Int.floor_eq_iff]; push_cast; constructor <;> linarith
  unfold rne
  rw [hf]; push_cast
  have he : Even (-⌊z⌋ - 1) ↔ ¬ Even ⌊z⌋ := by
    rw [Int.even_sub, even_neg]; simp
  simp only [he]
  split_ifs <;> first | omega | (exfalso; linarith)

theorem fl64_neg (x : ℝ) : fl64 (-x) = -fl64 x := by
  unfold fl64
  rw [abs_neg, neg_div, rne_neg]; push_cast; ring

/-- C149: with float64 every power of two and the change of sign are exact, so the theorems above apply to every change of units by powers of two. -/
theorem C149_binary64 (a : ℤ) : 0 < (2:ℝ) ^ a ∧ FlExact .binary64 ((2:ℝ) ^ a) ∧ FlExact .binary64 1 ∧ FlExact .binary64 (-1) :=
  ⟨two_zpow_pos a, fl64_two_zpow a, fun x => by rw [one_mul, one_mul], fun x => by rw [neg_one_mul, neg_one_mul]; exact fl64_neg x⟩

/-- C149: without rounding every factor is exact. -/
theorem C149_exact (c : ℝ) : FlExact .exact c := fun _ => rfl

/-- C149: not every factor is: in float64 a change of units by 1/10 (or any other value that is not a float64 number) is not exact. -/
theorem C149_inexact : ¬ FlExact .binary64 (1 / 10) := fun h => by
  have h1 := h 1
  rw [mul_one, (Rounding.binary64).fl_one, mul_one] at h1
  obtain ⟨n, e, hn, h2⟩ := fl64_form (1 / 10)
  have h3 : (1 / 10 : ℝ) = (n : ℝ) * 2 ^ e := h1.symm.trans h2
  rcases le_or_gt 0 e with he | he
  · obtain ⟨k, rfl⟩ := Int.eq_ofNat_of_zero_le he
    have : (1 : ℝ) = 10 * (n * 2 ^ k) := by rw [zpow_natCast] at h3; linarith
    have : (1 : ℤ) = 10 * (n * 2 ^ k) := by exact_mod_cast this
    omega
  · obtain ⟨k, hk⟩ := Int.eq_ofNat_of_zero_le (show 0 ≤ -e by omega)
    obtain rfl : e = -(k : ℤ) := by omega
    rw [zpow_neg, zpow_natCast] at h3
    have h4 : (2 : ℝ) ^ k = 10 * n := by field_simp at h3; linarith
    have h5 : (2 : ℤ) ^ k = 10 * n := by exact_mod_cast h4
    have h6 : (5 : ℤ) ∣ 2 ^ k := ⟨2 * n, by rw [h5]; ring⟩
    have h7 := Int.Prime.dvd_pow' (p := 5) Nat.prime_five h6
    norm_num at h7

/-! ### every mesh has a version in other units -/

/-- a vector in the new units -/
def Vec3.inUnits (s ε : ℝ) (v : Vec3) : Vec3 := ⟨ε * s * v.x, ε * s * v.y, s * v.z⟩

/-- a laminate in the new units -/
noncomputable def Lam.inUnits (s f : ℝ) (p : Lam) : Lam :=
  ⟨fun i j => f / s * p.A i j, fun i j => f * p.B i j, fun i j => f * s * p.D i j, fun i j => f / s * p.E i j, s * p.h, p.k13, p.k23⟩

/-- a mesh in the new units -/
noncomputable def Mesh.inUnits (s f ε : ℝ) (m : Mesh) : Mesh where
  nids := m.nids
  node i := ⟨(m.node i).xyz.inUnits s ε, fun v => ((m.node i).cp (v.inUnits s⁻¹ ε)).inUnits s ε, (m.node i).prop.map (Lam.inUnits s f), (m.node i).index,
    (m.node i).trias, (m.node i).edges⟩
  eids := m.eids
  tria e := ⟨(m.tria e).n1, (m.tria e).n2, (m.tria e).n3, (m.tria e).prop.map (Lam.inUnits s f), (m.tria e).edges⟩
  ekeys := m.ekeys
  edge k := ⟨(m.edge k).n1, (m.edge k).n2, (m.edge k).trias, (m.edge k).sdomain.map (Vec3.inUnits s ε),
    (m.edge k).ipts.map fun p => ⟨p.tria, p.n1, p.n2, p.n3, p.f1, p.f2, p.f3, ε * p.nx, ε * p.ny, p.nz, s * p.le, p.xyz.inUnits s ε⟩,
    (m.edge k).Ac.map (s ^ 2 * ·), (m.edge k).other1, (m.edge k).other2⟩

/-- every mesh satisfies the hypothesis of the theorems together with its version in new units -/
theorem inUnits_unitMesh {s f ε : ℝ} (hs : 0 < s) (hε : ε = 1 ∨ ε = -1) (m : Mesh) : UnitMesh s f ε m (m.inUnits s f ε) := by
  have hv : ∀ v : Vec3, UnitVec s ε v (v.inUnits s ε) := fun v => ⟨rfl, rfl, rfl⟩
  have hl : ∀ o : Option Lam, Option.Rel (UnitLam s f) o (o.map (Lam.inUnits s f)) := fun o => by
    cases o
    · exact .none
    · exact .some ⟨fun _ _ => rfl, fun _ _ => rfl, fun _ _ => rfl, fun _ _ => rfl, rfl, rfl, rfl⟩
  have hi : ∀ v : Vec3, (v.inUnits s ε).inUnits s⁻¹ ε = v := fun v => by
    have := hs.ne'
    rcases hε with rfl | rfl <;> (unfold Vec3.inUnits; ext <;> (dsimp only; field_simp))
  refine ⟨rfl, rfl, rfl, fun i => hv _, fun i => ?_, fun i => rfl, fun i => hl _, fun e => rfl, fun e => rfl, fun e => rfl, fun e => rfl, fun e => hl _, fun k => ?_⟩
  · show UnitVec s ε _ (((m.node i).cp ((((m.node i).xyz).inUnits s ε).inUnits s⁻¹ ε)).inUnits s ε)
    rw [hi]; exact hv _
  · refine ⟨rfl, rfl, rfl, rfl, rfl, ?_, ?_, ?_⟩
    · show Option.Rel _ (m.edge k).Ac ((m.edge k).Ac.map (s ^ 2 * ·))
      cases (m.edge k).Ac
      · exact .none
      · exact .some rfl
    · show List.Forall₂ _ (m.edge k).sdomain ((m.edge k).sdomain.map (Vec3.inUnits s ε))
      rw [List.forall₂_map_right_iff, List.forall₂_same]; exact fun v _ => hv v
    · show List.Forall₂ _ (m.edge k).ipts ((m.edge k).ipts.map _)
      rw [List.forall₂_map_right_iff, List.forall₂_same]
      exact fun p _ => ⟨rfl, rfl, rfl, rfl, rfl, rfl, rfl, rfl, rfl, rfl, rfl, hv _⟩

/-- the hypotheses are met by any mesh whatever, in float64, with lengths in units of 1/4 and forces in units of 8, and turned by half a turn -/
example (m : Mesh) : ∃ m', UnitMesh ((2:ℝ) ^ (2:ℤ)) ((2:ℝ) ^ (-3:ℤ)) (-1) m m' ∧ FlExact .binary64 ((2:ℝ) ^ (2:ℤ)) ∧ FlExact .binary64 ((2:ℝ) ^ (-3:ℤ)) ∧ FlExact .binary64 (-1) :=
  ⟨_, inUnits_unitMesh (two_zpow_pos _) (.inr rfl) m, (C149_binary64 _).2.1, (C149_binary64 _).2.1, (C149_binary64 0).2.2.2⟩

/-- … and every displacement vector has a version in the new units -/
example : UnitDisp 4 (-1) [1, 2, 3, 4, 5] [-4, -8, 12, -4, -5] := by
  refine ⟨rfl, fun i => ?_⟩
  rcases i with _ | _ | _ | _ | _ | i <;> norm_num [dofUnit]

end Meshless
