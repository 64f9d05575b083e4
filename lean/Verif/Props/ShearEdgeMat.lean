import Verif.Props.K0sEdge

/-! C44, C47, C71: what the stabilisation factor, the moduli of boundary and interior edges, and the strain of a rigid rotation mean for the matrix
`add_k0s` (edge based) returns. -/

set_option autoImplicit false

namespace Meshless
open Spec Finset

/-- the energy products of an edge are linear in the moduli -/
theorem edgeTerm_smul (m : Mesh) (k : Key) (a : ℝ) (E : Fin 2 → Fin 2 → ℝ) (g : (ℕ → ℝ) → Fin 2 → ℝ) (v u : ℕ → ℝ) :
    edgeEnergy m k (fun r s => a * E r s) g v u + edgeResid m k (fun r s => a * E r s) v u = a * (edgeEnergy m k E g v u + edgeResid m k E v u) := by
  have h2 : ∀ x y, form2 (fun r s => a * E r s) x y = a * form2 E x y := by intro x y; unfold form2; simp only [Fin.sum_univ_two]; ring
  unfold edgeEnergy edgeResid
  rw [h2, h2, h2]; ring

theorem edgeMod_stab {m : Mesh} {pn : Bool} {fa : Bool} {k : Key} (h0 : avg m pn k (fun l => l.h) ≠ 0) (al : ℝ) :
    edgeMod m pn al fa k = fun r s => edgeStab m pn al fa k * edgeMod m pn 0 fa k r s := by
  have h1 : edgeStab m pn 0 fa k = 1 := by
    unfold edgeStab; dsimp only; rw [zero_mul, add_zero, div_self (pow_ne_zero 2 h0)]
  funext r s
  unfold edgeMod bndMod intMod
  rw [h1]
  split <;> ring

/-- C44, edge based: the shares of the edges for `alpha` are those for `alpha = 0` times `h^2 / (h^2 + alpha * l^2)`, on boundary edges (where the source
divides by `1 + alpha * l^2 / h^2`) and on interior edges alike -/
theorem C44_edge {m : Mesh} (ha : AfterK0 m) (hp : Proper m) (hg : Planar m) {pn : Bool} (hh : HasProps m pn) (ht : EdgeThick m pn) (fa : Bool)
    {K : Mat} (hK : K.dim = 5 * m.nids.length) :
    ∃ c : Key → (ℕ → ℝ) → (ℕ → ℝ) → ℝ, ∀ al v u, form K.dim (fun i j => (addK0s K m pn "edge-based" al fa).1.get i j - K.get i j) v u =
      (m.ekeys.map fun k => avg m pn k (fun l => l.h) ^ 2 / (avg m pn k (fun l => l.h) ^ 2 + al * edgeCharLen m fa k ^ 2) * c k v u).sum := by
  refine ⟨fun k v u => edgeEnergy m k (edgeMod m pn 0 fa k) (fun z r => edgeGamma m k z r + devGamma m k z r) v u + edgeResid m k (edgeMod m pn 0 fa k) v u,
    fun al v u => ?_⟩
  obtain ⟨K', h, -, -, hf⟩ := C69_energy_partial ha hp hg hh ht al fa hK
  rw [h]
  refine (hf v u).trans ?_
  congr 1
  refine List.map_congr_left fun k hk => ?_
  rw [edgeMod_stab (ht k hk), edgeTerm_smul]
  rfl

/-! ### C47 -/

/-- C47, as far as it holds: with one laminate everywhere, equal correction factors and no coupling `E[0,1]`, all edges use the same moduli (up to the
stabilisation factor of their length). For other laminates the claim is false (`C47_false`). -/
theorem C47_energy_partial {m : Mesh} (ha : AfterK0 m) (hp : Proper m) (hg : Planar m) {pn : Bool} (hh : HasProps m pn) {l : Lam} (hl : Homog m pn l) (h0 : l.h ≠ 0)
    (hk : l.k13 = l.k23) (h01 : l.E 0 1 = 0) (al : ℝ) (fa : Bool) {K : Mat} (hK : K.dim = 5 * m.nids.length) (v u : ℕ → ℝ) :
    form K.dim (fun i j => (addK0s K m pn "edge-based" al fa).1.get i j - K.get i j) v u = (m.ekeys.map fun k =>
      l.h ^ 2 / (l.h ^ 2 + al * edgeCharLen m fa k ^ 2) *
        (edgeEnergy m k (fun r s => if r = s then l.k13 * l.E r r else 0) (fun z r => edgeGamma m k z r + devGamma m k z r) v u
          + edgeResid m k (fun r s => if r = s then l.k13 * l.E r r else 0) v u)).sum := by
  have w := ha.wf
  obtain ⟨K', h, -, -, hf⟩ := C69_energy_partial ha hp hg hh (edgeThick_homog w hp hg hl h0) al fa hK
  rw [h]
  refine (hf v u).trans ?_
  congr 1
  refine List.map_congr_left fun k hk' => ?_
  rw [← edgeTerm_smul]
  have : edgeMod m pn al fa k = fun r s => l.h ^ 2 / (l.h ^ 2 + al * edgeCharLen m fa k ^ 2) * (if r = s then l.k13 * l.E r r else 0) := by
    funext r s
    unfold edgeMod bndMod intMod edgeStab
    simp only [avg_const w hp hg hk' (Homog_slot w hp hl), ← hk, h01, mul_zero]
    fin_cases r <;> fin_cases s <;> simp
  rw [this]

/-- concrete case: the isotropic square -/
example (al : ℝ) (fa : Bool) (K : Mat) (hK : K.dim = 20) (v u : ℕ → ℝ) :
    form K.dim (fun i j => (addK0s K (exAfter exIso exIso exIso exIso exIso exIso) true "edge-based" al fa).1.get i j - K.get i j) v u =
      ((exAfter exIso exIso exIso exIso exIso exIso).ekeys.map fun k => exIso.h ^ 2 / (exIso.h ^ 2 + al * edgeCharLen (exAfter exIso exIso exIso exIso exIso exIso) fa k ^ 2) *
        (edgeEnergy (exAfter exIso exIso exIso exIso exIso exIso) k (fun r s => if r = s then exIso.k13 * exIso.E r r else 0)
          (fun z r => edgeGamma (exAfter exIso exIso exIso exIso exIso exIso) k z r + devGamma (exAfter exIso exIso exIso exIso exIso exIso) k z r) v u
          + edgeResid (exAfter exIso exIso exIso exIso exIso exIso) k (fun r s => if r = s then exIso.k13 * exIso.E r r else 0) v u)).sum :=
  C47_energy_partial (exAfter_after ..) (exAfter_proper ..) (exAfter_planar ..) (exAfter_props ..) (exAfter_Homog exIso true) (by norm_num [exIso, exLam]) rfl
    (by simp [exIso, exLam]) al fa (by rw [exAfter_nids]; exact hK) v u

section
variable {n : Mesh} (h : ExGeo n 0)
include h

theorem ExGeo.c1 : corners n 1 = [1, 2, 3] := by unfold corners; rw [h.a1, h.a2, h.a3]
theorem ExGeo.c2 : corners n 2 = [1, 3, 4] := by unfold corners; rw [h.b1, h.b2, h.b3]

theorem ExGeo.ends12 : ends n (1, 2) 1 = (1, 2) := by
  unfold ends
  rw [if_neg]
  rw [sarea3]
  simp only [mean_single, mean_corners', h.a1, h.a2, h.a3, nx, ny, h.x1, h.x2, h.x3]
  norm_num
theorem ExGeo.ends23 : ends n (2, 3) 1 = (2, 3) := by
  unfold ends
  rw [if_neg]
  rw [sarea3]
  simp only [mean_single, mean_corners', h.a1, h.a2, h.a3, nx, ny, h.x1, h.x2, h.x3]
  norm_num
theorem ExGeo.ends34 : ends n (3, 4) 2 = (3, 4) := by
  unfold ends
  rw [if_neg]
  rw [sarea3]
  simp only [mean_single, mean_corners', h.b1, h.b2, h.b3, nx, ny, h.x1, h.x4, h.x3]
  norm_num
theorem ExGeo.ends14 : ends n (1, 4) 2 = (4, 1) := by
  unfold ends
  rw [if_pos]
  rw [sarea3]
  simp only [mean_single, mean_corners', h.b1, h.b2, h.b3, nx, ny, h.x1, h.x4, h.x3]
  norm_num

theorem ExGeo.dom12 : |sarea n (dom n (1, 2))| = 1 / 6 := by
  rw [dom_b h.e12, sarea3]
  simp only [mean_single, mean_corners', h.a1, h.a2, h.a3, nx, ny, h.x1, h.x2, h.x3]
  norm_num [abs_of_neg]
theorem ExGeo.dom23 : |sarea n (dom n (2, 3))| = 1 / 6 := by
  rw [dom_b h.e23, sarea3]
  simp only [mean_single, mean_corners', h.a1, h.a2, h.a3, nx, ny, h.x1, h.x2, h.x3]
  norm_num [abs_of_neg]
theorem ExGeo.dom34 : |sarea n (dom n (3, 4))| = 1 / 6 := by
  rw [dom_b h.e34, sarea3]
  simp only [mean_single, mean_corners', h.b1, h.b2, h.b3, nx, ny, h.x1, h.x4, h.x3]
  norm_num [abs_of_neg]
theorem ExGeo.dom14 : |sarea n (dom n (1, 4))| = 1 / 6 := by
  rw [dom_b h.e14, sarea3]
  simp only [mean_single, mean_corners', h.b1, h.b2, h.b3, nx, ny, h.x1, h.x4, h.x3]
  norm_num [abs_of_neg]


theorem ExGeo.strain12 {z : ℕ → ℝ} (h3 : ∀ i, disp n z 3 i = 0) (h4 : ∀ i, disp n z 4 i = 0) (hS : disp n z 2 1 + disp n z 2 2 + disp n z 2 3 = 0) :
    edgeGamma n (1, 2) z 0 + devGamma n (1, 2) z 0 = disp n z 2 2 - disp n z 2 1 ∧ edgeGamma n (1, 2) z 1 + devGamma n (1, 2) z 1 = disp n z 2 3 - disp n z 2 2 := by
  have hc : cSum n 1 z 2 = 0 := by unfold cSum; rw [h.c1]; simp only [List.map_cons, List.map_nil, List.sum_cons, List.sum_nil, add_zero]; linarith
  have c3 : ∀ r : Fin 2, cSum n 1 z (3 + r.val) = 0 := by
    intro r; unfold cSum; rw [h.c1]; fin_cases r <;> simp [h3, h4]
  have hd : ∀ r, devGamma n (1, 2) z r = 0 := by
    intro r; unfold devGamma lit1; rw [h.e12]; dsimp only; rw [hc, c3]; ring
  rw [hd, hd, add_zero, add_zero]
  unfold edgeGamma
  rw [h.e12]
  dsimp only
  rw [h.ends12]
  simp only [dsg, gap, sarea3, mean_single, h.c1, Matrix.cons_val_one, Matrix.cons_val_zero]
  simp only [nx, ny, h.x1, h.x2, h.x3, List.map_cons, List.map_nil, List.sum_cons, List.sum_nil, mean, h3, h4, List.length_cons, List.length_nil]
  norm_num
  constructor <;> linarith

theorem ExGeo.strain23 {z : ℕ → ℝ} (h3 : ∀ i, disp n z 3 i = 0) (h4 : ∀ i, disp n z 4 i = 0) (hS : disp n z 2 1 + disp n z 2 2 + disp n z 2 3 = 0) :
    edgeGamma n (2, 3) z 0 + devGamma n (2, 3) z 0 = disp n z 2 2 - disp n z 2 1 ∧ edgeGamma n (2, 3) z 1 + devGamma n (2, 3) z 1 = disp n z 2 3 - disp n z 2 2 := by
  have hc : cSum n 1 z 2 = 0 := by unfold cSum; rw [h.c1]; simp only [List.map_cons, List.map_nil, List.sum_cons, List.sum_nil, add_zero]; linarith
  have c3 : ∀ r : Fin 2, cSum n 1 z (3 + r.val) = 0 := by
    intro r; unfold cSum; rw [h.c1]; fin_cases r <;> simp [h3, h4]
  have hd : ∀ r, devGamma n (2, 3) z r = 0 := by
    intro r; unfold devGamma lit1; rw [h.e23]; dsimp only; rw [hc, c3]; ring
  rw [hd, hd, add_zero, add_zero]
  unfold edgeGamma
  rw [h.e23]
  dsimp only
  rw [h.ends23]
  simp only [dsg, gap, sarea3, mean_single, h.c1, Matrix.cons_val_one, Matrix.cons_val_zero]
  simp only [nx, ny, h.x1, h.x2, h.x3, List.map_cons, List.map_nil, List.sum_cons, List.sum_nil, mean, h3, h4, List.length_cons, List.length_nil]
  norm_num
  constructor <;> linarith

theorem ExGeo.strain34 {z : ℕ → ℝ} (h3 : ∀ i, disp n z 3 i = 0) (h4 : ∀ i, disp n z 4 i = 0) (hS : disp n z 2 1 + disp n z 2 3 + disp n z 2 4 = 0) :
    edgeGamma n (3, 4) z 0 + devGamma n (3, 4) z 0 = disp n z 2 3 - disp n z 2 4 ∧ edgeGamma n (3, 4) z 1 + devGamma n (3, 4) z 1 = disp n z 2 4 - disp n z 2 1 := by
  have hc : cSum n 2 z 2 = 0 := by unfold cSum; rw [h.c2]; simp only [List.map_cons, List.map_nil, List.sum_cons, List.sum_nil, add_zero]; linarith
  have c3 : ∀ r : Fin 2, cSum n 2 z (3 + r.val) = 0 := by
    intro r; unfold cSum; rw [h.c2]; fin_cases r <;> simp [h3, h4]
  have hd : ∀ r, devGamma n (3, 4) z r = 0 := by
    intro r; unfold devGamma lit1; rw [h.e34]; dsimp only; rw [hc, c3]; ring
  rw [hd, hd, add_zero, add_zero]
  unfold edgeGamma
  rw [h.e34]
  dsimp only
  rw [h.ends34]
  simp only [dsg, gap, sarea3, mean_single, h.c2, Matrix.cons_val_one, Matrix.cons_val_zero]
  simp only [nx, ny, h.x1, h.x3, h.x4, List.map_cons, List.map_nil, List.sum_cons, List.sum_nil, mean, h3, h4, List.length_cons, List.length_nil]
  norm_num
  constructor <;> linarith

theorem ExGeo.strain14 {z : ℕ → ℝ} (h3 : ∀ i, disp n z 3 i = 0) (h4 : ∀ i, disp n z 4 i = 0) (hS : disp n z 2 1 + disp n z 2 3 + disp n z 2 4 = 0) :
    edgeGamma n (1, 4) z 0 + devGamma n (1, 4) z 0 = disp n z 2 3 - disp n z 2 4 ∧ edgeGamma n (1, 4) z 1 + devGamma n (1, 4) z 1 = disp n z 2 4 - disp n z 2 1 := by
  have hc : cSum n 2 z 2 = 0 := by unfold cSum; rw [h.c2]; simp only [List.map_cons, List.map_nil, List.sum_cons, List.sum_nil, add_zero]; linarith
  have c3 : ∀ r : Fin 2, cSum n 2 z (3 + r.val) = 0 := by
    intro r; unfold cSum; rw [h.c2]; fin_cases r <;> simp [h3, h4]
  have hd : ∀ r, devGamma n (1, 4) z r = 0 := by
    intro r; unfold devGamma lit1; rw [h.e14]; dsimp only; rw [hc, c3]; ring
  rw [hd, hd, add_zero, add_zero]
  unfold edgeGamma
  rw [h.e14]
  dsimp only
  rw [h.ends14]
  simp only [dsg, gap, sarea3, mean_single, h.c2, Matrix.cons_val_one, Matrix.cons_val_zero]
  simp only [nx, ny, h.x1, h.x3, h.x4, List.map_cons, List.map_nil, List.sum_cons, List.sum_nil, mean, h3, h4, List.length_cons, List.length_nil]
  norm_num
  constructor <;> linarith

omit h in
/-- a field without rotations has no residual -/
theorem noResid {z : ℕ → ℝ} (h3 : ∀ i, disp n z 3 i = 0) (h4 : ∀ i, disp n z 4 i = 0) (k : Key) (E : Fin 2 → Fin 2 → ℝ) (u : ℕ → ℝ) : edgeResid n k E z u = 0 := by
  have c3 : ∀ t (r : Fin 2), third n k t z (3 + r.val) = 0 := by
    intro t r; unfold third cSum corners; fin_cases r <;> simp [h3, h4]
  unfold edgeResid
  rw [form2_zero_left, form2_zero_left, add_zero]
  · intro r; unfold residEta; split <;> simp [h3, h4]
  · intro r; unfold residRho; split <;> simp [c3]

/-- the energy of a deflection that has no mean on either triangle, for given moduli of the edges -/
theorem ExGeo.deflection {z u : ℕ → ℝ} (E : Key → Fin 2 → Fin 2 → ℝ) (h3 : ∀ i, disp n z 3 i = 0) (h4 : ∀ i, disp n z 4 i = 0)
    (hS : disp n z 2 1 + disp n z 2 2 + disp n z 2 3 = 0) (hT : disp n z 2 1 + disp n z 2 3 + disp n z 2 4 = 0)
    (u3 : ∀ i, disp n u 3 i = 0) (u4 : ∀ i, disp n u 4 i = 0)
    (uS : disp n u 2 1 + disp n u 2 2 + disp n u 2 3 = 0) (uT : disp n u 2 1 + disp n u 2 3 + disp n u 2 4 = 0) :
    (n.ekeys.map fun k => edgeEnergy n k (E k) (fun z r => edgeGamma n k z r + devGamma n k z r) z u + edgeResid n k (E k) z u).sum =
      1 / 6 * (form2 (E (1, 2)) ![disp n z 2 2 - disp n z 2 1, disp n z 2 3 - disp n z 2 2] ![disp n u 2 2 - disp n u 2 1, disp n u 2 3 - disp n u 2 2]
        + form2 (E (2, 3)) ![disp n z 2 2 - disp n z 2 1, disp n z 2 3 - disp n z 2 2] ![disp n u 2 2 - disp n u 2 1, disp n u 2 3 - disp n u 2 2]
        + form2 (E (3, 4)) ![disp n z 2 3 - disp n z 2 4, disp n z 2 4 - disp n z 2 1] ![disp n u 2 3 - disp n u 2 4, disp n u 2 4 - disp n u 2 1]
        + form2 (E (1, 4)) ![disp n z 2 3 - disp n z 2 4, disp n z 2 4 - disp n z 2 1] ![disp n u 2 3 - disp n u 2 4, disp n u 2 4 - disp n u 2 1])
      + 1 / 3 * form2 (E (1, 3)) ![disp n z 2 1 + disp n z 2 3 / 2, (disp n z 2 3 - disp n z 2 1) / 2] ![disp n u 2 1 + disp n u 2 3 / 2, (disp n u 2 3 - disp n u 2 1) / 2] := by
  have e2 : disp n z 2 2 = disp n z 2 4 := by linarith
  have f2 : disp n u 2 2 = disp n u 2 4 := by linarith
  have s1 : edgeGamma n (1, 3) z 0 + devGamma n (1, 3) z 0 = disp n z 2 1 + disp n z 2 3 / 2 := by
    rw [h.strain13 h3 h4, hS, e2]; ring
  have s2 : edgeGamma n (1, 3) z 1 + devGamma n (1, 3) z 1 = (disp n z 2 3 - disp n z 2 1) / 2 := by
    rw [h.strain13' h3 h4, e2]; ring
  have t1 : edgeGamma n (1, 3) u 0 + devGamma n (1, 3) u 0 = disp n u 2 1 + disp n u 2 3 / 2 := by
    rw [h.strain13 u3 u4, uS, f2]; ring
  have t2 : edgeGamma n (1, 3) u 1 + devGamma n (1, 3) u 1 = (disp n u 2 3 - disp n u 2 1) / 2 := by
    rw [h.strain13' u3 u4, f2]; ring
  rw [h.ekeys]
  simp only [List.map_cons, List.map_nil, List.sum_cons, List.sum_nil, noResid h3 h4, edgeEnergy, h.dom12, h.dom23, h.dom34, h.dom14, h.dom13, form2, Fin.sum_univ_two,
    (h.strain12 h3 h4 hS).1, (h.strain12 h3 h4 hS).2, (h.strain23 h3 h4 hS).1, (h.strain23 h3 h4 hS).2, (h.strain34 h3 h4 hT).1, (h.strain34 h3 h4 hT).2,
    (h.strain14 h3 h4 hT).1, (h.strain14 h3 h4 hT).2, (h.strain12 u3 u4 uS).1, (h.strain12 u3 u4 uS).2, (h.strain23 u3 u4 uS).1, (h.strain23 u3 u4 uS).2,
    (h.strain34 u3 u4 uT).1, (h.strain34 u3 u4 uT).2, (h.strain14 u3 u4 uT).1, (h.strain14 u3 u4 uT).2, s1, s2, t1, t2,
    Matrix.cons_val_zero, Matrix.cons_val_one]
  ring

/-- the entry between the deflections of nodes 2 and 4, for given moduli of the edges -/
theorem ExGeo.entry24 (E : Key → Fin 2 → Fin 2 → ℝ) :
    (n.ekeys.map fun k => edgeEnergy n k (E k) (fun z r => edgeGamma n k z r + devGamma n k z r) (single 7) (single 17) + edgeResid n k (E k) (single 7) (single 17)).sum =
      (1 / 2 + 3 * sixthErr) ^ 2 / 3 * (E (1, 3) 1 0 - E (1, 3) 1 1) ∧
    (n.ekeys.map fun k => edgeEnergy n k (E k) (fun z r => edgeGamma n k z r + devGamma n k z r) (single 17) (single 7) + edgeResid n k (E k) (single 17) (single 7)).sum =
      (1 / 2 + 3 * sixthErr) ^ 2 / 3 * (E (1, 3) 0 1 - E (1, 3) 1 1) := by
  have z7 : ∀ r < 5, ∀ i ∈ corners n 2, disp n (single 7) r i = 0 := by
    intro r hr i hi
    rw [h.c2] at hi
    simp only [List.mem_cons, List.not_mem_nil, or_false] at hi
    unfold disp single
    rw [h.nids]
    rcases hi with rfl | rfl | rfl <;> simp <;> omega
  have z17 : ∀ r < 5, ∀ i ∈ corners n 1, disp n (single 17) r i = 0 := by
    intro r hr i hi
    rw [h.c1] at hi
    simp only [List.mem_cons, List.not_mem_nil, or_false] at hi
    unfold disp single
    rw [h.nids]
    rcases hi with rfl | rfl | rfl <;> simp <;> omega
  have h3 : ∀ i, disp n (single 7) 3 i = 0 := by intro i; unfold disp single; rw [if_neg (by omega)]
  have h4 : ∀ i, disp n (single 7) 4 i = 0 := by intro i; unfold disp single; rw [if_neg (by omega)]
  have g3 : ∀ i, disp n (single 17) 3 i = 0 := by intro i; unfold disp single; rw [if_neg (by omega)]
  have g4 : ∀ i, disp n (single 17) 4 i = 0 := by intro i; unfold disp single; rw [if_neg (by omega)]
  have p := fun E => bnd_zero_terms (m := n) h.e12 (by rw [h.c1]; simp) (by rw [h.c1]; simp) E (v := single 7) (Or.inr z17)
  have q := fun E => bnd_zero_terms (m := n) h.e23 (by rw [h.c1]; simp) (by rw [h.c1]; simp) E (v := single 7) (Or.inr z17)
  have r := fun E => bnd_zero_terms (m := n) h.e34 (by rw [h.c2]; simp) (by rw [h.c2]; simp) E (u := single 17) (Or.inl z7)
  have s := fun E => bnd_zero_terms (m := n) h.e14 (by rw [h.c2]; simp) (by rw [h.c2]; simp) E (u := single 17) (Or.inl z7)
  have p' := fun E => bnd_zero_terms (m := n) h.e12 (by rw [h.c1]; simp) (by rw [h.c1]; simp) E (u := single 7) (Or.inl z17)
  have q' := fun E => bnd_zero_terms (m := n) h.e23 (by rw [h.c1]; simp) (by rw [h.c1]; simp) E (u := single 7) (Or.inl z17)
  have r' := fun E => bnd_zero_terms (m := n) h.e34 (by rw [h.c2]; simp) (by rw [h.c2]; simp) E (v := single 17) (Or.inr z7)
  have s' := fun E => bnd_zero_terms (m := n) h.e14 (by rw [h.c2]; simp) (by rw [h.c2]; simp) E (v := single 17) (Or.inr z7)
  have w7 : disp n (single 7) 2 1 = 0 ∧ disp n (single 7) 2 2 = 1 ∧ disp n (single 7) 2 3 = 0 ∧ disp n (single 7) 2 4 = 0 := by
    simp [disp, h.nids, single]
  have w17 : disp n (single 17) 2 1 = 0 ∧ disp n (single 17) 2 2 = 0 ∧ disp n (single 17) 2 3 = 0 ∧ disp n (single 17) 2 4 = 1 := by
    simp [disp, h.nids, single]
  have a7 : edgeGamma n (1, 3) (single 7) 0 + devGamma n (1, 3) (single 7) 0 = 0 := by
    rw [h.strain13 h3 h4, w7.1, w7.2.1, w7.2.2.1, w7.2.2.2]; norm_num [sixthErr]
  have b7 : edgeGamma n (1, 3) (single 7) 1 + devGamma n (1, 3) (single 7) 1 = -(1 / 2 + 3 * sixthErr) := by
    rw [h.strain13' h3 h4, w7.1, w7.2.1, w7.2.2.1, w7.2.2.2]; ring
  have a17 : edgeGamma n (1, 3) (single 17) 0 + devGamma n (1, 3) (single 17) 0 = -(1 / 2 + 3 * sixthErr) := by
    rw [h.strain13 g3 g4, w17.1, w17.2.1, w17.2.2.1, w17.2.2.2]; ring
  have b17 : edgeGamma n (1, 3) (single 17) 1 + devGamma n (1, 3) (single 17) 1 = 1 / 2 + 3 * sixthErr := by
    rw [h.strain13' g3 g4, w17.1, w17.2.1, w17.2.2.1, w17.2.2.2]; ring
  rw [h.ekeys]
  simp only [List.map_cons, List.map_nil, List.sum_cons, List.sum_nil, (p _).1, (q _).1, (r _).1, (s _).1,
    (p' _).1, (q' _).1, (r' _).1, (s' _).1, noResid h3 h4, noResid g3 g4]
  simp only [edgeEnergy, h.dom13, form2, Fin.sum_univ_two,
    a7, b7, a17, b17]
  constructor <;> ring
end

/-- a laminate with different correction factors and shear moduli in the two directions -/
noncomputable def exOrtho : Lam := { exIso with k13 := 1 / 2, E := fun i j => if i = j then (if i = 0 then 1 else 2) else 0 }

/-- a deflection without mean on either triangle of the square -/
noncomputable def exDefl (a b : ℝ) (j : ℕ) : ℝ := if j = 2 then a else if j = 12 then b else if j = 7 ∨ j = 17 then -(a + b) else 0

/-- C47 is false: there is a square of two triangles with the same laminate everywhere for which no moduli `D`, used on boundary and interior edges alike,
give the matrix, whatever the lengths (`alpha = 0`) -/
theorem C47_false : ∃ (m : Mesh) (l : Lam) (K : Mat), AfterK0 m ∧ Proper m ∧ Planar m ∧ HasProps m true ∧ Homog m true l ∧ l.h ≠ 0 ∧ K.dim = 5 * m.nids.length ∧ ∀ fa,
    ¬ ∃ D : Fin 2 → Fin 2 → ℝ, ∀ v u, form K.dim (fun i j => (addK0s K m true "edge-based" 0 fa).1.get i j - K.get i j) v u =
      (m.ekeys.map fun k => edgeEnergy m k D (fun z r => edgeGamma m k z r + devGamma m k z r) v u + edgeResid m k D v u).sum := by
  have a0 := exAfter_after exOrtho exOrtho exOrtho exOrtho exOrtho exOrtho
  have hp0 := exAfter_proper exOrtho exOrtho exOrtho exOrtho exOrtho exOrtho
  have hg0 := exAfter_planar exOrtho exOrtho exOrtho exOrtho exOrtho exOrtho
  have hH0 := exAfter_Homog exOrtho true
  have hh0 := exAfter_props exOrtho exOrtho exOrtho exOrtho exOrtho exOrtho true
  have g0 : ExGeo (exAfter exOrtho exOrtho exOrtho exOrtho exOrtho exOrtho) 0 := exGeo0
  generalize exAfter exOrtho exOrtho exOrtho exOrtho exOrtho exOrtho = n at *
  have h1 : exOrtho.h ≠ 0 := by norm_num [exOrtho, exIso, exLam]
  have t0 := edgeThick_homog a0.wf hp0 hg0 hH0 h1
  have d0 : (Mat.zeros 20).dim = 5 * n.nids.length := by rw [g0.nids]; rfl
  refine ⟨n, exOrtho, Mat.zeros 20, a0, hp0, hg0, hh0, hH0, h1, d0, fun fa => ?_⟩
  rintro ⟨D, hD⟩
  obtain ⟨K', k0, -, -, f0⟩ := C69_energy_partial a0 hp0 hg0 hh0 t0 0 fa d0
  have hD' : ∀ v u, (n.ekeys.map fun k => edgeEnergy n k (edgeMod n true 0 fa k) (fun z r => edgeGamma n k z r + devGamma n k z r) v u
      + edgeResid n k (edgeMod n true 0 fa k) v u).sum =
      (n.ekeys.map fun k => edgeEnergy n k D (fun z r => edgeGamma n k z r + devGamma n k z r) v u + edgeResid n k D v u).sum := by
    intro v u
    rw [← hD v u, k0]; exact (f0 v u).symm
  have bm : ∀ k ∈ n.ekeys, (n.edge k).trias.length = 1 → edgeMod n true 0 fa k = fun r s => if r = s then 1 else 0 := by
    intro k hk hl
    funext r s
    unfold edgeMod
    rw [if_pos hl]
    unfold bndMod
    rw [edgeStab_homog a0.wf hp0 hg0 hH0 h1 hk]
    simp only [avg_const a0.wf hp0 hg0 hk (Homog_slot a0.wf hp0 hH0)]
    fin_cases r <;> fin_cases s <;> norm_num [exOrtho, exIso, exLam]
  have im : edgeMod n true 0 fa (1, 3) = fun r s => if r = s then (if r = 0 then 1 / 2 else 2) else 0 := by
    have hk : (1, 3) ∈ n.ekeys := by rw [g0.ekeys]; simp
    funext r s
    unfold edgeMod
    rw [if_neg (by rw [g0.e13]; simp)]
    unfold intMod
    rw [edgeStab_homog a0.wf hp0 hg0 hH0 h1 hk]
    simp only [avg_const a0.wf hp0 hg0 hk (Homog_slot a0.wf hp0 hH0)]
    fin_cases r <;> fin_cases s <;> norm_num [exOrtho, exIso, exLam]
  have b12 := bm (1, 2) (by rw [g0.ekeys]; simp) (by rw [g0.e12]; rfl)
  have b23 := bm (2, 3) (by rw [g0.ekeys]; simp) (by rw [g0.e23]; rfl)
  have b34 := bm (3, 4) (by rw [g0.ekeys]; simp) (by rw [g0.e34]; rfl)
  have b14 := bm (1, 4) (by rw [g0.ekeys]; simp) (by rw [g0.e14]; rfl)
  have q1 := hD' (single 7) (single 17)
  have q2 := hD' (single 17) (single 7)
  rw [(g0.entry24 fun k => edgeMod n true 0 fa k).1, (g0.entry24 fun _ => D).1, im] at q1
  rw [(g0.entry24 fun k => edgeMod n true 0 fa k).2, (g0.entry24 fun _ => D).2, im] at q2
  have c0 : (1 / 2 + 3 * sixthErr) ^ 2 / 3 ≠ 0 := by norm_num [sixthErr]
  have q1' := mul_left_cancel₀ c0 q1
  have q2' := mul_left_cancel₀ c0 q2
  have r3 : ∀ a b i, disp n (exDefl a b) 3 i = 0 := by
    intro a b i; unfold disp exDefl; rw [if_neg (by omega), if_neg (by omega), if_neg (by omega)]
  have r4 : ∀ a b i, disp n (exDefl a b) 4 i = 0 := by
    intro a b i; unfold disp exDefl; rw [if_neg (by omega), if_neg (by omega), if_neg (by omega)]
  have w : ∀ a b, disp n (exDefl a b) 2 1 = a ∧ disp n (exDefl a b) 2 2 = -(a + b) ∧ disp n (exDefl a b) 2 3 = b ∧ disp n (exDefl a b) 2 4 = -(a + b) := by
    intro a b; simp [disp, g0.nids, exDefl]
  have key : ∀ a b a' b', _ := fun a b a' b' => by
    have := hD' (exDefl a b) (exDefl a' b')
    rw [g0.deflection (fun k => edgeMod n true 0 fa k) (r3 a b) (r4 a b) (by rw [(w a b).1, (w a b).2.1, (w a b).2.2.1]; ring)
      (by rw [(w a b).1, (w a b).2.2.2, (w a b).2.2.1]; ring) (r3 a' b') (r4 a' b') (by rw [(w a' b').1, (w a' b').2.1, (w a' b').2.2.1]; ring)
      (by rw [(w a' b').1, (w a' b').2.2.2, (w a' b').2.2.1]; ring),
      g0.deflection (fun _ => D) (r3 a b) (r4 a b) (by rw [(w a b).1, (w a b).2.1, (w a b).2.2.1]; ring)
      (by rw [(w a b).1, (w a b).2.2.2, (w a b).2.2.1]; ring) (r3 a' b') (r4 a' b') (by rw [(w a' b').1, (w a' b').2.1, (w a' b').2.2.1]; ring)
      (by rw [(w a' b').1, (w a' b').2.2.2, (w a' b').2.2.1]; ring), b12, b23, b34, b14, im] at this
    simp only [(w a b).1, (w a b).2.1, (w a b).2.2.1, (w a b).2.2.2, (w a' b').1, (w a' b').2.1, (w a' b').2.2.1, (w a' b').2.2.2, form2, Fin.sum_univ_two,
      Matrix.cons_val_zero, Matrix.cons_val_one, if_true, one_ne_zero, zero_ne_one, if_false] at this
    exact this
  have k1 := key (-2) 1 (-2) 1
  have k2 := key (-1) 2 (-1) 2
  have k3 := key (-2) 1 (-1) 2
  have k4 := key (-1) 2 (-2) 1
  simp only [if_true, one_ne_zero, zero_ne_one, if_false] at q1' q2'
  norm_num at k1 k2 k3 k4 q1' q2'
  linarith

/-! ### C71 -/

/-- a rigid rotation `w = c + p x + q y`, `phix = -p`, `phiy = -q` -/
def Spec.RigidRotation (m : Mesh) (z : ℕ → ℝ) (c p q : ℝ) : Prop :=
  (∀ i ∈ m.nids, disp m z 2 i = c + p * nx m i + q * ny m i) ∧ (∀ i ∈ m.nids, disp m z 3 i = -p) ∧ ∀ i ∈ m.nids, disp m z 4 i = -q

/-- what `10^15` times the strain of a rigid rotation is on a boundary edge: `-((p, q) + t * w(G) / A)` with `t` the edge turned by a right angle, `G` the centroid
of its triangle and `A` the area of the domain -/
noncomputable def Spec.rigidRest (m : Mesh) (k : Key) (c p q : ℝ) (r : Fin 2) : ℝ :=
  match (m.edge k).trias with
  | [t] => -(![p, q] r + turned m (ends m k t).1 (ends m k t).2 r * (c + p * mean (nx m) (corners m t) + q * mean (ny m) (corners m t)) / |sarea m (dom m k)|)
  | _ => 0

/-- C71, as far as it holds: on a mesh without interior edges a rigid rotation couples to a displacement only through rounded literals: every term has a factor
`10^-15`, `sqErr` (in `residKappa`) or `quarterErr` (in `residEta`), all at most `10^-15` (`edge_literals`). With interior edges it is false (`C71_false`). -/
theorem C71_boundary_partial {m : Mesh} (ha : AfterK0 m) (hp : Proper m) (hg : Planar m) {pn : Bool} (hh : HasProps m pn) (ht : EdgeThick m pn) (al : ℝ) (fa : Bool)
    {K : Mat} (hK : K.dim = 5 * m.nids.length) (hb : ∀ k ∈ m.ekeys, (m.edge k).trias.length = 1) {z : ℕ → ℝ} {c p q : ℝ} (hz : RigidRotation m z c p q) (v : ℕ → ℝ) :
    form K.dim (fun i j => (addK0s K m pn "edge-based" al fa).1.get i j - K.get i j) v z = (m.ekeys.map fun k =>
      1 / 10 ^ 15 * |sarea m (dom m k)| * form2 (edgeMod m pn al fa k) (fun r => edgeGamma m k v r + devGamma m k v r) (rigidRest m k c p q)
        + form2 (edgeMod m pn al fa k) (residRho m k v) (residKappa m k z) - form2 (edgeMod m pn al fa k) (residEta m k v) ![p, q]).sum := by
  obtain ⟨K', h, -, -, hf⟩ := C69_energy_partial ha hp hg hh ht al fa hK
  rw [h]
  refine (hf v z).trans ?_
  congr 1
  refine List.map_congr_left fun k hk => ?_
  obtain ⟨hw, hx, hy⟩ := hz
  have w := ha.wf
  rcases prepared_shape w hp ha.prepared hk with ⟨t, o, he, hs⟩ | ⟨t1, t2, o1, o2, he, hs1, hs2, ho, _⟩
  · have htr : (m.edge k).trias = [t] := by rw [he]; rfl
    obtain ⟨s0, s1⟩ := rigid_bnd_strain ha hp hg hw hx hy hk htr
    have e1 : ∀ r, edgeGamma m k z r + devGamma m k z r = 1 / 10 ^ 15 * rigidRest m k c p q r := by
      intro r
      unfold rigidRest; rw [htr]; dsimp only
      fin_cases r
      · refine s0.trans ?_; simp; ring
      · refine s1.trans ?_; simp; ring
    have e2 : residEta m k z = 0 := by
      have en := w.ends k hk
      have hen : (ends m k t).1 ∈ m.nids ∧ (ends m k t).2 ∈ m.nids := by
        unfold ends; split
        · exact ⟨en.2, en.1⟩
        · exact en
      funext r
      unfold residEta; rw [htr]; dsimp only
      rw [hx _ hen.1, hx _ hen.2, hy _ hen.1, hy _ hen.2]; simp
    have e3 : residRho m k z = fun r => -(![p, q] r) := by
      funext r
      unfold residRho; rw [htr]; dsimp only
      rw [hs.third]
      fin_cases r
      · exact hx o hs.ino
      · exact hy o hs.ino
    unfold edgeEnergy edgeResid
    rw [e2, e3]
    simp only [e1, form2, Fin.sum_univ_two, Pi.zero_apply, zero_add, Matrix.cons_val_zero, Matrix.cons_val_one]
    ring
  · exfalso
    have := hb k hk
    rw [he] at this
    exact absurd this (by simp [iEdge])

section
variable {n : Mesh} (h : ExGeo n 0)
include h

/-- `exTilt` is the rigid rotation `w = x`, `phix = -1` -/
theorem ExGeo.tilt : RigidRotation n exTilt 0 1 0 := by
  refine ⟨fun i hi => ?_, fun i _ => ?_, fun i _ => ?_⟩
  · rw [h.nids] at hi
    simp only [List.mem_cons, List.not_mem_nil, or_false] at hi
    unfold disp nx exTilt
    rw [h.nids]
    rcases hi with rfl | rfl | rfl | rfl
    · rw [h.x1]; norm_num
    · rw [h.x2]; norm_num [List.idxOf_cons]
    · rw [h.x3]; norm_num [List.idxOf_cons]
    · rw [h.x4]; norm_num [List.idxOf_cons]
  · unfold disp exTilt
    rw [if_neg (by omega), if_pos (by omega)]
  · unfold disp exTilt
    rw [if_neg (by omega), if_neg (by omega)]; simp

theorem ExGeo.tilt_val : (∀ i, disp n exTilt 3 i = -1) ∧ (∀ i, disp n exTilt 4 i = 0) ∧ disp n exTilt 2 1 = 0 ∧ disp n exTilt 2 2 = 1 ∧ disp n exTilt 2 3 = 1 ∧
    disp n exTilt 2 4 = 0 := by
  refine ⟨fun i => ?_, fun i => ?_, ?_, ?_, ?_, ?_⟩
  · unfold disp exTilt
    rw [if_neg (by omega), if_pos (by omega)]
  · unfold disp exTilt
    rw [if_neg (by omega), if_neg (by omega)]
  all_goals
    unfold disp exTilt
    rw [h.nids]
    norm_num [List.idxOf_cons]

theorem ExGeo.tilt13 (he : edgeGamma n (1, 3) exTilt 0 = 0) : edgeGamma n (1, 3) exTilt 0 + devGamma n (1, 3) exTilt 0 < -0.49 := by
  obtain ⟨x, y, w1, w2, w3, w4⟩ := h.tilt_val
  rw [he]
  unfold devGamma
  rw [h.e13]
  dsimp only
  rw [h.ends13, h.dom13]
  dsimp only
  simp only [lit1, lit2, swap1, cSum, turned, h.sub1, if_true]
  simp only [corners, h.a1, h.a2, h.a3, h.b1, h.b2, h.b3, List.map_cons, List.map_nil, List.sum_cons, List.sum_nil, mean, List.length_cons, List.length_nil,
    Fin.val_zero, add_zero, w1, w2, w3, w4, x, y, nx, ny, h.x1, h.x2, h.x3, h.x4, sixthErr, twelfthErr]
  norm_num

/-- the residuals of the rotation are rounding errors -/
theorem ExGeo.tilt_resid {k : Key} (hk : k ∈ n.ekeys) : -(1 / 10 ^ 14) ≤ edgeResid n k (fun r s => if r = s then 1 else 0) exTilt exTilt := by
  obtain ⟨x, y, w1, w2, w3, w4⟩ := h.tilt_val
  have s13 : |sarea n [[1, 2, 3], [3], [1]]| = 1 / 6 := by rw [← h.c1, h.sub1]; norm_num
  rw [h.ekeys] at hk
  simp only [List.mem_cons, List.not_mem_nil, or_false] at hk
  unfold edgeResid form2
  simp only [Fin.sum_univ_two, if_true, one_ne_zero, zero_ne_one, if_false]
  rcases hk with rfl | rfl | rfl | rfl | rfl
  · simp only [residRho, residEta, residKappa, h.e12, h.ends12, h.dom12, third, cSum, h.c1, List.map_cons, List.map_nil, List.sum_cons, List.sum_nil,
      Fin.val_zero, Fin.val_one, Nat.reduceAdd, add_zero, x, y, w1, w2, w3, turned, ny, nx, h.x1, h.x2, if_true, one_ne_zero, if_false, sqErr, quarterErr]
    norm_num
  · simp only [residRho, residEta, residKappa, h.e23, h.ends23, h.dom23, third, cSum, h.c1, List.map_cons, List.map_nil, List.sum_cons, List.sum_nil,
      Fin.val_zero, Fin.val_one, Nat.reduceAdd, add_zero, x, y, w1, w2, w3, turned, ny, nx, h.x3, h.x2, if_true, one_ne_zero, if_false, sqErr, quarterErr]
    norm_num
  · simp only [residRho, residEta, residKappa, h.e13, h.ends13, h.dom13, s13, third, cSum, h.c1, h.c2, List.map_cons, List.map_nil, List.sum_cons, List.sum_nil,
      Fin.val_zero, Fin.val_one, Nat.reduceAdd, add_zero, x, y, w1, w3, w4, turned, ny, nx, h.x3, h.x1, h.x4, mean, List.length_cons, List.length_nil, if_true,
      one_ne_zero, if_false, sqErr, prodErr]
    norm_num
  · simp only [residRho, residEta, residKappa, h.e34, h.ends34, h.dom34, third, cSum, h.c2, List.map_cons, List.map_nil, List.sum_cons, List.sum_nil,
      Fin.val_zero, Fin.val_one, Nat.reduceAdd, add_zero, x, y, w1, w4, w3, turned, ny, nx, h.x3, h.x4, if_true, one_ne_zero, if_false, sqErr, quarterErr]
    norm_num
  · simp only [residRho, residEta, residKappa, h.e14, h.ends14, h.dom14, third, cSum, h.c2, List.map_cons, List.map_nil, List.sum_cons, List.sum_nil,
      Fin.val_zero, Fin.val_one, Nat.reduceAdd, add_zero, x, y, w1, w4, w3, turned, ny, nx, h.x1, h.x4, if_true, one_ne_zero, if_false, sqErr, quarterErr]
    norm_num
end

/-- C71 is false on meshes with interior edges: the rigid rotation `w = x`, `phix = -1` of an isotropic unit square of two triangles has shear energy beyond `0.08` -/
theorem C71_false : ∃ (m : Mesh) (K : Mat) (z : ℕ → ℝ), AfterK0 m ∧ Proper m ∧ Planar m ∧ HasProps m true ∧ EdgeThick m true ∧ K.dim = 5 * m.nids.length ∧
    RigidRotation m z 0 1 0 ∧ ∀ fa, 0.08 < form K.dim (fun i j => (addK0s K m true "edge-based" 0 fa).1.get i j - K.get i j) z z := by
  have a0 := exAfter_after exIso exIso exIso exIso exIso exIso
  have hp0 := exAfter_proper exIso exIso exIso exIso exIso exIso
  have hg0 := exAfter_planar exIso exIso exIso exIso exIso exIso
  have hH0 := exAfter_Homog exIso true
  have hh0 := exAfter_props exIso exIso exIso exIso exIso exIso true
  have g0 : ExGeo (exAfter exIso exIso exIso exIso exIso exIso) 0 := exGeo0
  generalize exAfter exIso exIso exIso exIso exIso exIso = n at *
  have t0 := edgeThick_homog a0.wf hp0 hg0 hH0 (by norm_num [exIso, exLam])
  have d0 : (Mat.zeros 20).dim = 5 * n.nids.length := by rw [g0.nids]; rfl
  refine ⟨n, Mat.zeros 20, exTilt, a0, hp0, hg0, hh0, t0, d0, g0.tilt, fun fa => ?_⟩
  rw [C47_energy_partial a0 hp0 hg0 hh0 hH0 (by norm_num [exIso, exLam]) rfl (by simp [exIso, exLam]) 0 fa d0]
  have hE : (fun r s : Fin 2 => if r = s then exIso.k13 * exIso.E r r else 0) = fun r s => if r = s then (1 : ℝ) else 0 := by
    funext r s; fin_cases r <;> fin_cases s <;> norm_num [exIso, exLam]
  have hs : ∀ k, exIso.h ^ 2 / (exIso.h ^ 2 + 0 * edgeCharLen n fa k ^ 2) = 1 := by intro k; norm_num [exIso, exLam]
  simp only [hE, hs, one_mul]
  have en : ∀ k, edgeEnergy n k (fun r s => if r = s then (1 : ℝ) else 0) (fun z r => edgeGamma n k z r + devGamma n k z r) exTilt exTilt =
      |sarea n (dom n k)| * ((edgeGamma n k exTilt 0 + devGamma n k exTilt 0) ^ 2 + (edgeGamma n k exTilt 1 + devGamma n k exTilt 1) ^ 2) := by
    intro k
    unfold edgeEnergy form2
    simp only [Fin.sum_univ_two, if_true, one_ne_zero, zero_ne_one, if_false]
    ring
  have pos : ∀ k, 0 ≤ edgeEnergy n k (fun r s => if r = s then (1 : ℝ) else 0) (fun z r => edgeGamma n k z r + devGamma n k z r) exTilt exTilt := by
    intro k; rw [en]; positivity
  have hk : (1, 3) ∈ n.ekeys := by rw [g0.ekeys]; simp
  have g13 : edgeGamma n (1, 3) exTilt 0 = 0 := by
    have := (edgeGamma_patch a0 hp0 hg0 g0.tilt.1 g0.tilt.2.1 g0.tilt.2.2 hk).1
    rw [this]; norm_num
  have st := g0.tilt13 g13
  have big : 0.0800333 < edgeEnergy n (1, 3) (fun r s => if r = s then (1 : ℝ) else 0) (fun z r => edgeGamma n (1, 3) z r + devGamma n (1, 3) z r) exTilt exTilt := by
    rw [en, g0.dom13]
    nlinarith [sq_nonneg (edgeGamma n (1, 3) exTilt 1 + devGamma n (1, 3) exTilt 1)]
  have res := fun k (hk : k ∈ n.ekeys) => g0.tilt_resid hk
  rw [g0.ekeys] at res ⊢
  simp only [List.map_cons, List.map_nil, List.sum_cons, List.sum_nil]
  have r1 := res (1, 2) (by simp)
  have r2 := res (2, 3) (by simp)
  have r3 := res (1, 3) (by simp)
  have r4 := res (3, 4) (by simp)
  have r5 := res (1, 4) (by simp)
  have q1 := pos (1, 2)
  have q2 := pos (2, 3)
  have q4 := pos (3, 4)
  have q5 := pos (1, 4)
  norm_num at r1 r2 r3 r4 r5 big ⊢
  linarith

end Meshless
