import Verif.Props.ShearEdgeMat

/-! C71: rigid rotations in the edge-based method, on all meshes. -/

set_option autoImplicit false

namespace Meshless
open Spec Finset

/-- Strain of a rigid rotation `w = c + p x + q y` on an edge, times the area of the domain. With `t` the edge `a b` turned by a right angle and `G`
the centroid of a triangle: on boundary edges `-10^-15 * (A (p, q) + w(G) t)`. On interior edges the `z` coordinate of `a`, used as its `y`, gives
the terms with the factor `z_a - y_a`; all others carry a factor of at most `10^-15`. -/
noncomputable def Spec.rigidStrain (m : Mesh) (k : Key) (c p q : ℝ) (r : Fin 2) : ℝ :=
  match (m.edge k).trias with
  | [t] => let e := ends m k t
    let w := c + p * mean (nx m) (corners m t) + q * mean (ny m) (corners m t)
    1 / 10 ^ 15 * -(|sarea m (dom m k)| * ![p, q] r + turned m e.1 e.2 r * w)
  | [t1, t2] => let e := ends m k t1
    let w1 := c + p * mean (nx m) (corners m t1) + q * mean (ny m) (corners m t1)
    let w2 := c + p * mean (nx m) (corners m t2) + q * mean (ny m) (corners m t2)
    let x1 := nx m e.2 - mean (nx m) (corners m t1)
    let y1 := ny m e.2 - mean (ny m) (corners m t1)
    let x2 := mean (nx m) (corners m t2) - nx m e.1
    let y2 := mean (ny m) (corners m t2) - ny m e.1
    ((m.node e.1).xyz.z - ny m e.1) * (if r = 0 then -(p * x1 / 4) - q * y1 / 2 + 1 / 10 ^ 15 * w1 else q * x1 / 4)
      - 1 / 10 ^ 15 * (|sarea m [corners m t1, [e.1], [e.2]]| * ![p, q] r + turned m e.1 e.2 r * w1)
      + turned m e.1 e.2 r * (1 / 10 ^ 15 * w2 + (if r = 0 then p * x2 / 10 ^ 16 + q * y2 * (4 / 10 ^ 16) else p * x2 * (4 / 10 ^ 16) + q * y2 / 10 ^ 16))
  | _ => 0

private theorem sums {m : Mesh} {z : ℕ → ℝ} {c p q : ℝ} (hz : RigidRotation m z c p q) {t : ℕ} (hc : ∀ i ∈ corners m t, i ∈ m.nids) :
    cSum m t z 2 = 3 * (c + p * mean (nx m) (corners m t) + q * mean (ny m) (corners m t)) ∧ cSum m t z 3 = 3 * -p ∧ cSum m t z 4 = 3 * -q := by
  obtain ⟨hw, hx, hy⟩ := hz
  have i1 := hc (m.tria t).n1 (by simp [corners])
  have i2 := hc (m.tria t).n2 (by simp [corners])
  have i3 := hc (m.tria t).n3 (by simp [corners])
  rw [mean_corners', mean_corners']
  simp only [cSum, corners, List.map_cons, List.map_nil, List.sum_cons, List.sum_nil, hw _ i1, hw _ i2, hw _ i3, hx _ i1, hx _ i2, hx _ i3, hy _ i1, hy _ i2, hy _ i3]
  refine ⟨?_, ?_, ?_⟩ <;> ring

/-- the strain of a rigid rotation on any edge -/
theorem rigid_strain {m : Mesh} (ha : AfterK0 m) (hp : Proper m) (hg : Planar m) {z : ℕ → ℝ} {c p q : ℝ} (hz : RigidRotation m z c p q)
    {k : Key} (hk : k ∈ m.ekeys) (r : Fin 2) : |sarea m (dom m k)| * (edgeGamma m k z r + devGamma m k z r) = rigidStrain m k c p q r := by
  have w := ha.wf
  obtain ⟨hw, hx, hy⟩ := hz
  obtain ⟨g0, g1⟩ := edgeGamma_patch ha hp hg hw hx hy hk
  have gz : edgeGamma m k z r = 0 := by fin_cases r; exacts [by simpa using g0, by simpa using g1]
  have hcor : ∀ t, t ∈ m.eids → ∀ i ∈ corners m t, i ∈ m.nids := fun t ht i hi => w.corner_mem ht hi
  have hends := w.ends k hk
  have hen : ∀ t, (ends m k t).1 ∈ m.nids ∧ (ends m k t).2 ∈ m.nids := by
    intro t; unfold ends; split
    · exact ⟨hends.2, hends.1⟩
    · exact hends
  rcases prepared_shape w hp ha.prepared hk with ⟨t, o, he, hs⟩ | ⟨t1, t2, o1, o2, he, hs1, hs2, ho, _⟩
  · have htr : (m.edge k).trias = [t] := by rw [he]; rfl
    have hA := triArea_side hs
    have hA0 : triArea m t ≠ 0 := abs_ne_zero.2 (hg.nondeg t hs.mem)
    have hS0 : sarea m [[k.1], [k.2], corners m t] ≠ 0 := by intro h; rw [h, abs_zero] at hA; exact hA0 (by linarith)
    have hA' : |sarea m (dom m k)| ≠ 0 := by
      rw [dom_b htr]; refine abs_ne_zero.2 fun h => hS0 ?_
      rw [sarea3] at h ⊢; linarith
    obtain ⟨s0, s1⟩ := rigid_bnd_strain ha hp hg hw hx hy hk htr
    unfold rigidStrain; rw [htr]; dsimp only
    fin_cases r
    · refine (congrArg _ s0).trans ?_; simp; field_simp; ring
    · refine (congrArg _ s1).trans ?_; simp; field_simp; ring
  · have htr : (m.edge k).trias = [t1, t2] := by rw [he]; rfl
    have hop := hg.opposite k hk t1 t2 htr
    have hS0 : sarea m [[k.1], [k.2], corners m t1] ≠ 0 := by intro h; rw [h, zero_mul] at hop; exact lt_irrefl _ hop
    obtain ⟨_, e2, e3, e4⟩ := ends_spec hs1 hS0
    have e5 := e4 _ hop
    have hA' : |sarea m (dom m k)| ≠ 0 := by
      have hD : |sarea m (dom m k)| = |sarea m [corners m t1, [(ends m k t1).1], [(ends m k t1).2]] + sarea m [[(ends m k t1).1], corners m t2, [(ends m k t1).2]]| := by
        rw [dom_i htr]
        rcases e3 with h | h
        · rw [show (ends m k t1).1 = k.1 from congrArg Prod.fst h, show (ends m k t1).2 = k.2 from congrArg Prod.snd h, ← abs_neg]
          congr 1; rw [sarea4, sarea3, sarea3, sarea3, sarea3]; ring
        · rw [show (ends m k t1).2 = k.1 from congrArg Prod.fst h, show (ends m k t1).1 = k.2 from congrArg Prod.snd h]
          congr 1; rw [sarea4, sarea3, sarea3, sarea3, sarea3]; ring
      rw [hD]; exact abs_ne_zero.2 (by positivity)
    obtain ⟨a2, a3, a4⟩ := sums ⟨hw, hx, hy⟩ (hcor t1 hs1.mem)
    obtain ⟨b2, b3, b4⟩ := sums ⟨hw, hx, hy⟩ (hcor t2 hs2.mem)
    obtain ⟨n1, n2⟩ := hen t1
    have six := edge_literals.1
    have twl := edge_literals.2.1
    rw [gz, zero_add]
    unfold devGamma rigidStrain lit1 lit2 swap1
    rw [htr]
    dsimp only
    rw [mul_div_cancel₀ _ hA']
    fin_cases r
    · simp [a2, a3, b2, b3, b4, six, twl, hw _ n2, hx _ n2, hy _ n1, hy _ n2]
      ring
    · simp [a2, a4, b2, b3, b4, six, twl, hx _ n2, hy _ n1]
      ring

private theorem form2_mul (E : Fin 2 → Fin 2 → ℝ) (a : ℝ) (x y : Fin 2 → ℝ) : a * form2 E x y = form2 E x fun r => a * y r := by
  simp only [form2, Fin.sum_univ_two]; ring

/-- C71, on all meshes: the coupling of a rigid rotation with any displacement. On boundary edges `rigidStrain` and `edgeResid` carry only factors of at most `10^-15`
(rounded literals, `edge_literals`); on interior edges the wrong coordinate adds `z_a - y_a` times the rotation times the distance of `b` from the centroid. -/
theorem C71_general_partial {m : Mesh} (ha : AfterK0 m) (hp : Proper m) (hg : Planar m) {pn : Bool} (hh : HasProps m pn) (ht : EdgeThick m pn) (al : ℝ) (fa : Bool)
    {K : Mat} (hK : K.dim = 5 * m.nids.length) {z : ℕ → ℝ} {c p q : ℝ} (hz : RigidRotation m z c p q) (v : ℕ → ℝ) :
    form K.dim (fun i j => (addK0s K m pn "edge-based" al fa).1.get i j - K.get i j) v z = (m.ekeys.map fun k =>
      form2 (edgeMod m pn al fa k) (fun r => edgeGamma m k v r + devGamma m k v r) (rigidStrain m k c p q) + edgeResid m k (edgeMod m pn al fa k) v z).sum := by
  obtain ⟨K', h, -, -, hf⟩ := C69_energy_partial ha hp hg hh ht al fa hK
  rw [h]
  refine (hf v z).trans ?_
  congr 1
  refine List.map_congr_left fun k hk => ?_
  unfold edgeEnergy
  rw [form2_mul, show (fun r => |sarea m (dom m k)| * (edgeGamma m k z r + devGamma m k z r)) = rigidStrain m k c p q from funext fun r => rigid_strain ha hp hg hz hk r]

/-- concrete case: the unit square with its diagonal, tilted -/
example (al : ℝ) (fa : Bool) (K : Mat) (hK : K.dim = 20) (v : ℕ → ℝ) :
    let m := exAfter exIso exIso exIso exIso exIso exIso
    form K.dim (fun i j => (addK0s K m true "edge-based" al fa).1.get i j - K.get i j) v exTilt = (m.ekeys.map fun k =>
      form2 (edgeMod m true al fa k) (fun r => edgeGamma m k v r + devGamma m k v r) (rigidStrain m k 0 1 0) + edgeResid m k (edgeMod m true al fa k) v exTilt).sum := by
  have a0 := exAfter_after exIso exIso exIso exIso exIso exIso
  have hp0 := exAfter_proper exIso exIso exIso exIso exIso exIso
  have hg0 := exAfter_planar exIso exIso exIso exIso exIso exIso
  have hH0 := exAfter_Homog exIso true
  have g0 : ExGeo (exAfter exIso exIso exIso exIso exIso exIso) 0 := exGeo0
  exact C71_general_partial a0 hp0 hg0 (exAfter_props exIso exIso exIso exIso exIso exIso true) (edgeThick_homog a0.wf hp0 hg0 hH0 (by norm_num [exIso, exLam])) al fa
    (by rw [hK, g0.nids]; rfl) g0.tilt v

end Meshless
