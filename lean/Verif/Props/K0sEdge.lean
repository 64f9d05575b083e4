import Verif.Lemmas.K0sEdgeForm
import Verif.Lemmas.Shift
import Verif.Props.K0s
import Verif.Props.K0Inv

/-! C46–C48, C69–C71: the edge-based transverse shear stiffness and translations of the mesh. -/

set_option autoImplicit false

namespace Meshless
open Spec Finset

/-! ### C69 -/

/-- C69, as far as it holds: the increment of `add_k0s` (edge based) as a bilinear form. The strain is the smoothed discrete shear gap strain of
the edge's domain plus `devGamma` (rounded literals; on interior edges also the `z` coordinate used as a `y`), and to the energy of that
strain comes `edgeResid` (rounded products). Nothing outside the square `5 * nnodes` block changes. The full claim (no `devGamma`, no
`edgeResid`) is false, see `C69_false`. -/
theorem C69_energy_partial {m : Mesh} (ha : AfterK0 m) (hp : Proper m) (hg : Planar m) {pn : Bool} (hh : HasProps m pn) (ht : EdgeThick m pn) (al : ℝ) (fa : Bool)
    {K : Mat} (hK : K.dim = 5 * m.nids.length) :
    ∃ K', addK0s K m pn "edge-based" al fa = (K', none) ∧ K'.dim = K.dim ∧ (∀ i j, (K.dim ≤ i ∨ K.dim ≤ j) → K'.get i j = K.get i j) ∧
      ∀ v u, form K.dim (fun i j => K'.get i j - K.get i j) v u = (m.ekeys.map fun k =>
        edgeEnergy m k (edgeMod m pn al fa k) (fun z r => edgeGamma m k z r + devGamma m k z r) v u + edgeResid m k (edgeMod m pn al fa k) v u).sum :=
  edge_form ha.wf hp hg ha.prepared hh ht al fa hK

/-- concrete case: the square of two triangles with its own laminate at every node -/
example (p1 p2 p3 p4 q1 q2 : Lam) (ht : EdgeThick (exAfter p1 p2 p3 p4 q1 q2) true) {K : Mat} (hK : K.dim = 20) (v u : ℕ → ℝ) :
    form K.dim (fun i j => (addK0s K (exAfter p1 p2 p3 p4 q1 q2) true "edge-based" 0.1 false).1.get i j - K.get i j) v u =
      ((exAfter p1 p2 p3 p4 q1 q2).ekeys.map fun k => edgeEnergy (exAfter p1 p2 p3 p4 q1 q2) k (edgeMod (exAfter p1 p2 p3 p4 q1 q2) true 0.1 false k)
        (fun z r => edgeGamma (exAfter p1 p2 p3 p4 q1 q2) k z r + devGamma (exAfter p1 p2 p3 p4 q1 q2) k z r) v u
          + edgeResid (exAfter p1 p2 p3 p4 q1 q2) k (edgeMod (exAfter p1 p2 p3 p4 q1 q2) true 0.1 false k) v u).sum := by
  obtain ⟨K', h, -, -, hf⟩ := C69_energy_partial (exAfter_after ..) (exAfter_proper ..) (exAfter_planar ..) (exAfter_props ..) ht 0.1 false (K := K)
    (by rw [exAfter_nids]; exact hK)
  rw [h]; exact hf v u

/-- the sizes of the rounding errors in the deviations -/
theorem edge_literals : sixthErr = 1 / (3 * 10 ^ 15) ∧ twelfthErr = -(1 / (3 * 10 ^ 16)) ∧ |sqErr| ≤ 1 / 10 ^ 15 ∧ |prodErr| ≤ 1 / 10 ^ 15 ∧
    |quarterErr| ≤ 1 / 10 ^ 15 := by
  unfold sixthErr twelfthErr sqErr prodErr quarterErr
  refine ⟨by norm_num, by norm_num, ?_, ?_, ?_⟩ <;> rw [abs_le] <;> constructor <;> norm_num

/-- a patch of constant shear is reproduced by the smoothed strain of every edge -/
theorem edgeGamma_patch {m : Mesh} (ha : AfterK0 m) (hp : Proper m) (hg : Planar m) {z : ℕ → ℝ} {c p q r s : ℝ}
    (hw : ∀ i ∈ m.nids, disp m z 2 i = c + p * nx m i + q * ny m i) (hx : ∀ i ∈ m.nids, disp m z 3 i = r) (hy : ∀ i ∈ m.nids, disp m z 4 i = s)
    {k : Key} (hk : k ∈ m.ekeys) : edgeGamma m k z 0 = p + r ∧ edgeGamma m k z 1 = q + s := by
  have w := ha.wf
  have hcor : ∀ t, t ∈ m.eids → ∀ i ∈ corners m t, i ∈ m.nids := by
    intro t ht i hi
    refine corner_mem w hp.distinct ht ?_
    simp only [corners, List.mem_cons, List.not_mem_nil, or_false] at hi
    exact hi
  have hends := w.ends k hk
  have hen : ∀ t, (ends m k t).1 ∈ m.nids ∧ (ends m k t).2 ∈ m.nids := by
    intro t; unfold ends; split
    · exact ⟨hends.2, hends.1⟩
    · exact hends
  have lin : ∀ P Q R : List ℕ, P ≠ [] → Q ≠ [] → R ≠ [] → (∀ i ∈ P, i ∈ m.nids) → (∀ i ∈ Q, i ∈ m.nids) → (∀ i ∈ R, i ∈ m.nids) →
      sarea m [P, Q, R] ≠ 0 → dsg m z P Q R 0 = p + r ∧ dsg m z P Q R 1 = q + s := by
    intro P Q R hP hQ hR iP iQ iR h0
    have hmem : ∀ i, i ∈ P ∨ i ∈ Q ∨ i ∈ R → i ∈ m.nids := by
      rintro i (h | h | h)
      · exact iP i h
      · exact iQ i h
      · exact iR i h
    exact dsg_linear hP hQ hR h0 (fun i hi => hw i (hmem i hi)) (fun i hi => hx i (hmem i hi)) (fun i hi => hy i (hmem i hi))
  have hne : ∀ t, corners m t ≠ [] := by intro t; simp [corners]
  have one : ∀ t i, i ∈ [(ends m k t).1] → i ∈ m.nids := by intro t i hi; rw [List.mem_singleton.1 hi]; exact (hen t).1
  have two : ∀ t i, i ∈ [(ends m k t).2] → i ∈ m.nids := by intro t i hi; rw [List.mem_singleton.1 hi]; exact (hen t).2
  rcases prepared_shape w hp ha.prepared hk with ⟨t, o, he, hs⟩ | ⟨t1, t2, o1, o2, he, hs1, hs2, ho, _⟩
  · have htr : (m.edge k).trias = [t] := by rw [he]; rfl
    have hA := triArea_side hs
    have hA0 : triArea m t ≠ 0 := abs_ne_zero.2 (hg.nondeg t hs.mem)
    have hS0 : sarea m [[k.1], [k.2], corners m t] ≠ 0 := by intro h; rw [h, abs_zero] at hA; exact hA0 (by linarith)
    obtain ⟨_, e2, _, _⟩ := ends_spec hs hS0
    have := lin _ _ _ (hne t) (by simp) (by simp) (hcor t hs.mem) (one t) (two t) e2.ne'
    unfold edgeGamma
    rw [htr]
    exact this
  · have htr : (m.edge k).trias = [t1, t2] := by rw [he]; rfl
    have hop := hg.opposite k hk t1 t2 htr
    have hS0 : sarea m [[k.1], [k.2], corners m t1] ≠ 0 := by intro h; rw [h, zero_mul] at hop; exact lt_irrefl _ hop
    obtain ⟨_, e2, e3, e4⟩ := ends_spec hs1 hS0
    have e5 := e4 _ hop
    have l1 := lin _ _ _ (hne t1) (by simp) (by simp) (hcor t1 hs1.mem) (one t1) (two t1) e2.ne'
    have l2 := lin _ _ _ (by simp) (hne t2) (by simp) (one t1) (hcor t2 hs2.mem) (two t1) e5.ne'
    have hD : |sarea m (dom m k)| = sarea m [corners m t1, [(ends m k t1).1], [(ends m k t1).2]] + sarea m [[(ends m k t1).1], corners m t2, [(ends m k t1).2]] := by
      rw [dom_i htr]
      rcases e3 with h | h
      · have h1 : (ends m k t1).1 = k.1 := congrArg Prod.fst h
        have h2 : (ends m k t1).2 = k.2 := congrArg Prod.snd h
        rw [h1, h2] at e2 e5 ⊢
        rw [← abs_of_pos (add_pos e2 e5), ← abs_neg]
        congr 1
        rw [sarea4, sarea3, sarea3, sarea3, sarea3]; ring
      · have h1 : (ends m k t1).2 = k.1 := congrArg Prod.fst h
        have h2 : (ends m k t1).1 = k.2 := congrArg Prod.snd h
        rw [h1, h2] at e2 e5 ⊢
        rw [← abs_of_pos (add_pos e2 e5)]
        congr 1
        rw [sarea4, sarea3, sarea3, sarea3, sarea3]; ring
    have hpos := add_pos e2 e5
    unfold edgeGamma
    rw [htr]
    dsimp only
    rw [hD, abs_of_pos e2, abs_of_pos e5, l1.1, l1.2, l2.1, l2.2]
    constructor <;> rw [← add_mul, mul_div_assoc, mul_comm, div_mul_cancel₀ _ hpos.ne']

/-! ### C46, C70: translations -/

theorem moves_edges (g : ℕ → Vec3) : ∀ (l : List ℕ) (m : Mesh), (∀ i ∈ l, i ∈ m.nids) →
    (run m (l.map fun i => .moveNode i (g i))).ekeys = m.ekeys ∧ (run m (l.map fun i => .moveNode i (g i))).edge = m.edge := by
  intro l
  induction l with
  | nil => intro m _; exact ⟨rfl, rfl⟩
  | cons a l ih =>
    intro m hl
    have ha := hl a (by simp)
    have hrun : run m ((a :: l).map fun i => .moveNode i (g i)) = run (m.updNode a fun n => { n with xyz := g a }) (l.map fun i => .moveNode i (g i)) := by
      simp only [run, List.map_cons, List.foldl_cons, step, if_pos ha]
    rw [hrun]
    exact ih (m.updNode a fun n => { n with xyz := g a }) (fun i hi => hl i (List.mem_cons_of_mem _ hi))

/-- the mesh with every node moved by `c` -/
noncomputable abbrev translated (m : Mesh) (c : Vec3) : Mesh := run m (m.nids.map fun i => .moveNode i (Vec3.add (m.node i).xyz c))

/-- coordinates are given in the basic system, before and after the translation -/
def BasicAlong (m : Mesh) (c : Vec3) : Prop :=
  ∀ i ∈ m.nids, (m.node i).cp (m.node i).xyz = (m.node i).xyz ∧ (m.node i).cp (Vec3.add (m.node i).xyz c) = Vec3.add (m.node i).xyz c

theorem translated_shift {m : Mesh} {c : Vec3} (hb : BasicAlong m c) : Shift c m (translated m c) := by
  obtain ⟨h1, h2, h3, h4⟩ := moves_spec (fun i => Vec3.add (m.node i).xyz c) m.nids m (fun i hi => hi)
  obtain ⟨g1, g2⟩ := moves_edges (fun i => Vec3.add (m.node i).xyz c) m.nids m (fun i hi => hi)
  refine ⟨h1, h2, g1, h3, fun i hi => by rw [(h4 i).1, if_pos hi], fun i hi => ?_, fun i => (h4 i).2.2, fun k => by rw [g2], fun k => by rw [g2], fun k => by rw [g2]⟩
  unfold Mesh.pos
  rw [(h4 i).2.1, (h4 i).1, if_pos hi, (hb i hi).1, (hb i hi).2]

theorem Shift.static {c : Vec3} {m m' n n' : Mesh} (h : Shift c m m') (a : SameStatic m n) (b : SameStatic m' n') : Shift c n n' := by
  refine ⟨by rw [a.nids, b.nids, h.nids], by rw [a.eids, b.eids, h.eids], by rw [a.ekeys, b.ekeys, h.ekeys], by rw [a.tria, b.tria, h.tria], ?_, ?_, ?_, ?_, ?_, ?_⟩
  · intro i hi; rw [a.nids] at hi; rw [a.xyz, b.xyz, h.xyz i hi]
  · intro i hi; rw [a.nids] at hi; rw [a.pos, b.pos, h.pos i hi]
  · intro i; rw [a.prop, b.prop, h.prop]
  · intro k; rw [a.n1, b.n1, h.n1]
  · intro k; rw [a.n2, b.n2, h.n2]
  · intro k; rw [a.trias, b.trias, h.trias]

theorem Shift.proper {c : Vec3} {m m' : Mesh} (h : Shift c m m') (hp : Proper m) : Proper m' := by
  refine ⟨?_, ?_, ?_⟩
  · rw [h.eids, h.tria]; exact hp.distinct
  · intro k; rw [h.ekeys, h.trias]; exact hp.manifold k
  · have : ∀ e i, IsCorner m' e i ↔ IsCorner m e i := by intro e i; unfold IsCorner; rw [h.tria]
    simp only [h.eids, this]; exact hp.simple

theorem Shift.hasProps {c : Vec3} {m m' : Mesh} (h : Shift c m m') {pn : Bool} (hh : HasProps m pn) : HasProps m' pn := by
  have : ∀ e i, IsCorner m' e i ↔ IsCorner m e i := by intro e i; unfold IsCorner; rw [h.tria]
  unfold HasProps at hh ⊢
  simpa only [h.eids, this, h.prop, h.tria] using hh

/-- `mT` is the mesh of `m0` translated by `c`, both after a successful `calc_k0` -/
theorem moved_k0 {m : Mesh} (hr : Reachable m) (hp : Proper m) (hne : m.nids ≠ []) {c : Vec3} (hb : BasicAlong m c) {pn : Bool} (hh : HasProps m pn) :
    Shift c (calcK0 m pn).1 (calcK0 (translated m c) pn).1 ∧ AfterK0 (calcK0 m pn).1 ∧ AfterK0 (calcK0 (translated m c) pn).1 ∧ Proper (calcK0 m pn).1 ∧
      SameStatic m (calcK0 m pn).1 := by
  have hsh := translated_shift hb
  have hr' := hr.run (m.nids.map fun i => .moveNode i (Vec3.add (m.node i).xyz c))
  obtain ⟨K, hK, _⟩ := C11_success hr hp hne hh
  obtain ⟨K', hK', _⟩ := C11_success hr' (hsh.proper hp) (by rw [hsh.nids]; exact hne) (hsh.hasProps hh)
  have a := calcK0_static m pn hr.wf
  have b := calcK0_static (translated m c) pn hr'.wf
  exact ⟨hsh.static a b, .intro m hr pn K hK [] (by simp), .intro _ hr' pn K' hK' [] (by simp), a.proper hp, a⟩

theorem k0s_translation {m : Mesh} (hr : Reachable m) (hp : Proper m) (hne : m.nids ≠ []) {c : Vec3} (hb : BasicAlong m c) {pn : Bool} (hh : HasProps m pn)
    {method : String} (hc : method = "edge-based" → c.y = c.z ∨ ∀ k ∈ m.ekeys, (m.edge k).trias.length = 1) (pn' : Bool) (al : ℝ) (fa : Bool) (K : Mat) :
    addK0s K (calcK0 (translated m c) pn).1 pn' method al fa = addK0s K (calcK0 m pn).1 pn' method al fa := by
  obtain ⟨h, a, b, hp', hs⟩ := moved_k0 hr hp hne hb hh
  rw [addK0s_eq, addK0s_eq, h.k0sIncr a.wf b.wf hp' a.prepared b.prepared (fun e => (hc e).imp_right fun f k hk => by rw [hs.trias]; exact f k (hs.ekeys ▸ hk)) pn' al fa]

/-- C70: translating the plate leaves the increments (and the errors) of the two cell methods unchanged, for every starting matrix -/
theorem C70_translation {m : Mesh} (hr : Reachable m) (hp : Proper m) (hne : m.nids ≠ []) {c : Vec3} (hb : BasicAlong m c) {pn : Bool} (hh : HasProps m pn)
    {method : String} (hm : method ≠ "edge-based") (pn' : Bool) (al : ℝ) (fa : Bool) (K : Mat) :
    addK0s K (calcK0 (translated m c) pn).1 pn' method al fa = addK0s K (calcK0 m pn).1 pn' method al fa :=
  k0s_translation hr hp hne hb hh (fun h => absurd h hm) pn' al fa K

/-- C46, as far as it holds: the edge-based increment is unchanged by a translation whose `y` and `z` components agree, or if the mesh has no
interior edge. For other translations it is false (`C46_false`). -/
theorem C46_translation_partial {m : Mesh} (hr : Reachable m) (hp : Proper m) (hne : m.nids ≠ []) {c : Vec3} (hb : BasicAlong m c) {pn : Bool} (hh : HasProps m pn)
    (hc : c.y = c.z ∨ ∀ k ∈ m.ekeys, (m.edge k).trias.length = 1) (pn' : Bool) (al : ℝ) (fa : Bool) (K : Mat) :
    addK0s K (calcK0 (translated m c) pn).1 pn' "edge-based" al fa = addK0s K (calcK0 m pn).1 pn' "edge-based" al fa :=
  k0s_translation hr hp hne hb hh (fun _ => hc) pn' al fa K

section
variable (p1 p2 p3 p4 q1 q2 : Lam)

theorem exMesh_along (c : Vec3) : BasicAlong (exMesh p1 p2 p3 p4 q1 q2) c := fun i hi => by
  rw [exMesh_cp p1 p2 p3 p4 q1 q2 i hi]; exact ⟨rfl, rfl⟩

/-- C70, concrete case: the square moved along `y` -/
example (K : Mat) : addK0s K (calcK0 (translated (exMesh p1 p2 p3 p4 q1 q2) ⟨0, 7, 0⟩) true).1 true "cell-based" 0.1 true =
    addK0s K (calcK0 (exMesh p1 p2 p3 p4 q1 q2) true).1 true "cell-based" 0.1 true :=
  C70_translation (exMesh_reachable ..) (exMesh_proper ..) (exMesh_ne p1 p2 p3 p4 q1 q2) (exMesh_along p1 p2 p3 p4 q1 q2 _) (exMesh_props ..) (by decide) true 0.1 true K

/-- C46, concrete case: the square moved along `x` -/
example (K : Mat) : addK0s K (calcK0 (translated (exMesh p1 p2 p3 p4 q1 q2) ⟨3, 0, 0⟩) true).1 true "edge-based" 0.1 true =
    addK0s K (calcK0 (exMesh p1 p2 p3 p4 q1 q2) true).1 true "edge-based" 0.1 true :=
  C46_translation_partial (exMesh_reachable ..) (exMesh_proper ..) (exMesh_ne p1 p2 p3 p4 q1 q2) (exMesh_along p1 p2 p3 p4 q1 q2 _) (exMesh_props ..) (Or.inl rfl) true 0.1 true K
end

theorem Shift.mean {c : Vec3} {m m' : Mesh} (h : Shift c m m') {l : List ℕ} (hl : l ≠ []) (hm : ∀ i ∈ l, i ∈ m.nids) :
    mean (nx m') l = mean (nx m) l + c.x ∧ mean (ny m') l = mean (ny m) l + c.y := by
  have hl' : (l.length : ℝ) ≠ 0 := by exact_mod_cast fun h0 => hl (List.length_eq_zero_iff.1 h0)
  have key : ∀ (f g : ℕ → ℝ) (d : ℝ), (∀ i ∈ l, f i = g i + d) → Spec.mean f l = Spec.mean g l + d := by
    intro f g d hf
    unfold Spec.mean
    rw [List.map_congr_left hf, List.sum_map_add, List.map_const', List.sum_replicate, nsmul_eq_mul]
    field_simp
  exact ⟨key _ _ _ fun i hi => by unfold nx; rw [h.xyz i (hm i hi)]; rfl, key _ _ _ fun i hi => by unfold ny; rw [h.xyz i (hm i hi)]; rfl⟩

theorem Shift.sarea3 {c : Vec3} {m m' : Mesh} (h : Shift c m m') {P Q R : List ℕ} (hP : P ≠ []) (hQ : Q ≠ []) (hR : R ≠ [])
    (iP : ∀ i ∈ P, i ∈ m.nids) (iQ : ∀ i ∈ Q, i ∈ m.nids) (iR : ∀ i ∈ R, i ∈ m.nids) : sarea m' [P, Q, R] = sarea m [P, Q, R] := by
  rw [Meshless.sarea3, Meshless.sarea3, (h.mean hP iP).1, (h.mean hP iP).2, (h.mean hQ iQ).1, (h.mean hQ iQ).2, (h.mean hR iR).1, (h.mean hR iR).2]
  ring

theorem translated_planar {m : Mesh} (w : WF m) (hp : Proper m) (hg : Planar m) {c : Vec3} (hb : BasicAlong m c) : Planar (translated m c) := by
  have h := translated_shift hb
  obtain ⟨_, _, _, h4⟩ := moves_spec (fun i => Vec3.add (m.node i).xyz c) m.nids m (fun i hi => hi)
  have hcor : ∀ t, t ∈ m.eids → ∀ i ∈ corners m t, i ∈ m.nids := by
    intro t ht i hi
    refine corner_mem w hp.distinct ht ?_
    simp only [corners, List.mem_cons, List.not_mem_nil, or_false] at hi
    exact hi
  have hcs : ∀ t, corners (translated m c) t = corners m t := by intro t; unfold corners; rw [h.tria]
  have hne : ∀ t, corners m t ≠ [] := by intro t; simp [corners]
  have sing : ∀ i, i ∈ m.nids → ∀ j ∈ [i], j ∈ m.nids := by intro i hi j hj; rw [List.mem_singleton.1 hj]; exact hi
  refine ⟨?_, ?_, ?_, ?_⟩
  · intro i hi
    rw [h.nids] at hi
    rw [(h4 i).2.1, (h4 i).1, if_pos hi]
    exact (hb i hi).2
  · intro i hi j hj
    rw [h.nids] at hi hj
    rw [h.xyz i hi, h.xyz j hj]
    exact congrArg (· + c.z) (hg.flat i hi j hj)
  · intro e he
    rw [h.eids] at he
    rw [h.tria, h.sarea3 (by simp) (by simp) (by simp) (sing _ (hcor e he _ (by simp [corners]))) (sing _ (hcor e he _ (by simp [corners])))
      (sing _ (hcor e he _ (by simp [corners])))]
    exact hg.nondeg e he
  · intro k hk t1 t2 htr
    rw [h.ekeys] at hk
    rw [h.trias] at htr
    have hends := w.ends k hk
    have hmem : ∀ t ∈ (m.edge k).trias, t ∈ m.eids := fun t ht => by
      rw [w.etrias k hk] at ht; exact (mem_sideTrias.1 ht).1
    rw [hcs, hcs, h.sarea3 (by simp) (by simp) (hne _) (sing _ hends.1) (sing _ hends.2) (hcor t1 (hmem t1 (by rw [htr]; simp))),
      h.sarea3 (by simp) (by simp) (hne _) (sing _ hends.1) (sing _ hends.2) (hcor t2 (hmem t2 (by rw [htr]; simp)))]
    exact hg.opposite k hk t1 t2 htr

/-! ### the square moved by `d` along `y` -/

/-- the data of the example mesh moved by `d` along `y` -/
structure ExGeo (n : Mesh) (d : ℝ) : Prop where
  nids : n.nids = [1, 2, 3, 4]
  ekeys : n.ekeys = [(1, 2), (2, 3), (1, 3), (3, 4), (1, 4)]
  a1 : (n.tria 1).n1 = 1
  a2 : (n.tria 1).n2 = 2
  a3 : (n.tria 1).n3 = 3
  b1 : (n.tria 2).n1 = 1
  b2 : (n.tria 2).n2 = 3
  b3 : (n.tria 2).n3 = 4
  x1 : (n.node 1).xyz = ⟨0, d, 0⟩
  x2 : (n.node 2).xyz = ⟨1, d, 0⟩
  x3 : (n.node 3).xyz = ⟨1, 1 + d, 0⟩
  x4 : (n.node 4).xyz = ⟨0, 1 + d, 0⟩
  e12 : (n.edge (1, 2)).trias = [1]
  e23 : (n.edge (2, 3)).trias = [1]
  e13 : (n.edge (1, 3)).trias = [1, 2]
  e34 : (n.edge (3, 4)).trias = [2]
  e14 : (n.edge (1, 4)).trias = [2]

section
variable {n : Mesh} {d : ℝ} (h : ExGeo n d)
include h

theorem ExGeo.ends13 : ends n (1, 3) 1 = (3, 1) := by
  unfold ends
  rw [if_pos]
  rw [sarea3]
  simp only [mean_single, mean_corners', h.a1, h.a2, h.a3, nx, ny, h.x1, h.x2, h.x3]
  norm_num
  ring_nf
  norm_num

theorem ExGeo.dom13 : |sarea n (dom n (1, 3))| = 1 / 3 := by
  rw [dom_i h.e13, sarea4, sarea3, sarea3]
  simp only [mean_single, mean_corners', h.a1, h.a2, h.a3, h.b1, h.b2, h.b3, nx, ny, h.x1, h.x2, h.x3, h.x4]
  rw [show (1 / 3 : ℝ) = |(1 / 3 : ℝ)| by norm_num]
  congr 1
  ring

theorem ExGeo.sub1 : sarea n [corners n 1, [3], [1]] = 1 / 6 := by
  rw [sarea3]
  simp only [mean_single, mean_corners', h.a1, h.a2, h.a3, nx, ny, h.x1, h.x2, h.x3]
  ring

theorem ExGeo.sub2 : sarea n [[3], corners n 2, [1]] = 1 / 6 := by
  rw [sarea3]
  simp only [mean_single, mean_corners', h.b1, h.b2, h.b3, nx, ny, h.x1, h.x4, h.x3]
  ring

/-- the strain `add_k0s` uses on the diagonal, for a field without rotations -/
theorem ExGeo.strain13 {z : ℕ → ℝ} (h3 : ∀ i, disp n z 3 i = 0) (h4 : ∀ i, disp n z 4 i = 0) :
    edgeGamma n (1, 3) z 0 + devGamma n (1, 3) z 0 =
      (disp n z 2 2 - disp n z 2 1) / 2 + (disp n z 2 3 - disp n z 2 4) / 2 + 3 * sixthErr * (disp n z 2 2 - disp n z 2 4)
        + 3 * (1 + d) * (disp n z 2 1 / 2 - 0.166666666666667 * (disp n z 2 1 + disp n z 2 2 + disp n z 2 3)) := by
  unfold edgeGamma devGamma
  rw [h.e13]
  dsimp only
  rw [h.ends13, h.dom13]
  dsimp only
  rw [h.sub1, h.sub2, abs_of_pos (by norm_num : (0 : ℝ) < 1 / 6)]
  simp only [dsg, gap, lit1, lit2, swap1, cSum, turned, h.sub1, h.sub2, Matrix.cons_val_zero, h3, h4]
  simp only [corners, h.a1, h.a2, h.a3, h.b1, h.b2, h.b3, nx, ny, h.x1, h.x2, h.x3, h.x4,
    List.map_cons, List.map_nil, List.sum_cons, List.sum_nil, mean, h3, h4, List.length_cons, List.length_nil, if_true]
  norm_num [h3]
  ring

theorem ExGeo.strain13' {z : ℕ → ℝ} (h3 : ∀ i, disp n z 3 i = 0) (h4 : ∀ i, disp n z 4 i = 0) :
    edgeGamma n (1, 3) z 1 + devGamma n (1, 3) z 1 =
      (disp n z 2 3 - disp n z 2 2) / 2 + (disp n z 2 4 - disp n z 2 1) / 2 + 3 * sixthErr * (disp n z 2 4 - disp n z 2 2) := by
  unfold edgeGamma devGamma
  rw [h.e13]
  dsimp only
  rw [h.ends13, h.dom13]
  dsimp only
  rw [h.sub1, h.sub2, abs_of_pos (by norm_num : (0 : ℝ) < 1 / 6)]
  simp only [dsg, gap, lit1, lit2, swap1, cSum, turned, h.sub1, h.sub2, Matrix.cons_val_one, Matrix.cons_val_zero, h3, h4]
  simp only [corners, h.a1, h.a2, h.a3, h.b1, h.b2, h.b3, nx, ny, h.x1, h.x2, h.x3, h.x4,
    List.map_cons, List.map_nil, List.sum_cons, List.sum_nil, mean, h3, h4, List.length_cons, List.length_nil]
  norm_num [h4]
  ring

/-- the smoothed strain of the diagonal, for a field without rotations -/
theorem ExGeo.gamma13 {z : ℕ → ℝ} (h3 : ∀ i, disp n z 3 i = 0) (h4 : ∀ i, disp n z 4 i = 0) :
    edgeGamma n (1, 3) z 0 = (disp n z 2 2 - disp n z 2 1) / 2 + (disp n z 2 3 - disp n z 2 4) / 2 ∧
    edgeGamma n (1, 3) z 1 = (disp n z 2 3 - disp n z 2 2) / 2 + (disp n z 2 4 - disp n z 2 1) / 2 := by
  unfold edgeGamma
  rw [h.e13]
  dsimp only
  rw [h.ends13, h.dom13]
  dsimp only
  rw [h.sub1, h.sub2, abs_of_pos (by norm_num : (0 : ℝ) < 1 / 6)]
  simp only [dsg, gap, h.sub1, h.sub2, Matrix.cons_val_one, Matrix.cons_val_zero]
  simp only [corners, h.a1, h.a2, h.a3, h.b1, h.b2, h.b3, nx, ny, h.x1, h.x2, h.x3, h.x4,
    List.map_cons, List.map_nil, List.sum_cons, List.sum_nil, mean, h3, h4, List.length_cons, List.length_nil]
  norm_num
  constructor <;> ring

/-- the diagonal's share of the entry between the deflections of nodes 2 and 4 -/
theorem ExGeo.energy13 {pn : Bool} (hm : ∀ r s, intMod n pn 0 true (1, 3) r s = if r = s then 1 else 0) :
    edgeEnergy n (1, 3) (edgeMod n pn 0 true (1, 3)) (fun z r => edgeGamma n (1, 3) z r + devGamma n (1, 3) z r) (single 7) (single 17)
      + edgeResid n (1, 3) (edgeMod n pn 0 true (1, 3)) (single 7) (single 17) =
    0.166666666666667 * (1 / 2 + 3 * sixthErr) * d - (1 / 2 + 3 * sixthErr) ^ 2 / 3 := by
  have h3 : ∀ i, disp n (single 7) 3 i = 0 := by intro i; unfold disp single; rw [if_neg (by omega)]
  have h4 : ∀ i, disp n (single 7) 4 i = 0 := by intro i; unfold disp single; rw [if_neg (by omega)]
  have g3 : ∀ i, disp n (single 17) 3 i = 0 := by intro i; unfold disp single; rw [if_neg (by omega)]
  have g4 : ∀ i, disp n (single 17) 4 i = 0 := by intro i; unfold disp single; rw [if_neg (by omega)]
  have hM : edgeMod n pn 0 true (1, 3) = fun r s => if r = s then 1 else 0 := by
    funext r s; unfold edgeMod; rw [h.e13, if_neg (by simp), hm]
  rw [hM]
  have r1 : residRho n (1, 3) (single 7) = 0 := by
    funext r; unfold residRho; rw [h.e13]; fin_cases r <;> simp [third, cSum, corners, h3, h4]
  have r2 : residEta n (1, 3) (single 7) = 0 := by
    funext r; unfold residEta; rw [h.e13]; rfl
  have hres : edgeResid n (1, 3) (fun r s => if r = s then 1 else 0) (single 7) (single 17) = 0 := by
    unfold edgeResid form2; rw [r1, r2]; simp
  rw [hres]
  unfold edgeEnergy form2
  rw [h.dom13]
  simp only [Fin.sum_univ_two]
  rw [h.strain13 h3 h4, h.strain13' h3 h4, h.strain13 g3 g4, h.strain13' g3 g4]
  simp only [disp, h.nids, single]
  norm_num [List.idxOf_cons, sixthErr]
  ring
end

theorem Shift.homog {c : Vec3} {m m' : Mesh} (h : Shift c m m') {pn : Bool} {l : Lam} (hl : Homog m pn l) : Homog m' pn l := by
  unfold Homog at hl ⊢
  simpa only [h.nids, h.eids, h.prop, h.tria] using hl

theorem edgeThick_homog {m : Mesh} (w : WF m) (hp : Proper m) (hg : Planar m) {pn : Bool} {l : Lam} (hl : Homog m pn l) (h0 : l.h ≠ 0) : EdgeThick m pn :=
  fun k hk => by rw [avg_const w hp hg hk (Homog_slot w hp hl)]; exact h0

theorem edgeStab_homog {m : Mesh} (w : WF m) (hp : Proper m) (hg : Planar m) {pn : Bool} {l : Lam} (hl : Homog m pn l) (h0 : l.h ≠ 0) {k : Key} (hk : k ∈ m.ekeys)
    (fa : Bool) : edgeStab m pn 0 fa k = 1 := by
  unfold edgeStab
  dsimp only
  rw [avg_const w hp hg hk (Homog_slot w hp hl), zero_mul, add_zero, div_self (pow_ne_zero 2 h0)]

theorem intMod_iso {m : Mesh} (w : WF m) (hp : Proper m) (hg : Planar m) {pn : Bool} (hl : Homog m pn exIso) {k : Key} (hk : k ∈ m.ekeys)
    (fa : Bool) (r s : Fin 2) : intMod m pn 0 fa k r s = if r = s then 1 else 0 := by
  unfold intMod
  rw [edgeStab_homog w hp hg hl (by norm_num [exIso, exLam]) hk]
  simp only [avg_const w hp hg hk (Homog_slot w hp hl)]
  fin_cases r <;> fin_cases s <;> norm_num [exIso, exLam]

theorem exGeo0 {pn : Bool} {p1 p2 p3 p4 q1 q2 : Lam} : ExGeo (calcK0 (exMesh p1 p2 p3 p4 q1 q2) pn).1 0 := by
  have hs := calcK0_static (exMesh p1 p2 p3 p4 q1 q2) pn (exMesh_reachable ..).wf
  refine ⟨by rw [hs.nids, exMesh_nids], by rw [hs.ekeys, exMesh_ekeys], ?_, ?_, ?_, ?_, ?_, ?_, ?_, ?_, ?_, ?_, ?_, ?_, ?_, ?_, ?_⟩
  · rw [hs.tria, exMesh_tria1]
  · rw [hs.tria, exMesh_tria1]
  · rw [hs.tria, exMesh_tria1]
  · rw [hs.tria, exMesh_tria2]
  · rw [hs.tria, exMesh_tria2]
  · rw [hs.tria, exMesh_tria2]
  · rw [hs.xyz, exMesh_node1]
  · rw [hs.xyz, exMesh_node2]
  · rw [hs.xyz, exMesh_node3, add_zero]
  · rw [hs.xyz, exMesh_node4, add_zero]
  · rw [hs.trias, exMesh_e12]
  · rw [hs.trias, exMesh_e23]
  · rw [hs.trias, exMesh_e13]
  · rw [hs.trias, exMesh_e34]
  · rw [hs.trias, exMesh_e14]

theorem ExGeo.shift {n n' : Mesh} {d : ℝ} (g : ExGeo n 0) (h : Shift ⟨0, d, 0⟩ n n') : ExGeo n' d := by
  refine ⟨by rw [h.nids, g.nids], by rw [h.ekeys, g.ekeys], by rw [h.tria, g.a1], by rw [h.tria, g.a2], by rw [h.tria, g.a3], by rw [h.tria, g.b1],
    by rw [h.tria, g.b2], by rw [h.tria, g.b3], ?_, ?_, ?_, ?_, by rw [h.trias, g.e12], by rw [h.trias, g.e23], by rw [h.trias, g.e13], by rw [h.trias, g.e34],
    by rw [h.trias, g.e14]⟩
  · rw [h.xyz 1 (by rw [g.nids]; simp), g.x1]; simp [Vec3.add]
  · rw [h.xyz 2 (by rw [g.nids]; simp), g.x2]; simp [Vec3.add]
  · rw [h.xyz 3 (by rw [g.nids]; simp), g.x3]; simp [Vec3.add]
  · rw [h.xyz 4 (by rw [g.nids]; simp), g.x4]; simp [Vec3.add]

/-- C46 is false: moving the plate by `(0, 1, 0)` changes the edge-based increment (line 160 of the source reads the `z` coordinate of the first
end node into `y1` on interior edges) -/
theorem C46_false : ∃ (m : Mesh) (c : Vec3) (K : Mat), Reachable m ∧ Proper m ∧ Planar m ∧ HasProps m true ∧ m.nids ≠ [] ∧ BasicAlong m c ∧ K.dim = 5 * m.nids.length ∧
    addK0s K (calcK0 (translated m c) true).1 true "edge-based" 0 true ≠ addK0s K (calcK0 m true).1 true "edge-based" 0 true := by
  refine ⟨exMesh exIso exIso exIso exIso exIso exIso, ⟨0, 1, 0⟩, Mat.zeros 20, exMesh_reachable .., exMesh_proper .., exMesh_planar .., exMesh_props .., ?_,
    exMesh_along _ _ _ _ _ _ _, by rw [exMesh_nids]; rfl, fun heq => ?_⟩
  · rw [exMesh_nids]; simp
  have hne := exMesh_ne exIso exIso exIso exIso exIso exIso
  have hal := exMesh_along exIso exIso exIso exIso exIso exIso ⟨0, 1, 0⟩
  obtain ⟨hsh, a0, a1, hp0, hs⟩ := moved_k0 (exMesh_reachable exIso exIso exIso exIso exIso exIso) (exMesh_proper ..) hne hal (exMesh_props _ _ _ _ _ _ true)
  have hg1 : Planar (calcK0 (translated (exMesh exIso exIso exIso exIso exIso exIso) ⟨0, 1, 0⟩) true).1 :=
    (calcK0_static _ true ((exMesh_reachable exIso exIso exIso exIso exIso exIso).run _).wf).planar
      (translated_planar (exMesh_reachable ..).wf (exMesh_proper ..) (exMesh_planar ..) hal)
  have hH0 : Homog (calcK0 (exMesh exIso exIso exIso exIso exIso exIso) true).1 true exIso := exAfter_Homog exIso true
  have hg0 := exAfter_planar exIso exIso exIso exIso exIso exIso
  have hh0 := exAfter_props exIso exIso exIso exIso exIso exIso true
  have g0 : ExGeo (calcK0 (exMesh exIso exIso exIso exIso exIso exIso) true).1 0 := exGeo0
  change Planar (calcK0 (exMesh exIso exIso exIso exIso exIso exIso) true).1 at hg0
  change HasProps (calcK0 (exMesh exIso exIso exIso exIso exIso exIso) true).1 true at hh0
  have g1 := g0.shift hsh
  generalize hn0 : (calcK0 (exMesh exIso exIso exIso exIso exIso exIso) true).1 = n0 at *
  generalize hn1 : (calcK0 (translated (exMesh exIso exIso exIso exIso exIso exIso) ⟨0, 1, 0⟩) true).1 = n1 at *
  have hp1 := hsh.proper hp0
  have hH1 := hsh.homog hH0
  have hh1 := hsh.hasProps hh0
  have t0 := edgeThick_homog a0.wf hp0 hg0 hH0 (by norm_num [exIso, exLam])
  have t1 := edgeThick_homog a1.wf hp1 hg1 hH1 (by norm_num [exIso, exLam])
  have d0 : (Mat.zeros 20).dim = 5 * n0.nids.length := by rw [g0.nids]; rfl
  have d1 : (Mat.zeros 20).dim = 5 * n1.nids.length := by rw [g1.nids]; rfl
  obtain ⟨K0, k0, -, -, f0⟩ := C69_energy_partial a0 hp0 hg0 hh0 t0 0 true d0
  obtain ⟨K1, k1, -, -, f1⟩ := C69_energy_partial a1 hp1 hg1 hh1 t1 0 true d1
  rw [k0, k1] at heq
  have hK : K1 = K0 := congrArg Prod.fst heq
  have e0 := f0 (single 7) (single 17)
  have e1 := f1 (single 7) (single 17)
  rw [hK, e0] at e1
  have hl : n1.nids.length = n0.nids.length := by rw [hsh.nids]
  have bnd : ∀ k ∈ n0.ekeys, (n0.edge k).trias.length = 1 →
      edgeEnergy n1 k (edgeMod n1 true 0 true k) (fun z r => edgeGamma n1 k z r + devGamma n1 k z r) (single 7) (single 17)
        + edgeResid n1 k (edgeMod n1 true 0 true k) (single 7) (single 17) =
      edgeEnergy n0 k (edgeMod n0 true 0 true k) (fun z r => edgeGamma n0 k z r + devGamma n0 k z r) (single 7) (single 17)
        + edgeResid n0 k (edgeMod n0 true 0 true k) (single 7) (single 17) := by
    intro k hk h1
    obtain ⟨es0, s0, -, b0⟩ := edgeSG_form a0.wf hp0 hg0 a0.prepared hh0 t0 0 true hk
    obtain ⟨es1, s1, -, b1⟩ := edgeSG_form a1.wf hp1 hg1 a1.prepared hh1 t1 0 true (k := k) (by rw [hsh.ekeys]; exact hk)
    have := hsh.edgeSG a0.wf a1.wf hp0 a0.prepared a1.prepared hk (Or.inr h1) true 0 true
    rw [s0, s1] at this
    injection this with this
    rw [← b0, ← b1, this, hl]
  rw [hsh.ekeys, g0.ekeys] at e1
  simp only [List.map_cons, List.map_nil, List.sum_cons, List.sum_nil] at e1
  have hmem : ∀ k, k ∈ [(1, 2), (2, 3), (1, 3), (3, 4), (1, 4)] → k ∈ n0.ekeys := fun k hk => by rw [g0.ekeys]; exact hk
  rw [bnd (1, 2) (hmem _ (by simp)) (by rw [g0.e12]; rfl), bnd (2, 3) (hmem _ (by simp)) (by rw [g0.e23]; rfl), bnd (3, 4) (hmem _ (by simp)) (by rw [g0.e34]; rfl),
    bnd (1, 4) (hmem _ (by simp)) (by rw [g0.e14]; rfl),
    g0.energy13 (intMod_iso a0.wf hp0 hg0 hH0 (hmem _ (by simp)) true), g1.energy13 (intMod_iso a1.wf hp1 hg1 hH1 (by rw [g1.ekeys]; simp) true)] at e1
  have : (0.166666666666667 : ℝ) * (1 / 2 + 3 * sixthErr) = 0 := by linarith
  norm_num [sixthErr] at this

/-! ### C69: the deviation is not only rounding -/

/-- a field that vanishes on the triangle of a boundary edge has no strain there -/
theorem bnd_zero {m : Mesh} {k : Key} {t : ℕ} (htr : (m.edge k).trias = [t]) (h1 : k.1 ∈ corners m t) (h2 : k.2 ∈ corners m t) {z : ℕ → ℝ}
    (hz : ∀ r < 5, ∀ i ∈ corners m t, disp m z r i = 0) :
    (∀ r, edgeGamma m k z r = 0) ∧ (∀ r, devGamma m k z r = 0) ∧ (∀ r, residRho m k z r = 0) ∧ (∀ r, residEta m k z r = 0) ∧ (∀ r, residKappa m k z r = 0) := by
  have he : (ends m k t).1 ∈ corners m t ∧ (ends m k t).2 ∈ corners m t := by
    unfold ends; split
    · exact ⟨h2, h1⟩
    · exact ⟨h1, h2⟩
  have hc : ∀ r < 5, cSum m t z r = 0 := by
    intro r hr; unfold cSum
    rw [List.map_congr_left (hz r hr)]; simp
  have hmean : ∀ r < 5, mean (disp m z r) (corners m t) = 0 := by
    intro r hr; unfold mean
    rw [List.map_congr_left (hz r hr)]; simp
  have ht : ∀ r < 5, third m k t z r = 0 := by intro r hr; unfold third; rw [hc r hr, hz r hr _ h1, hz r hr _ h2]; ring
  have g : ∀ i ∈ corners m t, gap m z (corners m t) [i] = 0 := by
    intro i hi
    unfold gap; simp only [mean_single, hmean 2 (by norm_num), hmean 3 (by norm_num), hmean 4 (by norm_num), hz 2 (by norm_num) i hi, hz 3 (by norm_num) i hi, hz 4 (by norm_num) i hi]; ring
  refine ⟨fun r => ?_, fun r => ?_, fun r => ?_, fun r => ?_, fun r => ?_⟩
  · unfold edgeGamma; rw [htr]; dsimp only; unfold dsg
    rw [g _ he.1, g _ he.2]; fin_cases r <;> simp
  · unfold devGamma; rw [htr]; simp only [lit1]
    rw [hc _ (by omega), hc 2 (by norm_num)]; ring
  · unfold residRho; rw [htr]; exact ht _ (by omega)
  · unfold residEta; rw [htr]; dsimp only
    rw [hz 4 (by norm_num) _ he.1, hz 4 (by norm_num) _ he.2, hz 3 (by norm_num) _ he.1, hz 3 (by norm_num) _ he.2]; simp
  · unfold residKappa; rw [htr]; dsimp only
    rw [ht _ (by omega), ht 2 (by norm_num)]; ring

theorem form2_zero_right (E : Fin 2 → Fin 2 → ℝ) (x : Fin 2 → ℝ) {y : Fin 2 → ℝ} (h : ∀ r, y r = 0) : form2 E x y = 0 := by unfold form2; simp [h]
theorem form2_zero_left (E : Fin 2 → Fin 2 → ℝ) {x : Fin 2 → ℝ} (y : Fin 2 → ℝ) (h : ∀ r, x r = 0) : form2 E x y = 0 := by unfold form2; simp [h]

theorem bnd_zero_terms {m : Mesh} {k : Key} {t : ℕ} (htr : (m.edge k).trias = [t]) (h1 : k.1 ∈ corners m t) (h2 : k.2 ∈ corners m t) (E : Fin 2 → Fin 2 → ℝ) {v u : ℕ → ℝ}
    (hz : (∀ r < 5, ∀ i ∈ corners m t, disp m v r i = 0) ∨ ∀ r < 5, ∀ i ∈ corners m t, disp m u r i = 0) :
    edgeEnergy m k E (fun z r => edgeGamma m k z r + devGamma m k z r) v u = 0 ∧ edgeResid m k E v u = 0 ∧ edgeEnergy m k E (edgeGamma m k) v u = 0 := by
  unfold edgeEnergy edgeResid
  rcases hz with hz | hz
  · obtain ⟨a, b, c, d, e⟩ := bnd_zero htr h1 h2 hz
    refine ⟨?_, ?_, ?_⟩
    · rw [form2_zero_left]; · ring
      intro r; show _ + _ = (0 : ℝ); rw [a, b, add_zero]
    · rw [form2_zero_left _ _ c, form2_zero_left _ _ d, add_zero]
    · rw [form2_zero_left _ _ a, mul_zero]
  · obtain ⟨a, b, c, d, e⟩ := bnd_zero htr h1 h2 hz
    refine ⟨?_, ?_, ?_⟩
    · rw [form2_zero_right]; · ring
      intro r; show _ + _ = (0 : ℝ); rw [a, b, add_zero]
    · rw [form2_zero_right _ _ c, form2_zero_right, add_zero]
      intro r; rw [d, e, add_zero]
    · rw [form2_zero_right _ _ a, mul_zero]

/-- C69 without the deviations is false, and by far more than rounding: on a unit square of two isotropic triangles an entry of the increment
differs by more than `0.05` from the energy of the smoothed strains (whose value is `-1/6`) -/
theorem C69_false : ∃ (m : Mesh) (K : Mat) (v u : ℕ → ℝ), AfterK0 m ∧ Proper m ∧ Planar m ∧ HasProps m true ∧ EdgeThick m true ∧ K.dim = 5 * m.nids.length ∧
    0.05 < |form K.dim (fun i j => (addK0s K m true "edge-based" 0 true).1.get i j - K.get i j) v u
      - (m.ekeys.map fun k => edgeEnergy m k (edgeMod m true 0 true k) (edgeGamma m k) v u).sum| := by
  have a0 := exAfter_after exIso exIso exIso exIso exIso exIso
  have hp0 := exAfter_proper exIso exIso exIso exIso exIso exIso
  have hg0 := exAfter_planar exIso exIso exIso exIso exIso exIso
  have hh0 := exAfter_props exIso exIso exIso exIso exIso exIso true
  have hH0 := exAfter_Homog exIso true
  have g0 : ExGeo (exAfter exIso exIso exIso exIso exIso exIso) 0 := exGeo0
  have t0 := edgeThick_homog a0.wf hp0 hg0 hH0 (by norm_num [exIso, exLam])
  generalize exAfter exIso exIso exIso exIso exIso exIso = n at *
  have d0 : (Mat.zeros 20).dim = 5 * n.nids.length := by rw [g0.nids]; rfl
  refine ⟨n, Mat.zeros 20, single 7, single 17, a0, hp0, hg0, hh0, t0, d0, ?_⟩
  obtain ⟨K0, k0, -, -, f0⟩ := C69_energy_partial a0 hp0 hg0 hh0 t0 0 true d0
  rw [k0]
  dsimp only
  rw [f0, g0.ekeys]
  have z7 : ∀ r < 5, ∀ i ∈ corners n 2, disp n (single 7) r i = 0 := by
    intro r hr i hi
    unfold corners at hi
    rw [g0.b1, g0.b2, g0.b3] at hi
    simp only [List.mem_cons, List.not_mem_nil, or_false] at hi
    unfold disp single
    rw [g0.nids]
    rcases hi with rfl | rfl | rfl <;> simp <;> omega
  have z17 : ∀ r < 5, ∀ i ∈ corners n 1, disp n (single 17) r i = 0 := by
    intro r hr i hi
    unfold corners at hi
    rw [g0.a1, g0.a2, g0.a3] at hi
    simp only [List.mem_cons, List.not_mem_nil, or_false] at hi
    unfold disp single
    rw [g0.nids]
    rcases hi with rfl | rfl | rfl <;> simp <;> omega
  have c1 : corners n 1 = [1, 2, 3] := by unfold corners; rw [g0.a1, g0.a2, g0.a3]
  have c2 : corners n 2 = [1, 3, 4] := by unfold corners; rw [g0.b1, g0.b2, g0.b3]
  obtain ⟨p1, p2, p3⟩ := bnd_zero_terms g0.e12 (by rw [c1]; simp) (by rw [c1]; simp) (edgeMod n true 0 true (1, 2)) (v := single 7) (Or.inr z17)
  obtain ⟨q1, q2, q3⟩ := bnd_zero_terms g0.e23 (by rw [c1]; simp) (by rw [c1]; simp) (edgeMod n true 0 true (2, 3)) (v := single 7) (Or.inr z17)
  obtain ⟨r1, r2, r3⟩ := bnd_zero_terms g0.e34 (by rw [c2]; simp) (by rw [c2]; simp) (edgeMod n true 0 true (3, 4)) (u := single 17) (Or.inl z7)
  obtain ⟨s1, s2, s3⟩ := bnd_zero_terms g0.e14 (by rw [c2]; simp) (by rw [c2]; simp) (edgeMod n true 0 true (1, 4)) (u := single 17) (Or.inl z7)
  simp only [List.map_cons, List.map_nil, List.sum_cons, List.sum_nil]
  have hI := intMod_iso a0.wf hp0 hg0 hH0 (k := (1, 3)) (by rw [g0.ekeys]; simp) true
  rw [p1, p2, p3, q1, q2, q3, r1, r2, r3, s1, s2, s3, g0.energy13 hI]
  have hM : edgeMod n true 0 true (1, 3) = fun r s => if r = s then 1 else 0 := by
    funext r s; unfold edgeMod; rw [g0.e13, if_neg (by simp), hI]
  have h3 : ∀ i, disp n (single 7) 3 i = 0 := by intro i; unfold disp single; rw [if_neg (by omega)]
  have h4 : ∀ i, disp n (single 7) 4 i = 0 := by intro i; unfold disp single; rw [if_neg (by omega)]
  have g3 : ∀ i, disp n (single 17) 3 i = 0 := by intro i; unfold disp single; rw [if_neg (by omega)]
  have g4 : ∀ i, disp n (single 17) 4 i = 0 := by intro i; unfold disp single; rw [if_neg (by omega)]
  rw [hM]
  unfold edgeEnergy form2
  rw [g0.dom13]
  simp only [Fin.sum_univ_two]
  rw [(g0.gamma13 h3 h4).1, (g0.gamma13 h3 h4).2, (g0.gamma13 g3 g4).1, (g0.gamma13 g3 g4).2]
  simp only [disp, g0.nids, single]
  norm_num [List.idxOf_cons, sixthErr, abs_of_pos]

/-! ### C71: rigid rotations -/

/-- on a boundary edge a rigid rotation `w = c + p x + q y`, `phix = -p`, `phiy = -q` has the strain
`-10^-15 * ((p, q) + t * w(G) / A)` with `t` the edge turned by a right angle, `G` the centroid of the triangle and `A` the area of the domain.
On interior edges it is not small (`C71_false`). -/
theorem rigid_bnd_strain {m : Mesh} (ha : AfterK0 m) (hp : Proper m) (hg : Planar m) {z : ℕ → ℝ} {c p q : ℝ}
    (hw : ∀ i ∈ m.nids, disp m z 2 i = c + p * nx m i + q * ny m i) (hx : ∀ i ∈ m.nids, disp m z 3 i = -p) (hy : ∀ i ∈ m.nids, disp m z 4 i = -q)
    {k : Key} (hk : k ∈ m.ekeys) {t : ℕ} (htr : (m.edge k).trias = [t]) :
    edgeGamma m k z 0 + devGamma m k z 0 = -(1 / 10 ^ 15) * (p + turned m (ends m k t).1 (ends m k t).2 0 *
      (c + p * mean (nx m) (corners m t) + q * mean (ny m) (corners m t)) / |sarea m (dom m k)|) ∧
    edgeGamma m k z 1 + devGamma m k z 1 = -(1 / 10 ^ 15) * (q + turned m (ends m k t).1 (ends m k t).2 1 *
      (c + p * mean (nx m) (corners m t) + q * mean (ny m) (corners m t)) / |sarea m (dom m k)|) := by
  have w := ha.wf
  obtain ⟨g0, g1⟩ := edgeGamma_patch ha hp hg hw hx hy hk
  rw [g0, g1]
  rcases prepared_shape w hp ha.prepared hk with ⟨t', o, he, hs⟩ | ⟨t1, t2, o1, o2, he, hs1, hs2, ho, _⟩
  · have htr' : (m.edge k).trias = [t'] := by rw [he]; rfl
    rw [htr] at htr'
    obtain rfl : t = t' := by injection htr'
    have hA := triArea_side hs
    have hA0 : triArea m t ≠ 0 := abs_ne_zero.2 (hg.nondeg t hs.mem)
    have hS0 : sarea m [[k.1], [k.2], corners m t] ≠ 0 := by intro h; rw [h, abs_zero] at hA; exact hA0 (by linarith)
    obtain ⟨e1, e2, e3, _⟩ := ends_spec hs hS0
    have hD : |sarea m (dom m k)| = |sarea m [corners m t, [(ends m k t).1], [(ends m k t).2]]| := by
      rw [dom_b htr]
      rcases e3 with h | h
      · rw [show (ends m k t).1 = k.1 from congrArg Prod.fst h, show (ends m k t).2 = k.2 from congrArg Prod.snd h, ← abs_neg]
        congr 1; rw [sarea3, sarea3]; ring
      · rw [show (ends m k t).2 = k.1 from congrArg Prod.fst h, show (ends m k t).1 = k.2 from congrArg Prod.snd h]
        congr 1; rw [sarea3, sarea3]; ring
    have hA' : |sarea m (dom m k)| ≠ 0 := by rw [hD]; exact abs_ne_zero.2 e2.ne'
    have hcor : ∀ i ∈ corners m t, i ∈ m.nids := by
      intro i hi
      refine corner_mem w hp.distinct hs.mem ?_
      simp only [corners, List.mem_cons, List.not_mem_nil, or_false] at hi
      exact hi
    have i1 := hcor (m.tria t).n1 (by simp [corners])
    have i2 := hcor (m.tria t).n2 (by simp [corners])
    have i3 := hcor (m.tria t).n3 (by simp [corners])
    have s2 : cSum m t z 2 = 3 * (c + p * mean (nx m) (corners m t) + q * mean (ny m) (corners m t)) := by
      rw [mean_corners', mean_corners']
      simp only [cSum, corners, List.map_cons, List.map_nil, List.sum_cons, List.sum_nil, hw _ i1, hw _ i2, hw _ i3]
      ring
    have s3 : cSum m t z (3 + (0 : Fin 2).val) = 3 * -p := by
      simp only [cSum, corners, List.map_cons, List.map_nil, List.sum_cons, List.sum_nil, Fin.val_zero, add_zero, hx _ i1, hx _ i2, hx _ i3]
      ring
    have s4 : cSum m t z (3 + (1 : Fin 2).val) = 3 * -q := by
      simp only [cSum, corners, List.map_cons, List.map_nil, List.sum_cons, List.sum_nil, Fin.val_one, Nat.reduceAdd, hy _ i1, hy _ i2, hy _ i3]
      ring
    unfold devGamma lit1
    rw [htr]
    dsimp only
    rw [← hD, s2, s3, s4, edge_literals.1]
    constructor <;> field_simp <;> ring
  · rw [he] at htr; cases htr

/-- deflection `x` with rotation `-1` of the square's nodes -/
noncomputable def exTilt (j : ℕ) : ℝ := if j = 7 ∨ j = 12 then 1 else if j % 5 = 3 then -1 else 0

/-! ### C47: moduli -/

/-- with one laminate everywhere a boundary and an interior edge of the same characteristic length use the same moduli exactly
if the laminate satisfies three conditions, e.g. if `k13 = k23` and `E[0,1] = 0`. -/
theorem moduli_iff {m : Mesh} (ha : AfterK0 m) (hp : Proper m) (hg : Planar m) {pn : Bool} {l : Lam} (hl : Homog m pn l) (h0 : l.h ≠ 0) {al : ℝ} (hal : 0 ≤ al)
    (fa : Bool) {kb ki : Key} (hb : kb ∈ m.ekeys) (hi : ki ∈ m.ekeys) (htb : (m.edge kb).trias.length = 1) (hti : (m.edge ki).trias.length = 2)
    (hc : edgeCharLen m fa kb = edgeCharLen m fa ki) :
    (∀ r s, edgeMod m pn al fa kb r s = edgeMod m pn al fa ki r s) ↔
      l.k23 * l.E 0 0 = l.k13 * l.E 0 0 ∧ l.k13 * l.E 1 1 = l.k23 * l.E 1 1 ∧ min l.k13 l.k23 * l.E 0 1 = 0 := by
  have w := ha.wf
  have hs : edgeStab m pn al fa kb = edgeStab m pn al fa ki := by
    unfold edgeStab
    dsimp only
    rw [avg_const w hp hg hb (Homog_slot w hp hl), avg_const w hp hg hi (Homog_slot w hp hl), hc]
  have hpos : edgeStab m pn al fa ki ≠ 0 := by
    unfold edgeStab
    dsimp only
    rw [avg_const w hp hg hi (Homog_slot w hp hl)]
    have : 0 < l.h ^ 2 := by positivity
    have : 0 < l.h ^ 2 + al * edgeCharLen m fa ki ^ 2 := by positivity
    positivity
  have e : ∀ r s, edgeMod m pn al fa kb r s = edgeMod m pn al fa ki r s ↔
      (if r = s then (if r = 0 then l.k23 * l.E 0 0 else l.k13 * l.E 1 1) else 0) =
      (if r = s then (if r = 0 then l.k13 * l.E 0 0 else l.k23 * l.E 1 1) else min l.k13 l.k23 * l.E 0 1) := by
    intro r s
    unfold edgeMod
    rw [if_pos htb, if_neg (by omega)]
    unfold bndMod intMod
    simp only [avg_const w hp hg hb (Homog_slot w hp hl), avg_const w hp hg hi (Homog_slot w hp hl), hs]
    exact mul_right_inj' hpos
  simp only [e]
  constructor
  · intro h
    have h1 := h 0 0
    have h2 := h 1 1
    have h3 := h 0 1
    simp only [if_true, Fin.isValue, one_ne_zero, zero_ne_one, if_false] at h1 h2 h3
    exact ⟨h1, h2, h3.symm⟩
  · rintro ⟨h1, h2, h3⟩ r s
    fin_cases r <;> fin_cases s <;> simp [h1, h2, h3]

/-- concrete case: on the square with `alpha = 0` an isotropic laminate has the same moduli on a side and on the diagonal -/
example (fa : Bool) (r s : Fin 2) : edgeMod (exAfter exIso exIso exIso exIso exIso exIso) true 0 fa (1, 2) r s = (if r = s then 1 else 0) ∧
    edgeMod (exAfter exIso exIso exIso exIso exIso exIso) true 0 fa (1, 3) r s = (if r = s then 1 else 0) := by
  have a0 := exAfter_after exIso exIso exIso exIso exIso exIso
  have hp0 := exAfter_proper exIso exIso exIso exIso exIso exIso
  have hg0 := exAfter_planar exIso exIso exIso exIso exIso exIso
  have hH0 := exAfter_Homog exIso true
  have g0 : ExGeo (exAfter exIso exIso exIso exIso exIso exIso) 0 := exGeo0
  generalize exAfter exIso exIso exIso exIso exIso exIso = n at *
  have hk : (1, 2) ∈ n.ekeys := by rw [g0.ekeys]; simp
  have hk' : (1, 3) ∈ n.ekeys := by rw [g0.ekeys]; simp
  have e1 : edgeMod n true 0 fa (1, 3) r s = intMod n true 0 fa (1, 3) r s := by unfold edgeMod; exact if_neg (by rw [g0.e13]; simp)
  have e2 : edgeMod n true 0 fa (1, 2) r s = bndMod n true 0 fa (1, 2) r s := by unfold edgeMod; exact if_pos (by rw [g0.e12]; rfl)
  rw [e1, e2, intMod_iso a0.wf hp0 hg0 hH0 hk']
  refine ⟨?_, rfl⟩
  unfold bndMod
  rw [edgeStab_homog a0.wf hp0 hg0 hH0 (by norm_num [exIso, exLam]) hk]
  simp only [avg_const a0.wf hp0 hg0 hk (Homog_slot a0.wf hp0 hH0)]
  fin_cases r <;> fin_cases s <;> norm_num [exIso, exLam]

/-! ### C48: symmetry -/

theorem form2_comm {E : Fin 2 → Fin 2 → ℝ} (h : ∀ r s, E r s = E s r) (x y : Fin 2 → ℝ) : form2 E x y = form2 E y x := by
  unfold form2
  simp only [Fin.sum_univ_two, h 1 0]
  ring

theorem edgeMod_comm (m : Mesh) (pn : Bool) (al : ℝ) (fa : Bool) (k : Key) (r s : Fin 2) : edgeMod m pn al fa k r s = edgeMod m pn al fa k s r := by
  unfold edgeMod
  split
  · fin_cases r <;> fin_cases s <;> rfl
  · fin_cases r <;> fin_cases s <;> rfl

/-- C48, as far as it holds: the asymmetry of the edge-based increment is exactly that of the rounding terms `edgeResid`. It is not zero (`C48_false`). -/
theorem C48_defect_partial {m : Mesh} (ha : AfterK0 m) (hp : Proper m) (hg : Planar m) {pn : Bool} (hh : HasProps m pn) (ht : EdgeThick m pn) (al : ℝ) (fa : Bool)
    {K : Mat} (hK : K.dim = 5 * m.nids.length) {i j : ℕ} (hi : i < K.dim) (hj : j < K.dim) :
    ((addK0s K m pn "edge-based" al fa).1.get i j - K.get i j) - ((addK0s K m pn "edge-based" al fa).1.get j i - K.get j i) =
      (m.ekeys.map fun k => edgeResid m k (edgeMod m pn al fa k) (single i) (single j) - edgeResid m k (edgeMod m pn al fa k) (single j) (single i)).sum := by
  obtain ⟨K', h1, -, -, h4⟩ := C69_energy_partial ha hp hg hh ht al fa hK
  have e1 := h4 (single i) (single j)
  have e2 := h4 (single j) (single i)
  rw [form_single _ hi hj] at e1
  rw [form_single _ hj hi] at e2
  rw [h1]
  dsimp only
  rw [e1, e2]
  have hsub : ∀ (L : List Key) (f g : Key → ℝ), (L.map f).sum - (L.map g).sum = (L.map fun k => f k - g k).sum := by
    intro L f g
    induction L with
    | nil => simp
    | cons a L ih => simp only [List.map_cons, List.sum_cons]; linarith
  rw [hsub]
  congr 1
  refine List.map_congr_left fun k _ => ?_
  unfold edgeEnergy
  rw [form2_comm (edgeMod_comm m pn al fa k)]
  ring

/-- C48: between deflections the edge-based increment is exactly symmetric -/
theorem C48_deflections_partial {m : Mesh} (ha : AfterK0 m) (hp : Proper m) (hg : Planar m) {pn : Bool} (hh : HasProps m pn) (ht : EdgeThick m pn) (al : ℝ) (fa : Bool)
    {K : Mat} (hK : K.dim = 5 * m.nids.length) {a b : ℕ} (hi : a < m.nids.length) (hj : b < m.nids.length) :
    (addK0s K m pn "edge-based" al fa).1.get (5 * a + 2) (5 * b + 2) - K.get (5 * a + 2) (5 * b + 2) =
      (addK0s K m pn "edge-based" al fa).1.get (5 * b + 2) (5 * a + 2) - K.get (5 * b + 2) (5 * a + 2) := by
  have h := C48_defect_partial ha hp hg hh ht al fa hK (i := 5 * a + 2) (j := 5 * b + 2) (by omega) (by omega)
  have z : ∀ (c : ℕ) (r : Fin 2) (i : ℕ), disp m (single (5 * c + 2)) (3 + r.val) i = 0 := by
    intro c r i; unfold disp single; rw [if_neg (by omega)]
  have z3 : ∀ (c : ℕ) (i : ℕ), disp m (single (5 * c + 2)) 3 i = 0 := fun c i => z c 0 i
  have z4 : ∀ (c : ℕ) (i : ℕ), disp m (single (5 * c + 2)) 4 i = 0 := fun c i => z c 1 i
  have ht3 : ∀ (c : ℕ) (k : Key) (t : ℕ) (r : Fin 2), third m k t (single (5 * c + 2)) (3 + r.val) = 0 := by
    intro c k t r; unfold third cSum corners; simp [z]
  have hrho : ∀ (c : ℕ) (k : Key) (r : Fin 2), residRho m k (single (5 * c + 2)) r = 0 := by
    intro c k r; unfold residRho; split <;> simp [ht3]
  have heta : ∀ (c : ℕ) (k : Key) (r : Fin 2), residEta m k (single (5 * c + 2)) r = 0 := by
    intro c k r; unfold residEta; split <;> simp [z3, z4]
  have hres : ∀ (c d : ℕ) (k : Key) (E : Fin 2 → Fin 2 → ℝ), edgeResid m k E (single (5 * c + 2)) (single (5 * d + 2)) = 0 := by
    intro c d k E
    unfold edgeResid
    rw [form2_zero_left _ _ (hrho c k), form2_zero_left _ _ (heta c k), add_zero]
  simp only [hres, sub_zero] at h
  rw [List.sum_eq_zero (by intro x hx; obtain ⟨_, _, rfl⟩ := List.mem_map.1 hx; rfl)] at h
  linarith

example (p1 p2 p3 p4 q1 q2 : Lam) (K : Mat) (hK : K.dim = 20) (ht : EdgeThick (exAfter p1 p2 p3 p4 q1 q2) true) :
    (addK0s K (exAfter p1 p2 p3 p4 q1 q2) true "edge-based" 0.1 true).1.get 2 7 - K.get 2 7 =
    (addK0s K (exAfter p1 p2 p3 p4 q1 q2) true "edge-based" 0.1 true).1.get 7 2 - K.get 7 2 := by
  have h := C48_deflections_partial (exAfter_after ..) (exAfter_proper ..) (exAfter_planar ..) (exAfter_props ..) ht 0.1 true (K := K) (by rw [exAfter_nids]; exact hK)
    (a := 0) (b := 1) (by rw [exAfter_nids]; simp) (by rw [exAfter_nids]; simp)
  rw [show 5 * 0 + 2 = 2 from rfl, show 5 * 1 + 2 = 7 from rfl] at h
  exact h

/-- C48 is false: on the unit square the entries (rotation of node 2, deflection of node 4) and (deflection of node 4, rotation of node 2) differ -/
theorem C48_false : ∃ (m : Mesh) (K : Mat), AfterK0 m ∧ Proper m ∧ Planar m ∧ HasProps m true ∧ EdgeThick m true ∧ K.dim = 5 * m.nids.length ∧
    (∀ i j, K.get i j = 0) ∧ (addK0s K m true "edge-based" 0 true).1.get 8 17 ≠ (addK0s K m true "edge-based" 0 true).1.get 17 8 := by
  have a0 := exAfter_after exIso exIso exIso exIso exIso exIso
  have hp0 := exAfter_proper exIso exIso exIso exIso exIso exIso
  have hg0 := exAfter_planar exIso exIso exIso exIso exIso exIso
  have hh0 := exAfter_props exIso exIso exIso exIso exIso exIso true
  have hH0 := exAfter_Homog exIso true
  have g0 : ExGeo (exAfter exIso exIso exIso exIso exIso exIso) 0 := exGeo0
  have t0 := edgeThick_homog a0.wf hp0 hg0 hH0 (by norm_num [exIso, exLam])
  generalize exAfter exIso exIso exIso exIso exIso exIso = n at *
  have d0 : (Mat.zeros 20).dim = 5 * n.nids.length := by rw [g0.nids]; rfl
  refine ⟨n, Mat.zeros 20, a0, hp0, hg0, hh0, t0, d0, fun i j => rfl, fun heq => ?_⟩
  have h := C48_defect_partial a0 hp0 hg0 hh0 t0 0 true d0 (i := 8) (j := 17) (by decide) (by decide)
  rw [heq] at h
  have z8 : ∀ r < 5, ∀ i ∈ corners n 2, disp n (single 8) r i = 0 := by
    intro r hr i hi
    unfold corners at hi
    rw [g0.b1, g0.b2, g0.b3] at hi
    simp only [List.mem_cons, List.not_mem_nil, or_false] at hi
    unfold disp single
    rw [g0.nids]
    rcases hi with rfl | rfl | rfl <;> simp <;> omega
  have z17 : ∀ r < 5, ∀ i ∈ corners n 1, disp n (single 17) r i = 0 := by
    intro r hr i hi
    unfold corners at hi
    rw [g0.a1, g0.a2, g0.a3] at hi
    simp only [List.mem_cons, List.not_mem_nil, or_false] at hi
    unfold disp single
    rw [g0.nids]
    rcases hi with rfl | rfl | rfl <;> simp <;> omega
  have c1 : corners n 1 = [1, 2, 3] := by unfold corners; rw [g0.a1, g0.a2, g0.a3]
  have c2 : corners n 2 = [1, 3, 4] := by unfold corners; rw [g0.b1, g0.b2, g0.b3]
  have b12 := (bnd_zero_terms g0.e12 (by rw [c1]; simp) (by rw [c1]; simp) (edgeMod n true 0 true (1, 2)) (v := single 8) (Or.inr z17)).2.1
  have b23 := (bnd_zero_terms g0.e23 (by rw [c1]; simp) (by rw [c1]; simp) (edgeMod n true 0 true (2, 3)) (v := single 8) (Or.inr z17)).2.1
  have b34 := (bnd_zero_terms g0.e34 (by rw [c2]; simp) (by rw [c2]; simp) (edgeMod n true 0 true (3, 4)) (u := single 17) (Or.inl z8)).2.1
  have b14 := (bnd_zero_terms g0.e14 (by rw [c2]; simp) (by rw [c2]; simp) (edgeMod n true 0 true (1, 4)) (u := single 17) (Or.inl z8)).2.1
  have f12 := (bnd_zero_terms g0.e12 (by rw [c1]; simp) (by rw [c1]; simp) (edgeMod n true 0 true (1, 2)) (u := single 8) (Or.inl z17)).2.1
  have f23 := (bnd_zero_terms g0.e23 (by rw [c1]; simp) (by rw [c1]; simp) (edgeMod n true 0 true (2, 3)) (u := single 8) (Or.inl z17)).2.1
  have f34 := (bnd_zero_terms g0.e34 (by rw [c2]; simp) (by rw [c2]; simp) (edgeMod n true 0 true (3, 4)) (v := single 17) (Or.inr z8)).2.1
  have f14 := (bnd_zero_terms g0.e14 (by rw [c2]; simp) (by rw [c2]; simp) (edgeMod n true 0 true (1, 4)) (v := single 17) (Or.inr z8)).2.1
  rw [g0.ekeys] at h
  simp only [List.map_cons, List.map_nil, List.sum_cons, List.sum_nil, b12, b23, b34, b14, f12, f23, f34, f14] at h
  have hM : edgeMod n true 0 true (1, 3) = fun r s => if r = s then 1 else 0 := by
    funext r s; unfold edgeMod; rw [g0.e13, if_neg (by simp), intMod_iso a0.wf hp0 hg0 hH0 (by rw [g0.ekeys]; simp)]
  rw [hM] at h
  simp only [edgeResid, form2, Fin.sum_univ_two, residRho, residEta, residKappa, g0.e13, g0.ends13, g0.dom13, third, cSum, c1, c2, List.map_cons, List.map_nil,
    List.sum_cons, List.sum_nil, turned, disp, g0.nids, single, nx, ny, g0.x1, g0.x3, sqErr] at h
  norm_num [List.idxOf_cons, Mat.zeros] at h
  have hA := g0.sub1
  rw [c1, h] at hA
  norm_num at hA

end Meshless
