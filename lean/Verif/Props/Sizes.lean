import Verif.Lemmas.KGSize
import Verif.Props.Order

/-! C115 and C116: displacement vectors of the wrong length, matrices of the wrong size. -/

set_option autoImplicit false

namespace Meshless
open Spec

/-- a side of the triangle that ends at the corner `p` -/
theorem WF.side_at {m : Mesh} (w : WF m) {e p : ℕ} (he : e ∈ m.eids) (hp : IsCorner m e p) : ∃ k ∈ m.ekeys, p = k.1 ∨ p = k.2 := by
  have side : ∀ a b : ℕ, sortPair a b ∈ (m.tria e).edgeIds → p = a ∨ p = b → ∃ k ∈ m.ekeys, p = k.1 ∨ p = k.2 := by
    intro a b hs hab
    refine ⟨_, (w.mem_ekeys _).2 ⟨e, he, hs⟩, ?_⟩
    unfold sortPair
    split <;> simp only <;> tauto
  unfold IsCorner at hp
  rcases hp with h | h | h
  · exact side (m.tria e).n1 (m.tria e).n2 (by simp [Tria.edgeIds]) (by tauto)
  · exact side (m.tria e).n1 (m.tria e).n2 (by simp [Tria.edgeIds]) (by tauto)
  · exact side (m.tria e).n2 (m.tria e).n3 (by simp [Tria.edgeIds]) (by tauto)

theorem dSlice_full {d : List ℝ} {a : ℕ} : (dSlice d (a : ℤ)).length = 5 ↔ 5 * a + 5 ≤ d.length := by
  unfold dSlice
  rw [List.length_take, List.length_drop, Int.toNat_natCast]
  omega

theorem kgIx_end {m : Mesh} (w : WF m) (hp : Proper m) (hq : Prepared m) {k : Key} (hk : k ∈ m.ekeys) {p : ℕ} (h : p = k.1 ∨ p = k.2) :
    nodeIdx m p ∈ kgIx m (m.edge k) := by
  obtain ⟨ip, hip, h3⟩ : ∃ ip ∈ (m.edge k).ipts, p = ip.n1 ∨ p = ip.n2 ∨ p = ip.n3 := by
    rcases prepared_shape w hp hq hk with ⟨t, o, he, hs⟩ | ⟨t1, t2, o1, o2, he, hs1, hs2, ho, _⟩
    · rw [he]
      refine ⟨_, List.mem_append_left _ (List.mem_cons_self ..), ?_⟩
      rcases orient_cases m (m.mid t) k.1 k.2 with h' | h' <;> rw [h'] <;> tauto
    · rw [he]
      refine ⟨_, List.mem_append_left _ (List.mem_cons_self ..), ?_⟩
      rcases orient_cases m (m.mid t1) k.1 k.2 with h' | h' <;> rw [h'] <;> tauto
  obtain ⟨h1, h2, h3'⟩ := mem_kgIx hip (m := m)
  rcases h3 with rfl | rfl | rfl
  · exact h1
  · exact h2
  · exact h3'

/-- C115: `calc_kG` raises IndexError or ValueError when the vector ends before the degrees of freedom of a corner of a triangle do -/
theorem C115_short {m : Mesh} (ha : AfterK0 m) (hp : Proper m) {pn : Bool} (hh : HasProps m pn) {e p : ℕ} (he : e ∈ m.eids) (hc : IsCorner m e p)
    {d : List ℝ} (hd : d.length < 5 * m.nids.idxOf p + 5) : calcKG m d pn = .error .indexError ∨ calcKG m d pn = .error .valueError := by
  obtain ⟨k, hk, hpk⟩ := ha.wf.side_at he hc
  have hpn : p ∈ m.nids := by
    rcases hpk with rfl | rfl
    · exact (ha.wf.ends k hk).1
    · exact (ha.wf.ends k hk).2
  cases hK : calcKG m d pn with
  | ok K =>
    exfalso
    obtain ⟨_, h, _⟩ := calcKG_sum hK
    obtain ⟨env, h⟩ := h k hk
    have := kGEnv_full h _ (kgIx_end ha.wf hp ha.prepared hk hpk)
    rw [ha.prepared.nodeIdx' hpn, dSlice_full] at this
    omega
  | error x =>
    have hx : x = .indexError ∨ x = .valueError := by
      unfold calcKG at hK
      rw [kGEdge_eq] at hK
      rcases hl : matLoop (fun K k => applyE ((kGEnv m d pn (m.edge k)).map kGEntries) K) (Mat.zeros (d.length / 5 * 5)) m.ekeys with ⟨K', o⟩
      rw [hl] at hK
      cases o with
      | none => cases hK
      | some y =>
        cases hK
        rcases matLoop_kind (fun k => (kGEnv m d pn (m.edge k)).map kGEntries) m.ekeys (Mat.zeros (d.length / 5 * 5)) x (by rw [hl]) with h | ⟨k', hk', h⟩
        · exact Or.inl h
        · obtain ⟨_, _, _, env, _, _, h2, _⟩ := kgEdgeData ha.wf hp ha.prepared hh (d := List.replicate (5 * m.nids.length) 0) (by simp) hk'
          refine kGEnv_kind h2 (d' := d) ?_
          cases hv : kGEnv m d pn (m.edge k') with
          | error y => rw [hv] at h; cases h; rfl
          | ok v => rw [hv] at h; cases h
    rcases hx with rfl | rfl
    · exact Or.inl rfl
    · exact Or.inr rfl

/-- C115: entries of the vector beyond the degrees of freedom of the mesh only enlarge the matrix, by zeros -/
theorem C115_long {m : Mesh} (ha : AfterK0 m) (hp : Proper m) {pn : Bool} (hh : HasProps m pn) {d : List ℝ} (hd : d.length = 5 * m.nids.length) (ex : List ℝ) :
    ∃ K K', calcKG m d pn = .ok K ∧ calcKG m (d ++ ex) pn = .ok K' ∧ K'.dim = 5 * (m.nids.length + ex.length / 5) ∧
      (∀ i j, K'.get i j = K.get i j) ∧ ∀ i j, 5 * m.nids.length ≤ i ∨ 5 * m.nids.length ≤ j → K'.get i j = 0 := by
  obtain ⟨K, hK⟩ := calcKG_proper ha.wf hp ha.prepared ha.nids_ne hh (d := d) (by omega)
  obtain ⟨K', hK'⟩ := calcKG_proper ha.wf hp ha.prepared ha.nids_ne hh (d := d ++ ex) (by rw [List.length_append]; omega)
  obtain ⟨h1, h2, h3⟩ := calcKG_sum hK
  obtain ⟨h1', h2', h3'⟩ := calcKG_sum hK'
  have hlen : (d ++ ex).length / 5 * 5 = 5 * (m.nids.length + ex.length / 5) := by
    rw [List.length_append, hd]; omega
  have hlen0 : d.length / 5 * 5 = m.nids.length * 5 := by omega
  have hg : ∀ i j, K'.get i j = K.get i j := by
    intro i j
    rw [h3, h3']
    congr 1
    refine List.map_congr_left fun k hk => ?_
    obtain ⟨ns, Ac, pm, env, g1, g2, g3, g4⟩ := kgEdgeData ha.wf hp ha.prepared hh (d := d) (by omega) hk
    have hsl : kGEnv m (d ++ ex) pn (m.edge k) = kGEnv m d pn (m.edge k) := by
      refine kGEnv_slices fun q hq => ?_
      have h5 := kGEnv_full g3 q hq
      unfold dSlice at h5 ⊢
      rw [List.length_take, List.length_drop] at h5
      rw [List.drop_append_of_le_length (by omega), List.take_append_of_le_length (by rw [List.length_drop]; omega)]
    rw [hsl, g3]
    have hr : InRange (m.nids.length * 5) (kGEntries env) := by
      have hpos := List.length_pos_of_ne_nil ha.nids_ne
      have key : ∀ c ∈ kGDofs env, ∃ a : ℕ, a < m.nids.length * 5 ∧ c.1 = (a : ℤ) := by
        intro c hc
        obtain ⟨y, hy, hcs⟩ : ∃ y ∈ [env.i1, env.i2, env.i3, env.i4], c.1 = y * 5 + 2 := by
          simp only [kGDofs, List.mem_cons, List.not_mem_nil, or_false] at hc
          rcases hc with rfl | rfl | rfl | rfl
          · exact ⟨env.i1, by simp, rfl⟩
          · exact ⟨env.i2, by simp, rfl⟩
          · exact ⟨env.i3, by simp, rfl⟩
          · exact ⟨env.i4, by simp, rfl⟩
        rcases g4.idx y hy with rfl | ⟨p, hpn, rfl⟩
        · exact ⟨2, by omega, by rw [hcs]; norm_num⟩
        · have hpm := g1.ns_nids p hpn
          have := List.idxOf_lt_length_iff.2 hpm
          refine ⟨m.nids.idxOf p * 5 + 2, by omega, ?_⟩
          rw [hcs, ha.prepared.nodeIdx' hpm]; push_cast; rfl
      intro x hx
      rw [kGEntries_eq] at hx
      simp only [outer, List.mem_flatMap, List.mem_map] at hx
      obtain ⟨a, ha', b, hb, rfl⟩ := hx
      obtain ⟨a', h1, h2⟩ := key a ha'
      obtain ⟨b', h3, h4⟩ := key b hb
      exact ⟨a', b', h1, h3, h2, h4⟩
    show entrySum _ (kGEntries env) i j = entrySum _ (kGEntries env) i j
    rw [hlen0, hr.entrySum_eq (by omega)]
  refine ⟨K, K', hK, hK', by rw [h1', hlen], hg, fun i j hij => ?_⟩
  rw [hg]
  exact calcKG_out hK (by omega)

/-! ### `add_k0s` -/

theorem coupled_mem {m : Mesh} (ha : AfterK0 m) (hp : Proper m) {method : String} {p q : ℕ} (h : Coupled m method p q) : p ∈ m.nids ∧ q ∈ m.nids := by
  have cm : ∀ e ∈ m.eids, ∀ p, IsCorner m e p → p ∈ m.nids := fun e he p hp => ha.wf.corner_mem he (by unfold corners IsCorner at *; simpa using hp)
  unfold Coupled at h
  split at h
  · obtain ⟨k, hk, h1, h2⟩ := h
    have mem : ∀ p, EdgeKnows m k p → p ∈ m.nids := by
      intro p hpk
      obtain ⟨t, ht, hpt⟩ := hpk.near ha.wf hp ha.prepared hk
      refine cm t ?_ p hpt
      rw [ha.wf.etrias k hk] at ht
      exact (mem_sideTrias.1 ht).1
    exact ⟨mem p h1, mem q h2⟩
  · obtain ⟨e, he, h1, h2⟩ := h
    exact ⟨cm e he p h1, cm e he q h2⟩

theorem k0sIncr_range {m : Mesh} (ha : AfterK0 m) (hp : Proper m) {pn : Bool} {method : String} {al : ℝ} {fa : Bool} {es : List (ℤ × ℤ × ℝ)}
    (h : .ok es ∈ k0sIncr m pn method al fa) : InRange (5 * m.nids.length) es := by
  intro x hx
  obtain ⟨p, q, a, b, r, s, ha', hb, hc, hr, hs, e1, e2⟩ := k0sIncr_pos h hx
  obtain ⟨hpn, hqn⟩ := coupled_mem ha hp hc
  have h1 := ha.numbered.indexed.index hpn
  have h2 := ha.numbered.indexed.index hqn
  rw [ha'] at h1
  rw [hb] at h2
  have h1 := Option.some.inj h1
  have h2 := Option.some.inj h2
  have := List.idxOf_lt_length_iff.2 hpn
  have := List.idxOf_lt_length_iff.2 hqn
  exact ⟨5 * a + r, 5 * b + s, by omega, by omega, e1, e2⟩

/-- C116: a matrix larger than the mesh needs receives the same increments, with the same outcome -/
theorem C116_large {m : Mesh} (ha : AfterK0 m) (hp : Proper m) (pn : Bool) (method : String) (al : ℝ) (fa : Bool) {K K' : Mat}
    (hK : K.dim = 5 * m.nids.length) (hK' : 5 * m.nids.length ≤ K'.dim) :
    (addK0s K' m pn method al fa).2 = (addK0s K m pn method al fa).2 ∧ (addK0s K' m pn method al fa).1.dim = K'.dim ∧
    ∀ i j, (addK0s K' m pn method al fa).1.get i j - K'.get i j = (addK0s K m pn method al fa).1.get i j - K.get i j := by
  simp only [addK0s_eq]
  obtain ⟨h1, h2⟩ := matLoop_size (fun g => g) (n := 5 * m.nids.length) (k0sIncr m pn method al fa)
    (fun a h es e => k0sIncr_range ha hp (by rw [← e]; exact h)) K' K hK' hK.ge
  exact ⟨h1, applyAll_dim _ _, h2⟩

/-- C116: a matrix without the degrees of freedom of a corner of a triangle is refused with IndexError -/
theorem C116_small {m : Mesh} (ha : AfterK0 m) (hp : Proper m) {pn : Bool} (hh : HasProps m pn) {method : String}
    (hm : method = "cell-based" ∨ method = "cell-based-no-smoothing" ∨ method = "edge-based") (al : ℝ) (fa : Bool) {e p : ℕ} (he : e ∈ m.eids)
    (hc : IsCorner m e p) {K : Mat} (hK : K.dim < 5 * m.nids.idxOf p + 5) : (addK0s K m pn method al fa).2 = some .indexError := by
  have good := C49_k0s ha hp hh hm al fa (K := Mat.zeros (5 * m.nids.length)) rfl
  rw [addK0s_eq] at good ⊢
  have hok : ∀ g ∈ k0sIncr m pn method al fa, ∃ es, g = .ok es := by
    intro g hg
    obtain ⟨es, h, _⟩ := matLoop_none (fun g => g) _ _ good g hg
    exact ⟨es, h⟩
  have hpn : p ∈ m.nids := ha.wf.corner_mem he (by unfold corners IsCorner at *; simpa using hc)
  cases ho : (applyAll K (k0sIncr m pn method al fa)).2 with
  | none =>
    exfalso
    obtain ⟨es, a, hes, hia, x, hx, e1⟩ := k0sIncr_hit ha.wf hok he hc
    have h1 := ha.numbered.indexed.index hpn
    rw [hia] at h1
    have h1 := Option.some.inj h1
    obtain ⟨es', h, hE⟩ := matLoop_none (fun g => g) _ _ ho _ hes
    cases h
    have := (hE x hx).1
    rw [e1] at this
    obtain ⟨i, hi⟩ := Option.isSome_iff_exists.1 this
    have h2 := pyIdx_eq hi
    have h3 := pyIdx_lt hi
    omega
  | some y =>
    rcases matLoop_kind (fun g => g) _ _ y ho with h | ⟨g, hg, h⟩
    · rw [h]
    · obtain ⟨es, h'⟩ := hok g hg
      rw [h'] at h; cases h

/-- C115, C116: on the unit square of two triangles every vector of fewer than 20 numbers and every matrix smaller than 20 by 20 is refused -/
example (p1 p2 p3 p4 q1 q2 : Lam) (pn fa : Bool) (al : ℝ) (d : List ℝ) (hd : d.length < 20) (K : Mat) (hK : K.dim < 20) {method : String}
    (hm : method = "cell-based" ∨ method = "cell-based-no-smoothing" ∨ method = "edge-based") :
    (calcKG (exAfter p1 p2 p3 p4 q1 q2) d pn = .error .indexError ∨ calcKG (exAfter p1 p2 p3 p4 q1 q2) d pn = .error .valueError) ∧
    (addK0s K (exAfter p1 p2 p3 p4 q1 q2) pn method al fa).2 = some .indexError := by
  obtain ⟨e, he, hc⟩ : ∃ e ∈ (exAfter p1 p2 p3 p4 q1 q2).eids, IsCorner (exAfter p1 p2 p3 p4 q1 q2) e 4 := by
    rw [(exAfter_static ..).eids]
    refine ⟨2, by simp [exMesh_eids], ?_⟩
    unfold IsCorner
    rw [(exAfter_static p1 p2 p3 p4 q1 q2).tria]
    right; right; rfl
  have h4 : (exAfter p1 p2 p3 p4 q1 q2).nids.idxOf 4 = 3 := by rw [exAfter_nids]; decide
  exact ⟨C115_short (exAfter_after ..) (exAfter_proper ..) (exAfter_props _ _ _ _ _ _ pn) he hc (by rw [h4]; exact hd),
    C116_small (exAfter_after ..) (exAfter_proper ..) (exAfter_props _ _ _ _ _ _ pn) hm al fa he hc (by rw [h4]; exact hK)⟩

/-- C115: three more numbers than needed change nothing -/
example (p1 p2 p3 p4 q1 q2 : Lam) (pn : Bool) (d : List ℝ) (hd : d.length = 20) : ∃ K K', calcKG (exAfter p1 p2 p3 p4 q1 q2) d pn = .ok K ∧
    calcKG (exAfter p1 p2 p3 p4 q1 q2) (d ++ [1, 2, 3]) pn = .ok K' ∧ K'.dim = 20 ∧ ∀ i j, K'.get i j = K.get i j := by
  obtain ⟨K, K', h1, h2, h3, h4, _⟩ := C115_long (exAfter_after p1 p2 p3 p4 q1 q2) (exAfter_proper ..) (exAfter_props _ _ _ _ _ _ pn) (d := d)
    (by rw [exAfter_nids]; exact hd) [1, 2, 3]
  rw [exAfter_nids] at h3
  exact ⟨K, K', h1, h2, h3, h4⟩

end Meshless
