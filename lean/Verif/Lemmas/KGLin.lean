import Verif.Lemmas.KGForm

set_option autoImplicit false

namespace Meshless
open Spec Finset

/-- `a*d1 + b*d2` -/
noncomputable def comb (a b : ℝ) (d1 d2 : List ℝ) : List ℝ := List.zipWith (fun x y => a * x + b * y) d1 d2

theorem comb_length {a b : ℝ} {d1 d2 : List ℝ} (h : d1.length = d2.length) : (comb a b d1 d2).length = d1.length := by
  simp [comb, h]

theorem comb_getD (a b : ℝ) : ∀ (d1 d2 : List ℝ), d1.length = d2.length → ∀ r, (comb a b d1 d2).getD r 0 = a * d1.getD r 0 + b * d2.getD r 0 := by
  intro d1
  induction d1 with
  | nil => intro d2 h r; cases d2 with
    | nil => simp [comb]
    | cons => simp at h
  | cons x d1 ih =>
    intro d2 h r
    cases d2 with
    | nil => simp at h
    | cons y d2 =>
      cases r with
      | zero => simp [comb]
      | succ r => simpa [comb] using ih d2 (by simpa using h) r

theorem dSlice_comb (a b : ℝ) (d1 d2 : List ℝ) (i : ℤ) : dSlice (comb a b d1 d2) i = comb a b (dSlice d1 i) (dSlice d2 i) := by
  simp [dSlice, comb, List.drop_zipWith, List.take_zipWith]

theorem dSlice_len {d1 d2 : List ℝ} (h : d1.length = d2.length) (i : ℤ) : (dSlice d1 i).length = (dSlice d2 i).length := by
  simp [dSlice, h]

theorem dcAt_comb (f : List ℝ) (a b : ℝ) {d1 d2 : List ℝ} (h : d1.length = d2.length) (i1 i2 i3 i4 : ℤ) (r : ℕ) :
    dcAt f (dSlice (comb a b d1 d2) i1) (dSlice (comb a b d1 d2) i2) (dSlice (comb a b d1 d2) i3) (dSlice (comb a b d1 d2) i4) r =
      a * dcAt f (dSlice d1 i1) (dSlice d1 i2) (dSlice d1 i3) (dSlice d1 i4) r + b * dcAt f (dSlice d2 i1) (dSlice d2 i2) (dSlice d2 i3) (dSlice d2 i4) r := by
  unfold dcAt
  simp only [dSlice_comb]
  simp only [comb_getD a b _ _ (dSlice_len h _)]
  ring

/-- an environment with other stress resultants -/
noncomputable def KGEnv.withN (e : KGEnv ℝ) (x y z : ℝ) : KGEnv ℝ := { e with Nxx := x, Nyy := y, Nxy := z }

/-- everything but the stress resultants depends on the length of `d` only, and they depend linearly on `d` -/
theorem kGEnv_lin {m : Mesh} {pn : Bool} {ed : Edge} (a b : ℝ) {d1 d2 : List ℝ} (h : d1.length = d2.length) :
    (∃ e, kGEnv m d1 pn ed = .error e ∧ kGEnv m d2 pn ed = .error e ∧ kGEnv m (comb a b d1 d2) pn ed = .error e) ∨
    ∃ (e : KGEnv ℝ) (x y z : ℝ), kGEnv m d1 pn ed = .ok e ∧ kGEnv m d2 pn ed = .ok (e.withN x y z) ∧
      kGEnv m (comb a b d1 d2) pn ed = .ok (e.withN (a * e.Nxx + b * x) (a * e.Nyy + b * y) (a * e.Nxy + b * z)) := by
  unfold kGEnv
  by_cases h1 : ed.trias = []
  · simp only [if_pos h1]; exact Or.inl ⟨_, rfl, rfl, rfl⟩
  by_cases h2 : 2 < ed.trias.length
  · simp only [if_neg h1, if_pos h2]; exact Or.inl ⟨_, rfl, rfl, rfl⟩
  by_cases h3 : (!iptsIndexed m ed.ipts) = true
  · simp only [if_neg h1, if_neg h2, if_pos h3]; exact Or.inl ⟨_, rfl, rfl, rfl⟩
  simp only [if_neg h1, if_neg h2, if_neg h3]
  generalize hix : (if ed.ipts.length = 3 then iptIndices (nodeIdx m) ed.ipts ++ [0] else iptIndices (nodeIdx m) ed.ipts) = ix
  clear hix
  rcases ix with _ | ⟨i1, _ | ⟨i2, _ | ⟨i3, _ | ⟨i4, _ | ⟨i5, l⟩⟩⟩⟩⟩
  · exact Or.inl ⟨_, rfl, rfl, rfl⟩
  · exact Or.inl ⟨_, rfl, rfl, rfl⟩
  · exact Or.inl ⟨_, rfl, rfl, rfl⟩
  · exact Or.inl ⟨_, rfl, rfl, rfl⟩
  · rcases hip : ed.ipts with _ | ⟨p1, _ | ⟨p2, _ | ⟨p3, rest⟩⟩⟩
    · exact Or.inl ⟨_, rfl, rfl, rfl⟩
    · exact Or.inl ⟨_, rfl, rfl, rfl⟩
    · exact Or.inl ⟨_, rfl, rfl, rfl⟩
    · dsimp only
      rcases edgeProp m pn ed Lam.A with eA | A
      · exact Or.inl ⟨eA, by cases ed.Ac <;> rfl, by cases ed.Ac <;> rfl, by cases ed.Ac <;> rfl⟩
      rcases edgeProp m pn ed Lam.B with eB | B
      · exact Or.inl ⟨eB, by cases ed.Ac <;> rfl, by cases ed.Ac <;> rfl, by cases ed.Ac <;> rfl⟩
      rcases ed.Ac with _ | Ac
      · exact Or.inl ⟨_, rfl, rfl, rfl⟩
      dsimp only
      have hl : ∀ i, (dSlice (comb a b d1 d2) i).length = (dSlice d1 i).length := fun i => dSlice_len (comb_length h) i
      have hl2 : ∀ i, (dSlice d2 i).length = (dSlice d1 i).length := fun i => (dSlice_len h i).symm
      simp only [hl, hl2]
      by_cases hlen : (dSlice d1 i1).length = 5 ∧ (dSlice d1 i2).length = 5 ∧ (dSlice d1 i3).length = 5 ∧ (dSlice d1 i4).length = 5
      · simp only [if_pos hlen]
        refine Or.inr ⟨_, _, _, _, rfl, rfl, ?_⟩
        simp only [dcAt_comb _ a b h, KGEnv.withN]
        congr 2 <;> simp only [dot3, Matrix.cons_val_zero, Matrix.cons_val_one, Matrix.cons_val] <;> ring
      · simp only [if_neg hlen]
        split_ifs <;> exact Or.inl ⟨_, rfl, rfl, rfl⟩
  · exact Or.inl ⟨_, rfl, rfl, rfl⟩

theorem entrySum_outer_lin {ι : Type} [Fintype ι] {n : ℕ} {C C1 C2 : ι → ι → ℝ} {a b : ℝ} (hC : ∀ p q, C p q = a * C1 p q + b * C2 p q)
    (dofs : List (ℤ × (ι → ℝ))) (i j : ℕ) :
    entrySum n (outer C dofs) i j = a * entrySum n (outer C1 dofs) i j + b * entrySum n (outer C2 dofs) i j := by
  by_cases h : i < n ∧ j < n
  · rw [← bil_single (entrySum n (outer C dofs)) h.1 h.2, ← bil_single (entrySum n (outer C1 dofs)) h.1 h.2,
      ← bil_single (entrySum n (outer C2 dofs)) h.1 h.2, bil_outer, bil_outer, bil_outer]
    simp only [Finset.mul_sum, ← Finset.sum_add_distrib]
    refine Finset.sum_congr rfl fun p _ => Finset.sum_congr rfl fun q _ => ?_
    rw [hC]; ring
  · rw [entrySum_out (by omega), entrySum_out (by omega), entrySum_out (by omega)]; ring

theorem entriesOk_outer_iff {ι : Type} [Fintype ι] {n : ℕ} {C : ι → ι → ℝ} {dofs : List (ℤ × (ι → ℝ))} :
    EntriesOk n (outer C dofs) ↔ ∀ a ∈ dofs, (pyIdx n a.1).isSome := by
  refine ⟨fun h a ha => ?_, entriesOk_outer⟩
  refine (h (a.1, a.1, ∑ p, ∑ q, a.2 p * C p q * a.2 q) ?_).1
  simp only [outer, List.mem_flatMap, List.mem_map]
  exact ⟨a, ha, a, ha, rfl⟩

/-- same positions, linear values -/
theorem kGEntries_withN {n : ℕ} (e : KGEnv ℝ) (a b x y z : ℝ) (i j : ℕ) :
    entrySum n (kGEntries (e.withN (a * e.Nxx + b * x) (a * e.Nyy + b * y) (a * e.Nxy + b * z))) i j =
      a * entrySum n (kGEntries e) i j + b * entrySum n (kGEntries (e.withN x y z)) i j := by
  rw [kGEntries_eq, kGEntries_eq, kGEntries_eq]
  refine entrySum_outer_lin (fun p q => ?_) (kGDofs e) i j
  fin_cases p <;> fin_cases q <;> simp only [Fin.mk_one, Fin.zero_eta, m2_00, m2_01, m2_10, m2_11, KGEnv.withN] <;> ring

theorem kGEntries_withN_ok {n : ℕ} (e : KGEnv ℝ) (x y z : ℝ) : EntriesOk n (kGEntries (e.withN x y z)) ↔ EntriesOk n (kGEntries e) := by
  rw [kGEntries_eq, kGEntries_eq, entriesOk_outer_iff, entriesOk_outer_iff]
  exact Iff.rfl

/-- outcome of one `addAll` depends on the positions only -/
theorem addAll_err {es es' : List (ℤ × ℤ × ℝ)} : ∀ {M M' : Mat}, M.dim = M'.dim → es.map (fun e => (e.1, e.2.1)) = es'.map (fun e => (e.1, e.2.1)) →
    (M.addAll es).2 = (M'.addAll es').2 := by
  induction es generalizing es' with
  | nil =>
    intro M M' hd h
    have : es' = [] := by simpa using h.symm
    subst this; rfl
  | cons e es ih =>
    intro M M' hd h
    cases es' with
    | nil => simp at h
    | cons e' es' =>
      simp only [List.map_cons, List.cons.injEq] at h
      obtain ⟨h1, h2⟩ := h
      obtain ⟨r, c, v⟩ := e
      obtain ⟨r', c', v'⟩ := e'
      simp only [Prod.mk.injEq] at h1
      obtain ⟨rfl, rfl⟩ := h1
      simp only [Mat.addAll, Mat.addAt, hd]
      rcases ha : pyIdx M'.dim r with _ | a
      · rfl
      · rcases hb : pyIdx M'.dim c with _ | b
        · rfl
        · exact ih (by simpa [Mat.bump] using hd) h2

theorem outer_positions {ι : Type} [Fintype ι] (C C' : ι → ι → ℝ) (dofs : List (ℤ × (ι → ℝ))) :
    (outer C dofs).map (fun e => (e.1, e.2.1)) = (outer C' dofs).map (fun e => (e.1, e.2.1)) := by
  simp only [outer, List.map_flatMap, List.map_map, Function.comp_def]

/-- `calc_kG` on three vectors of the same length, one of them a combination of the other two -/
theorem calcKG_lin {m : Mesh} {pn : Bool} (a b : ℝ) {d1 d2 : List ℝ} (h : d1.length = d2.length) :
    (∃ e, calcKG m d1 pn = .error e ∧ calcKG m d2 pn = .error e ∧ calcKG m (comb a b d1 d2) pn = .error e) ∨
    ∃ K1 K2 K, calcKG m d1 pn = .ok K1 ∧ calcKG m d2 pn = .ok K2 ∧ calcKG m (comb a b d1 d2) pn = .ok K ∧ K1.dim = K2.dim ∧ K.dim = K1.dim ∧
      ∀ i j, K.get i j = a * K1.get i j + b * K2.get i j := by
  have key : ∀ (l : List Key) (M1 M2 M : Mat), M1.dim = M2.dim → M.dim = M1.dim → (∀ i j, M.get i j = a * M1.get i j + b * M2.get i j) →
      (∃ e, (matLoop (kGEdge m d1 pn) M1 l).2 = some e ∧ (matLoop (kGEdge m d2 pn) M2 l).2 = some e ∧
        (matLoop (kGEdge m (comb a b d1 d2) pn) M l).2 = some e) ∨
      ∃ K1 K2 K, matLoop (kGEdge m d1 pn) M1 l = (K1, none) ∧ matLoop (kGEdge m d2 pn) M2 l = (K2, none) ∧
        matLoop (kGEdge m (comb a b d1 d2) pn) M l = (K, none) ∧ K1.dim = K2.dim ∧ K.dim = K1.dim ∧
        ∀ i j, K.get i j = a * K1.get i j + b * K2.get i j := by
    intro l
    induction l with
    | nil => intro M1 M2 M h1 h2 h3; exact Or.inr ⟨M1, M2, M, rfl, rfl, rfl, h1, h2, h3⟩
    | cons k l ih =>
      intro M1 M2 M h1 h2 h3
      simp only [matLoop, kGEdge]
      rcases kGEnv_lin (m := m) (pn := pn) (ed := m.edge k) a b h with ⟨e, e1, e2, e3⟩ | ⟨e, x, y, z, e1, e2, e3⟩
      · rw [e1, e2, e3]; exact Or.inl ⟨e, rfl, rfl, rfl⟩
      · rw [e1, e2, e3]
        dsimp only
        have p2 : (M2.addAll (kGEntries (e.withN x y z))).2 = (M1.addAll (kGEntries e)).2 :=
          addAll_err h1.symm (by rw [kGEntries_eq, kGEntries_eq]; exact outer_positions _ _ (kGDofs e))
        have p3 : (M.addAll (kGEntries (e.withN (a * e.Nxx + b * x) (a * e.Nyy + b * y) (a * e.Nxy + b * z)))).2 = (M1.addAll (kGEntries e)).2 :=
          addAll_err h2 (by rw [kGEntries_eq, kGEntries_eq]; exact outer_positions _ _ (kGDofs e))
        rcases hA : M1.addAll (kGEntries e) with ⟨N1, _ | er⟩
        · have ok1 : EntriesOk M1.dim (kGEntries e) := Mat.addAll_none (by rw [hA])
          obtain ⟨N1', a1, a2, a3⟩ := Mat.addAll_ok ok1
          rw [hA] at a1
          have : N1 = N1' := congrArg Prod.fst a1
          subst this
          obtain ⟨N2, b1, b2, b3⟩ := Mat.addAll_ok (M := M2) (es := kGEntries (e.withN x y z)) (by rw [← h1]; exact (kGEntries_withN_ok e x y z).2 ok1)
          obtain ⟨N3, c1, c2, c3⟩ := Mat.addAll_ok (M := M)
            (es := kGEntries (e.withN (a * e.Nxx + b * x) (a * e.Nyy + b * y) (a * e.Nxy + b * z))) (by rw [h2]; exact (kGEntries_withN_ok e _ _ _).2 ok1)
          rw [b1, c1]
          refine ih N1 N2 N3 (by rw [a2, b2, h1]) (by rw [c2, a2, h2]) fun i j => ?_
          rw [c3, a3, b3, h3, h2, kGEntries_withN, ← h1]; ring
        · rw [hA] at p2 p3
          rcases hB : M2.addAll (kGEntries (e.withN x y z)) with ⟨N2, o2⟩
          rcases hC : M.addAll (kGEntries (e.withN (a * e.Nxx + b * x) (a * e.Nyy + b * y) (a * e.Nxy + b * z))) with ⟨N3, o3⟩
          rw [hB] at p2; rw [hC] at p3
          dsimp only at p2 p3
          subst p2 p3
          exact Or.inl ⟨er, rfl, rfl, rfl⟩
  unfold calcKG
  rw [comb_length h, ← h]
  rcases key m.ekeys (Mat.zeros (d1.length / 5 * 5)) (Mat.zeros (d1.length / 5 * 5)) (Mat.zeros (d1.length / 5 * 5)) rfl rfl
    (fun i j => by simp [Mat.zeros]) with ⟨e, e1, e2, e3⟩ | ⟨K1, K2, K, e1, e2, e3, e4, e5, e6⟩
  · refine Or.inl ⟨e, ?_⟩
    rcases q1 : matLoop (kGEdge m d1 pn) (Mat.zeros (d1.length / 5 * 5)) m.ekeys with ⟨_, o1⟩
    rcases q2 : matLoop (kGEdge m d2 pn) (Mat.zeros (d1.length / 5 * 5)) m.ekeys with ⟨_, o2⟩
    rcases q3 : matLoop (kGEdge m (comb a b d1 d2) pn) (Mat.zeros (d1.length / 5 * 5)) m.ekeys with ⟨_, o3⟩
    rw [q1] at e1; rw [q2] at e2; rw [q3] at e3
    dsimp only at e1 e2 e3
    subst e1 e2 e3
    exact ⟨rfl, rfl, rfl⟩
  · rw [e1, e2, e3]
    exact Or.inr ⟨K1, K2, K, rfl, rfl, rfl, e4, e5, e6⟩

end Meshless
