import Verif.Model.K0s
import Verif.Lemmas.K0Form
import Verif.Lemmas.Mat

/-! `add_k0s` as a loop over increments that do not depend on the matrix. -/

set_option autoImplicit false

namespace Meshless

/-- increments of one edge, or the exception raised before any of them is applied -/
noncomputable def edgeSG (m : Mesh) (pn : Bool) (al : ℝ) (fa : Bool) (k : Key) : Except Err (List (ℤ × ℤ × ℝ)) :=
  match (m.edge k).trias with
  | [] => .error .indexError
  | [t1] => (edgeBEnv m pn al fa (m.edge k) t1 (edgeOrient m (m.edge k) t1).1 (edgeOrient m (m.edge k) t1).2).map edgeBEntries
  | [t1, t2] => (edgeIEnv m pn al fa (m.edge k) t1 t2 (edgeOrient m (m.edge k) t1).1 (edgeOrient m (m.edge k) t1).2).map edgeIEntries
  | _ => .error .notImplemented

/-- the increments `add_k0s` applies, in order -/
noncomputable def k0sIncr (m : Mesh) (pn : Bool) (method : String) (al : ℝ) (fa : Bool) : List (Except Err (List (ℤ × ℤ × ℝ))) :=
  if method = "cell-based" then m.eids.map fun e => (cellSEnv m pn al fa e).map cellSEntries
  else if method = "cell-based-no-smoothing" then m.eids.map fun e => (cellNSEnv m pn al fa e).map cellNSEntries
  else if method = "edge-based" then m.ekeys.map (edgeSG m pn al fa)
  else [.error .valueError]

theorem matLoop_map {α β : Type} (f : Mat → β → Mat × Option Err) (g : α → β) : ∀ (l : List α) (K : Mat),
    matLoop f K (l.map g) = matLoop (fun K a => f K (g a)) K l := by
  intro l
  induction l with
  | nil => intro K; rfl
  | cons a l ih =>
    intro K
    simp only [List.map_cons, matLoop]
    rcases f K (g a) with ⟨K', _ | e⟩
    · exact ih K'
    · rfl

/-- apply lists of increments one after the other, stopping at the first exception -/
noncomputable def applyAll (K : Mat) (gs : List (Except Err (List (ℤ × ℤ × ℝ)))) : Mat × Option Err := matLoop (fun K g => applyE g K) K gs

theorem addK0s_eq (K : Mat) (m : Mesh) (pn : Bool) (method : String) (al : ℝ) (fa : Bool) :
    addK0s K m pn method al fa = applyAll K (k0sIncr m pn method al fa) := by
  unfold addK0s k0sIncr applyAll
  split
  · rw [matLoop_map]
    unfold addK0sCell
    congr 1
    funext K e
    unfold cellSTria applyE
    cases cellSEnv m pn al fa e <;> rfl
  split
  · rw [matLoop_map]
    unfold addK0sCellNS
    congr 1
    funext K e
    unfold cellNSTria applyE
    cases cellNSEnv m pn al fa e <;> rfl
  split
  · rw [matLoop_map]
    unfold addK0sEdge
    congr 1
    funext K k
    unfold edgeSEdge edgeSG
    dsimp only
    rcases (m.edge k).trias with _ | ⟨t1, _ | ⟨t2, _ | ⟨t3, l⟩⟩⟩
    · rfl
    · dsimp only
      cases edgeBEnv m pn al fa (m.edge k) t1 (edgeOrient m (m.edge k) t1).1 (edgeOrient m (m.edge k) t1).2 <;> rfl
    · dsimp only
      cases edgeIEnv m pn al fa (m.edge k) t1 t2 (edgeOrient m (m.edge k) t1).1 (edgeOrient m (m.edge k) t1).2 <;> rfl
    · rfl
  · rfl

/-! ### the increment does not depend on the contents of the matrix -/

theorem Mat.addAll_incr : ∀ (es : List (ℤ × ℤ × ℝ)) {M M' : Mat}, M.dim = M'.dim →
    (M.addAll es).2 = (M'.addAll es).2 ∧ ∀ i j, (M.addAll es).1.get i j - M.get i j = (M'.addAll es).1.get i j - M'.get i j := by
  intro es
  induction es with
  | nil => intro M M' _; exact ⟨rfl, fun i j => by simp [Mat.addAll]⟩
  | cons e es ih =>
    intro M M' h
    obtain ⟨r, c, v⟩ := e
    simp only [Mat.addAll, Mat.addAt, h]
    rcases pyIdx M'.dim r with _ | a
    · exact ⟨rfl, fun i j => by simp⟩
    rcases pyIdx M'.dim c with _ | b
    · exact ⟨rfl, fun i j => by simp⟩
    obtain ⟨h1, h2⟩ := ih (M := M.bump a b v) (M' := M'.bump a b v) h
    refine ⟨h1, fun i j => ?_⟩
    have := h2 i j
    simp only [Mat.bump] at this ⊢
    split at this <;> linarith

theorem applyE_incr (g : Except Err (List (ℤ × ℤ × ℝ))) {M M' : Mat} (h : M.dim = M'.dim) :
    (applyE g M).2 = (applyE g M').2 ∧ (applyE g M).1.dim = (applyE g M').1.dim ∧
    ∀ i j, (applyE g M).1.get i j - M.get i j = (applyE g M').1.get i j - M'.get i j := by
  cases g with
  | error e => exact ⟨rfl, h, fun i j => by simp [applyE]⟩
  | ok es =>
    simp only [applyE]
    exact ⟨(Mat.addAll_incr es h).1, by rw [Mat.addAll_dim, Mat.addAll_dim, h], (Mat.addAll_incr es h).2⟩

theorem applyAll_dim (K : Mat) (gs : List (Except Err (List (ℤ × ℤ × ℝ)))) : (applyAll K gs).1.dim = K.dim := matLoop_dim (fun g => g) gs K

theorem applyAll_incr : ∀ (gs : List (Except Err (List (ℤ × ℤ × ℝ)))) {M M' : Mat}, M.dim = M'.dim →
    (applyAll M gs).2 = (applyAll M' gs).2 ∧
    ∀ i j, (applyAll M gs).1.get i j - M.get i j = (applyAll M' gs).1.get i j - M'.get i j := by
  intro gs
  induction gs with
  | nil => intro M M' _; exact ⟨rfl, fun i j => by simp [applyAll, matLoop]⟩
  | cons g gs ih =>
    intro M M' h
    obtain ⟨h1, h2, h3⟩ := applyE_incr g h
    unfold applyAll at *
    simp only [matLoop]
    rcases hM : applyE g M with ⟨N, o⟩
    rcases hM' : applyE g M' with ⟨N', o'⟩
    rw [hM, hM'] at h1 h2 h3
    dsimp only at h1 h2 h3
    subst h1
    cases o with
    | some e => exact ⟨rfl, h3⟩
    | none =>
      obtain ⟨g1, g2⟩ := ih h2
      refine ⟨g1, fun i j => ?_⟩
      have := g2 i j
      have := h3 i j
      dsimp only
      linarith

/-! ### where an increment lands -/

theorem Mat.addAll_changed : ∀ (es : List (ℤ × ℤ × ℝ)) {M : Mat} {i j : ℕ}, (M.addAll es).1.get i j ≠ M.get i j →
    ∃ x ∈ es, pyIdx M.dim x.1 = some i ∧ pyIdx M.dim x.2.1 = some j := by
  intro es
  induction es with
  | nil => intro M i j h; exact absurd rfl h
  | cons e es ih =>
    intro M i j h
    obtain ⟨r, c, v⟩ := e
    simp only [Mat.addAll, Mat.addAt] at h
    rcases ha : pyIdx M.dim r with _ | a
    · rw [ha] at h; exact absurd rfl h
    rcases hb : pyIdx M.dim c with _ | b
    · rw [ha, hb] at h; exact absurd rfl h
    rw [ha, hb] at h
    dsimp only at h
    by_cases hab : i = a ∧ j = b
    · exact ⟨(r, c, v), by simp, by rw [ha, hab.1], by rw [hb, hab.2]⟩
    · obtain ⟨x, hx, h1, h2⟩ := ih (M := M.bump a b v) (i := i) (j := j) (by simpa [Mat.bump, hab] using h)
      exact ⟨x, by simp [hx], h1, h2⟩

theorem applyAll_changed : ∀ (gs : List (Except Err (List (ℤ × ℤ × ℝ)))) {M : Mat} {i j : ℕ}, (applyAll M gs).1.get i j ≠ M.get i j →
    ∃ es, .ok es ∈ gs ∧ ∃ x ∈ es, pyIdx M.dim x.1 = some i ∧ pyIdx M.dim x.2.1 = some j := by
  intro gs
  induction gs with
  | nil => intro M i j h; exact absurd rfl h
  | cons g gs ih =>
    intro M i j h
    unfold applyAll at h ih
    simp only [matLoop] at h
    cases g with
    | error e => exact absurd rfl h
    | ok es =>
      simp only [applyE] at h
      have hd := Mat.addAll_dim (es := es) (M := M)
      by_cases hc : (M.addAll es).1.get i j = M.get i j
      · rcases hM : M.addAll es with ⟨N, _ | o⟩
        · rw [hM] at h hc hd
          dsimp only at h hc hd
          obtain ⟨es', h1, x, h2, h3, h4⟩ := ih (M := N) (i := i) (j := j) (by rw [hc]; exact h)
          exact ⟨es', by simp [h1], x, h2, by rw [← hd]; exact h3, by rw [← hd]; exact h4⟩
        · rw [hM] at h hc
          exact absurd hc h
      · obtain ⟨x, h1, h2, h3⟩ := Mat.addAll_changed es hc
        exact ⟨es, by simp, x, h1, h2, h3⟩

/-! ### what a successful call adds -/

theorem applyAll_ok {gs : List (Except Err (List (ℤ × ℤ × ℝ)))} {K : Mat} (h : ∀ g ∈ gs, GoodE K.dim g) :
    (applyAll K gs).2 = none := by
  obtain ⟨K', h1, _⟩ := matLoop_ok (fun g => g) gs K h
  unfold applyAll
  rw [h1]

theorem applyAll_sum {gs : List (Except Err (List (ℤ × ℤ × ℝ)))} {K : Mat} (h : (applyAll K gs).2 = none) :
    (∀ g ∈ gs, GoodE K.dim g) ∧
    ∀ i j, (applyAll K gs).1.get i j = K.get i j + (gs.map fun g => entrySum K.dim (okEntries g) i j).sum := by
  have hg := matLoop_none (fun g => g) gs K h
  obtain ⟨K', h1, h2, h3⟩ := matLoop_ok (fun g => g) gs K hg
  refine ⟨hg, fun i j => ?_⟩
  unfold applyAll
  rw [h1]
  exact h3 i j

end Meshless
