import Verif.Model.SymPyFull
import Verif.Props.SymPy

/-! C99-C104: the printers of sympytools with `collect_for`, `print_file`, `subs`, `use_cse`, `order` and `op`. -/

set_option autoImplicit false

namespace Meshless
open SymPy Spec

/-! ### the plain case -/

theorem header_top (header : Option Str) : headerLines header = topLine header := by
  match header with
  | none => rfl
  | some [] => rfl
  | some (_ :: _) => rfl

theorem title_eq (name : Str) (sufix : Option Str) : nameSuffix name sufix = title name sufix := by cases sufix <;> rfl

/-- without `collect_for` the dense printer is the one of C62 -/
theorem dense_plain (m : SMat) (name : Str) (subs : List (Str × Str)) (header : Option Str) (pf pbm : Bool) (dof : Option ℕ) :
    printDense m name subs header pf none pbm dof = (mprintDense m name header subs pbm dof).map (finish pf name) := by
  have hs : denseStepFull m name none pbm dof = denseStep m name pbm dof := by
    funext ij
    unfold denseStepFull denseStep
    cases m.entry ij.1 ij.2 with
    | none => rfl
    | some v => cases h : valueText pbm v <;> cases dofOf dof <;> simp [h]
  unfold printDense mprintDense denseLines
  rw [hs]
  cases printLoop (denseStep m name pbm dof) m.enum <;> rfl

theorem sparse_count (m : SMat) (name : Str) (pbm sym : Bool) (dof : Option ℕ) : ∀ (l : List (ℕ × ℕ)) (body : List Str),
    printLoop (sparseStep m name pbm sym dof) l = .ok body → body.length = 4 * (l.filter (sparseCounts m sym dof)).length
  | [], body, h => by simp only [printLoop, Except.ok.injEq] at h; subst h; rfl
  | a :: l, body, h => by
    rw [printLoop] at h
    cases hx : sparseStep m name pbm sym dof a with
    | error e => rw [hx] at h; cases h
    | ok x =>
      rw [hx] at h
      dsimp only at h
      cases hy : printLoop (sparseStep m name pbm sym dof) l with
      | error e => rw [hy] at h; cases h
      | ok y =>
        rw [hy] at h
        simp only [Except.ok.injEq] at h
        subst h
        have ih := sparse_count m name pbm sym dof l y hy
        rw [List.length_append, ih, List.filter_cons]
        have : x.length = if sparseCounts m sym dof a then 4 else 0 := by
          unfold sparseStep at hx
          unfold sparseCounts
          cases he : m.entry a.1 a.2 with
          | none => rw [he] at hx; simp only [Except.ok.injEq] at hx; subst hx; rfl
          | some v =>
            rw [he] at hx
            dsimp only at hx ⊢
            by_cases hc : (sym && decide (localNo dof a.1 > localNo dof a.2)) = true
            · rw [if_pos hc] at hx
              simp only [Except.ok.injEq] at hx
              subst hx; rw [hc]; rfl
            · rw [if_neg hc] at hx
              rw [Bool.not_eq_true] at hc
              rw [hc]
              cases ht : valueText pbm v with
              | error e => rw [ht] at hx; cases hx
              | ok t =>
                rw [ht] at hx
                simp only [Except.ok.injEq] at hx
                subst hx
                cases dofOf dof <;> rfl
        rw [this]
        split
        · rw [List.length_cons]; omega
        · omega

/-- without `collect_for` the sparse printer is the one of C63 -/
theorem sparse_plain (m : SMat) (name : Str) (sufix : Option Str) (subs : List (Str × Str)) (header : Option Str) (pf pbm sym : Bool) (dof : Option ℕ) :
    printSparse m name sufix subs header pf none pbm sym dof = (mprintSparse m name sufix header subs pbm sym dof).map (finish pf (title name sufix)) := by
  have hs : sparseStepFull m name none pbm sym dof = sparseStep m name pbm sym dof := by
    funext ij
    unfold sparseStepFull sparseStep
    cases m.entry ij.1 ij.2 with
    | none => rfl
    | some v =>
      dsimp only
      split
      · rfl
      · cases valueText pbm v <;> cases dofOf dof <;> simp
  unfold printSparse mprintSparse sparseLines
  rw [hs]
  cases h : printLoop (sparseStep m name pbm sym dof) m.enum with
  | error e => rfl
  | ok body =>
    dsimp only [Except.map]
    rw [sparse_count m name pbm sym dof _ _ h, Nat.mul_div_cancel_left _ (by omega), title_eq]

theorem places_entry (m : SMat) (fortran : Bool) : (m.places fortran).map (fun ij => m.entry ij.1 ij.2) = m.ravel fortran := by
  cases fortran with
  | false => rfl
  | true => simp [SMat.places, SMat.ravel, List.map_flatMap, Function.comp_def]

/-- without `collect_for` and `use_cse` the array printer is the one of C72 -/
theorem array_plain (m : SMat) (name : Str) (sufix header : Option Str) (pf pbm : Bool) (order op : Str) :
    printArray m name sufix none header pf none pbm order op =
      ((orderFlag order).bind fun f => (mprintArray m name sufix header pbm f op).map (finish pf (title name sufix)), m) := by
  unfold printArray
  cases ho : orderFlag order with
  | error e => rfl
  | ok f =>
    have hl : ∀ (l : List (ℕ × ℕ)) (k : ℕ), printLoop (arrayStepFull m name op none pbm) ((List.range' k l.length).zip l) =
        printLoop (arrayStep name op pbm) ((List.range' k l.length).zip (l.map fun ij => m.entry ij.1 ij.2)) := by
      intro l
      induction l with
      | nil => intro k; rfl
      | cons a l ih =>
        intro k
        have : arrayStepFull m name op none pbm (k, a) = arrayStep name op pbm (k, m.entry a.1 a.2) := by
          unfold arrayStepFull arrayStep
          cases m.entry a.1 a.2 <;> rfl
        simp only [List.length_cons, List.range'_succ, List.zip_cons_cons, List.map_cons, printLoop, this, ih]
    have hl' := hl (m.places f) 0
    rw [places_entry] at hl'
    rw [← List.range_eq_range'] at hl'
    have hlen : (m.places f).length = (m.ravel f).length := by rw [← places_entry, List.length_map]
    dsimp only [Except.bind]
    rw [hl', hlen]
    unfold mprintArray
    cases printLoop (arrayStep name op pbm) ((List.range (m.ravel f).length).zip (m.ravel f)) with
    | error e => rfl
    | ok body =>
      dsimp only [Except.map]
      have : (m.enum.filter fun ij => (m.entry ij.1 ij.2).isSome).length = ((m.ravel false).filter Option.isSome).length := by
        rw [← places_entry, List.filter_map, List.length_map]; rfl
      rw [title_eq, this, List.append_nil]

/-- C62 for the whole function: the printed text with any `print_file` -/
theorem C62_full (m : SMat) (name : Str) (header : Option Str) (pf powByMul : Bool) (dof : Option ℕ) (text : ℕ × ℕ → Str)
    (ht : ∀ i j v, i < m.rows → j < m.cols → m.entry i j = some v → (if powByMul then pow2mul v else .ok v) = .ok (text (i, j))) :
    ∃ ps : List (ℕ × ℕ), ps.Pairwise RowMajor ∧ (∀ i j, (i, j) ∈ ps ↔ i < m.rows ∧ j < m.cols ∧ m.entry i j ≠ none) ∧
      ∃ out, printDense m name [] header pf none powByMul dof = .ok out ∧ out.text = joinStr "\n".toList (topLine header ++
        ["# ".toList ++ name, "# ".toList ++ name ++ "_num=".toList ++ digits ps.length] ++ ps.map fun ij => denseLine name dof ij (text ij)) := by
  obtain ⟨ps, h1, h2, h3⟩ := C62_dense m name header powByMul dof text ht
  refine ⟨ps, h1, h2, _, by rw [dense_plain, h3]; rfl, ?_⟩
  rw [← header_top]
  cases header <;> rfl

/-- C63 for the whole function, with any `print_file`. What is missing is as in `C63_local_partial`: with `dofpernode` the local numbers are compared. -/
theorem C63_full_partial (m : SMat) (name : Str) (sufix header : Option Str) (pf powByMul sym : Bool) (dof : Option ℕ) (text : ℕ × ℕ → Str)
    (ht : ∀ i j v, i < m.rows → j < m.cols → m.entry i j = some v → (if powByMul then pow2mul v else .ok v) = .ok (text (i, j))) :
    ∃ ps : List (ℕ × ℕ), ps.Pairwise RowMajor ∧ (∀ i j, (i, j) ∈ ps ↔ i < m.rows ∧ j < m.cols ∧ m.entry i j ≠ none ∧ (sym = true →
        match dof with | none | some 0 => i ≤ j | some d => i % d ≤ j % d)) ∧
      ∃ out, printSparse m name sufix [] header pf none powByMul sym dof = .ok out ∧ out.text = joinStr "\n".toList (sparseTop (title name sufix) ps.length header ++
        ps.flatMap fun ij => sparseBlock name dof ij (text ij)) := by
  obtain ⟨ps, h1, h2, h3⟩ := sparse_out m name sufix header powByMul sym dof text ht
  refine ⟨ps, h1, fun i j => ?_, _, by rw [sparse_plain, h3]; rfl, rfl⟩
  rw [h2]
  match dof with
  | none => simp [upper]
  | some 0 => simp [upper]
  | some (d + 1) => simp [upper]

/-- C72 for the whole function: `order='C'` and `order='F'` with any `print_file`, `m` left alone; any other `order` raises UnboundLocalError -/
theorem C72_full (m : SMat) (name : Str) (sufix header : Option Str) (pf powByMul : Bool) (order op : Str) (text : ℕ → Str)
    (ht : ∀ k v, k < m.rows * m.cols → flatEntry m (order = "F".toList) k = some v → (if powByMul then arrValue v else .ok v) = .ok (text k)) :
    (printArray m name sufix none header pf none powByMul order op).2 = m ∧
    (order ≠ "C".toList → order ≠ "F".toList → (printArray m name sufix none header pf none powByMul order op).1 = .error .unboundLocal) ∧
    (order = "C".toList ∨ order = "F".toList → ∃ ks : List ℕ, ks.Pairwise (· < ·) ∧
      (∀ k, k ∈ ks ↔ k < m.rows * m.cols ∧ flatEntry m (order = "F".toList) k ≠ none) ∧
      ∃ out, (printArray m name sufix none header pf none powByMul order op).1 = .ok out ∧ out.text = joinStr "\n".toList (topLine header ++
        ["# ".toList ++ title name sufix, "# ".toList ++ title name sufix ++ "_num=".toList ++ digits ks.length] ++
        ks.map fun k => name ++ "[pos+".toList ++ digits k ++ "] ".toList ++ op ++ " ".toList ++ text k)) := by
  rw [array_plain]
  refine ⟨rfl, fun h1 h2 => by simp only [orderFlag, if_neg h1, if_neg h2]; rfl, fun ho => ?_⟩
  obtain ⟨ks, h1, h2, h3⟩ := C72_array m name sufix header powByMul (order = "F".toList) op text ht
  have ho' : orderFlag order = .ok (decide (order = "F".toList)) := by
    rcases ho with rfl | rfl <;> decide
  refine ⟨ks, h1, h2, _, by rw [ho']; dsimp only [Except.bind]; rw [h3]; rfl, ?_⟩
  rw [← header_top]
  cases header <;> rfl

/-! ### C99 -/

/-- C99 for `mprint_as_dense`: with `collect_for` every non-zero entry is printed once, row by row, as its place followed by a comment and the term for each
collected symbol; `pow_by_mul` plays no role -/
theorem C99_dense (m : SMat) (name : Str) (header : Option Str) (pf pbm : Bool) (c : ℕ → ℕ → List (Str × Str)) (dof : Option ℕ) :
    ∃ ps : List (ℕ × ℕ), ps.Pairwise RowMajor ∧ (∀ i j, (i, j) ∈ ps ↔ i < m.rows ∧ j < m.cols ∧ m.entry i j ≠ none) ∧
      ∃ out, printDense m name [] header pf (some c) pbm dof = .ok out ∧ out.text = joinStr "\n".toList (topLine header ++
        ["# ".toList ++ name, "# ".toList ++ name ++ "_num=".toList ++ digits ps.length] ++
        ps.flatMap fun ij => (name ++ "[".toList ++ place dof ij.1 ++ ", ".toList ++ place dof ij.2 ++ "] +=".toList) :: termLines (c ij.1 ij.2)) := by
  refine ⟨nonZero m, (enum_pairwise m).filter _, mem_nonZero m, ?_⟩
  have h := printLoop_ok (l := m.enum) (f := denseStepFull m name (some c) pbm dof) (g := fun ij => if (m.entry ij.1 ij.2).isSome then
      (name ++ "[".toList ++ place dof ij.1 ++ ", ".toList ++ place dof ij.2 ++ "] +=".toList) :: termLines (c ij.1 ij.2) else []) fun ij _ => by
    unfold denseStepFull
    cases m.entry ij.1 ij.2 with
    | none => rfl
    | some v =>
      match dof with
      | none => rfl
      | some 0 => rfl
      | some (d + 1) => simp [dofOf, place, digits, num, nodeNo, collectLines, termLines]
  rw [flatMap_if (fun ij : ℕ × ℕ => (m.entry ij.1 ij.2).isSome) (fun ij => (name ++ "[".toList ++ place dof ij.1 ++ ", ".toList ++ place dof ij.2 ++ "] +=".toList) :: termLines (c ij.1 ij.2)), ← nonZero] at h
  refine ⟨_, by unfold printDense; rw [h], ?_⟩
  simp only [finish, withSubs, List.mergeSort_nil, List.filter_nil, if_true, header_top]
  rfl

/-- C99 for `mprint_as_sparse` -/
theorem C99_sparse (m : SMat) (name : Str) (sufix header : Option Str) (pf pbm sym : Bool) (c : ℕ → ℕ → List (Str × Str)) (dof : Option ℕ) :
    ∃ ps : List (ℕ × ℕ), ps.Pairwise RowMajor ∧
      (∀ i j, (i, j) ∈ ps ↔ i < m.rows ∧ j < m.cols ∧ m.entry i j ≠ none ∧ (sym = true → upper dof (i, j) = true)) ∧
      ∃ out, printSparse m name sufix [] header pf (some c) pbm sym dof = .ok out ∧ out.text = joinStr "\n".toList (sparseTop (title name sufix) ps.length header ++
        ps.flatMap fun ij => ["c += 1".toList, name ++ "r[c] = ".toList ++ offset "row".toList dof ij.1, name ++ "c[c] = ".toList ++ offset "col".toList dof ij.2,
          name ++ "v[c] +=".toList] ++ termLines (c ij.1 ij.2)) := by
  have hc : ∀ ij, sparseCounts m sym dof ij = ((m.entry ij.1 ij.2).isSome && (!sym || upper dof ij)) := by
    intro ij
    have hu : ∀ a b : ℕ, (!sym || decide (a ≤ b)) = !(sym && decide (a > b)) := by
      intro a b
      rcases Nat.lt_or_ge b a with h | h
      · cases sym <;> simp [h, Nat.not_le.2 h]
      · cases sym <;> simp [h, Nat.not_lt.2 h]
    unfold sparseCounts
    cases m.entry ij.1 ij.2 with
    | none => rfl
    | some v =>
      match dof with
      | none => simp only [upper, hu]; rfl
      | some 0 => simp only [upper, hu]; rfl
      | some (d + 1) => simp only [upper, hu]; rfl
  refine ⟨m.enum.filter (sparseCounts m sym dof), (enum_pairwise m).filter _, ?_, ?_⟩
  · intro i j
    rw [List.mem_filter, mem_enum, hc, Bool.and_eq_true, Option.isSome_iff_ne_none]
    cases sym <;> simp <;> tauto
  have h := printLoop_ok (l := m.enum) (f := sparseStepFull m name (some c) pbm sym dof) (g := fun ij => if sparseCounts m sym dof ij then
      ["c += 1".toList, name ++ "r[c] = ".toList ++ offset "row".toList dof ij.1, name ++ "c[c] = ".toList ++ offset "col".toList dof ij.2,
          name ++ "v[c] +=".toList] ++ termLines (c ij.1 ij.2) else []) fun ij _ => by
    unfold sparseStepFull sparseCounts
    cases m.entry ij.1 ij.2 with
    | none => rfl
    | some v =>
      dsimp only
      by_cases hs : (sym && decide (localNo dof ij.1 > localNo dof ij.2)) = true
      · rw [if_pos hs, hs]; rfl
      · rw [if_neg hs]
        rw [Bool.not_eq_true] at hs
        rw [hs]
        match dof with
        | none => simp [dofOf, offset, digits, num, localNo, collectLines, termLines]
        | some 0 => simp [dofOf, offset, digits, num, localNo, collectLines, termLines]
        | some (d + 1) => simp [dofOf, offset, digits, num, nodeNo, localNo, collectLines, termLines]
  rw [flatMap_if (sparseCounts m sym dof)] at h
  refine ⟨_, by unfold printSparse; rw [h], ?_⟩
  simp only [finish, withSubs, List.mergeSort_nil, List.filter_nil, if_true, title_eq]
  congr 1
  cases header with
  | none => rfl
  | some hd =>
    by_cases hh : hd = []
    · simp only [headerLines, hh, if_true, sparseTop]; rfl
    · simp only [headerLines, hh, if_false, sparseTop]; rfl

theorem places_eq (m : SMat) (fortran : Bool) : m.places fortran =
    (List.range (m.rows * m.cols)).map fun k => if fortran then (k % m.rows, k / m.rows) else (k / m.cols, k % m.cols) := by
  cases fortran with
  | false => simpa [SMat.places, SMat.enum] using range_pairs m.rows m.cols
  | true =>
    have := congrArg (List.map Prod.swap) (range_pairs m.cols m.rows)
    rw [List.map_map, List.map_flatMap] at this
    simpa [SMat.places, Function.comp_def, Nat.mul_comm] using this

/-- C99 for `mprint_as_array`; `op` plays no role -/
theorem C99_array (m : SMat) (name : Str) (sufix header : Option Str) (pf pbm fortran : Bool) (c : ℕ → ℕ → List (Str × Str)) (op : Str) :
    ∃ ks : List ℕ, ks.Pairwise (· < ·) ∧ (∀ k, k ∈ ks ↔ k < m.rows * m.cols ∧ flatEntry m fortran k ≠ none) ∧
      ∃ out, printArray m name sufix none header pf (some c) pbm (if fortran then "F".toList else "C".toList) op = (.ok out, m) ∧
      out.text = joinStr "\n".toList (topLine header ++
        ["# ".toList ++ title name sufix, "# ".toList ++ title name sufix ++ "_num=".toList ++ digits ks.length] ++
        ks.flatMap fun k => (name ++ "[pos+".toList ++ digits k ++ "] +=".toList) ::
          termLines (if fortran then c (k % m.rows) (k / m.rows) else c (k / m.cols) (k % m.cols))) := by
  refine ⟨(List.range (m.rows * m.cols)).filter fun k => (flatEntry m fortran k).isSome, List.pairwise_lt_range.filter _, ?_, ?_⟩
  · intro k
    rw [List.mem_filter, List.mem_range, Option.isSome_iff_ne_none]
  have ho : orderFlag (if fortran then "F".toList else "C".toList) = .ok fortran := by cases fortran <;> decide
  have hz : (List.range (m.places fortran).length).zip (m.places fortran) = (List.range (m.rows * m.cols)).map fun k =>
      (k, if fortran then (k % m.rows, k / m.rows) else (k / m.cols, k % m.cols)) := by
    have hg : ∀ (l : List ℕ) (g : ℕ → ℕ × ℕ), l.zip (l.map g) = l.map fun k => (k, g k) := by
      intro l g; induction l with
      | nil => rfl
      | cons a l ih => rw [List.map_cons, List.zip_cons_cons, ih]; rfl
    rw [places_eq, List.length_map, List.length_range, hg]
  have h := printLoop_ok (l := (List.range (m.rows * m.cols)).map fun k => (k, if fortran then (k % m.rows, k / m.rows) else (k / m.cols, k % m.cols)))
    (f := arrayStepFull m name op (some c) pbm) (g := fun p => if (m.entry p.2.1 p.2.2).isSome then
      (name ++ "[pos+".toList ++ digits p.1 ++ "] +=".toList) :: termLines (c p.2.1 p.2.2) else []) fun p _ => by
    unfold arrayStepFull
    cases m.entry p.2.1 p.2.2 <;> rfl
  rw [List.flatMap_map] at h
  have he : ∀ k, m.entry (if fortran then (k % m.rows, k / m.rows) else (k / m.cols, k % m.cols)).1 (if fortran then (k % m.rows, k / m.rows) else (k / m.cols, k % m.cols)).2
      = flatEntry m fortran k := by intro k; cases fortran <;> rfl
  simp only [he] at h
  rw [flatMap_if (fun k => (flatEntry m fortran k).isSome)] at h
  have hcount : (m.enum.filter fun ij => (m.entry ij.1 ij.2).isSome).length = ((List.range (m.rows * m.cols)).filter fun k => (flatEntry m fortran k).isSome).length := by
    have e1 : (m.enum.filter fun ij => (m.entry ij.1 ij.2).isSome).length = ((m.ravel false).filter Option.isSome).length := by
      rw [← places_entry, List.filter_map, List.length_map]; rfl
    rw [e1, ← ravel_count m fortran, ravel_eq, List.filter_map, List.length_map]; rfl
  refine ⟨_, by unfold printArray; rw [ho]; dsimp only; rw [hz, h], ?_⟩
  simp only [finish, title_eq, hcount, header_top, List.append_nil]
  cases fortran <;> rfl

/-! ### C100 -/

/-- C100: a printer that returns a text has written exactly one file, `print_` with the title and `.txt`, whose content is the returned text (none with
`print_file=False`) -/
theorem C100_sparse {m : SMat} {name : Str} {sufix header : Option Str} {subs : List (Str × Str)} {pf pbm sym : Bool} {c : Collect} {dof : Option ℕ} {out : Printed}
    (h : printSparse m name sufix subs header pf c pbm sym dof = .ok out) :
    out.files = if pf then [("print_".toList ++ title name sufix ++ ".txt".toList, out.text)] else [] := by
  unfold printSparse at h
  cases hb : printLoop (sparseStepFull m name c pbm sym dof) m.enum with
  | error e => rw [hb] at h; cases h
  | ok body => rw [hb] at h; cases h; rw [title_eq]; rfl

theorem C100_dense {m : SMat} {name : Str} {header : Option Str} {subs : List (Str × Str)} {pf pbm : Bool} {c : Collect} {dof : Option ℕ} {out : Printed}
    (h : printDense m name subs header pf c pbm dof = .ok out) :
    out.files = if pf then [("print_".toList ++ name ++ ".txt".toList, out.text)] else [] := by
  unfold printDense at h
  cases hb : printLoop (denseStepFull m name c pbm dof) m.enum with
  | error e => rw [hb] at h; cases h
  | ok body => rw [hb] at h; cases h; rfl

theorem C100_array {m m' : SMat} {name order op : Str} {sufix header : Option Str} {cse : Option (List (Str × Str) × SMat)} {pf pbm : Bool} {c : Collect} {out : Printed}
    (h : printArray m name sufix cse header pf c pbm order op = (.ok out, m')) :
    out.files = if pf then [("print_".toList ++ title name sufix ++ ".txt".toList, out.text)] else [] := by
  unfold printArray at h
  dsimp only at h
  cases ho : orderFlag order with
  | error e => rw [ho] at h; cases h
  | ok f =>
    rw [ho] at h
    dsimp only at h
    split at h
    · cases h
    · cases h; rw [title_eq]; rfl

/-! ### C101 -/

theorem contains_infix (p s : Str) : contains p s = true ↔ p <:+: s := by
  unfold contains
  rw [List.any_eq_true]
  constructor
  · rintro ⟨t, ht, hp⟩
    exact (List.isPrefixOf_iff_prefix.1 hp).isInfix.trans ((List.mem_tails _ _).1 ht).isInfix
  · rintro ⟨a, b, rfl⟩
    exact ⟨p ++ b, (List.mem_tails _ _).2 ⟨a, by simp⟩, List.isPrefixOf_iff_prefix.2 ⟨b, rfl⟩⟩

theorem joinStr_append (sep : Str) : ∀ (a b : List Str), a ≠ [] → b ≠ [] → joinStr sep (a ++ b) = joinStr sep a ++ sep ++ joinStr sep b
  | [], _, h, _ => absurd rfl h
  | [x], y :: b, _, _ => by simp [joinStr, List.intercalate, List.intersperse]
  | x :: x' :: a, b, _, hb => by
    have ih := joinStr_append sep (x' :: a) b (by simp) hb
    cases b with
    | nil => exact absurd rfl hb
    | cons y b =>
      simp only [joinStr, List.intercalate, List.cons_append, List.intersperse_cons_cons, List.flatten_cons, List.append_assoc] at ih ⊢
      rw [ih]

/-- what `withSubs` adds -/
theorem withSubs_spec (subs : List (Str × Str)) (first last : List Str) (pre : Str) (ls : List Str) (hf : first ≠ []) (hl : ls ≠ []) :
    ∃ items : List (Str × Str), items.Perm (subs.filter fun kv => contains kv.2 (joinStr "\n".toList ls)) ∧
      items.Pairwise (fun a b => String.ofList a.2 ≤ String.ofList b.2) ∧
      withSubs subs first last pre ls = (if items = [] then [] else joinStr "\n".toList (first ++ items.map (fun kv => pre ++ kv.2 ++ " = ".toList ++ kv.1) ++ last) ++
        "\n".toList) ++ joinStr "\n".toList ls := by
  refine ⟨(subs.mergeSort fun a b => decide (String.ofList a.2 ≤ String.ofList b.2)).filter fun kv => contains kv.2 (joinStr "\n".toList ls),
    (List.mergeSort_perm _ _).filter _, ?_, ?_⟩
  · have := List.pairwise_mergeSort (le := fun a b : Str × Str => decide (String.ofList a.2 ≤ String.ofList b.2))
      (fun a b c h1 h2 => by simp only [decide_eq_true_eq] at *; exact String.le_trans h1 h2) (fun a b => by simpa using String.le_total _ _) subs
    exact (this.imp fun h => by simpa using h).filter _
  · unfold withSubs
    dsimp only
    split
    · rfl
    · rw [joinStr_append _ _ ls (by simp [hf]) hl]

/-- the substitutions split into those whose new text occurs in `t`, sorted by that text, and the others -/
def ListedSubs (subs : List (Str × Str)) (t : Str) (items : List (Str × Str)) : Prop :=
  ∃ rest, (items ++ rest).Perm subs ∧ (∀ kv ∈ items, kv.2 <:+: t) ∧ (∀ kv ∈ rest, ¬ kv.2 <:+: t) ∧ items.Pairwise fun a b => String.ofList a.2 ≤ String.ofList b.2

theorem listed {subs items : List (Str × Str)} {t : Str} (hp : items.Perm (subs.filter fun kv => contains kv.2 t))
    (hs : items.Pairwise fun a b => String.ofList a.2 ≤ String.ofList b.2) : ListedSubs subs t items := by
  refine ⟨subs.filter fun kv => !contains kv.2 t, (hp.append_right _).trans (List.filter_append_perm _ _), fun kv h => ?_, fun kv h => ?_, hs⟩
  · exact (contains_infix _ _).1 (List.mem_filter.1 (hp.mem_iff.1 h)).2
  · have := (List.mem_filter.1 h).2
    rw [← contains_infix]
    simpa using this

theorem insertIdx_ne_nil {α : Type} (l : List α) (x : α) (h : l ≠ []) : l.insertIdx 1 x ≠ [] := by
  cases l with
  | nil => exact absurd rfl h
  | cons a l => simp

/-- C101 for `mprint_as_dense`: with `subs` the text is preceded by a list of exactly those substitutions whose new text occurs in it, sorted -/
theorem C101_dense {m : SMat} {name : Str} {header : Option Str} {pf pbm : Bool} {c : Collect} {dof : Option ℕ} {out : Printed}
    (h : printDense m name [] header pf c pbm dof = .ok out) (subs : List (Str × Str)) :
    ∃ items out', ListedSubs subs out.text items ∧ printDense m name subs header pf c pbm dof = .ok out' ∧
      out'.text = (if items = [] then [] else joinStr "\n".toList ("# subs".toList :: items.map fun kv => "# ".toList ++ kv.2 ++ " = ".toList ++ kv.1) ++ "\n".toList) ++
        out.text := by
  unfold printDense at h ⊢
  cases hb : printLoop (denseStepFull m name c pbm dof) m.enum with
  | error e => rw [hb] at h; cases h
  | ok body =>
    rw [hb] at h
    simp only [Except.ok.injEq] at h
    subst h
    obtain ⟨items, h1, h2, h3⟩ := withSubs_spec subs ["# subs".toList] [] "# ".toList (headerLines header ++ ["# ".toList ++ name,
      "# ".toList ++ name ++ "_num=".toList ++ num ((m.enum.filter fun ij => (m.entry ij.1 ij.2).isSome).length)] ++ body) (by simp) (by simp)
    have e0 : ∀ ls first last pre, withSubs [] first last pre ls = joinStr "\n".toList ls := by intro ls first last pre; simp [withSubs]
    simp only [finish, e0]
    exact ⟨items, _, listed h1 h2, rfl, by rw [h3, List.append_nil]; rfl⟩

/-- C101 for `mprint_as_sparse` -/
theorem C101_sparse {m : SMat} {name : Str} {sufix header : Option Str} {pf pbm sym : Bool} {c : Collect} {dof : Option ℕ} {out : Printed}
    (h : printSparse m name sufix [] header pf c pbm sym dof = .ok out) (subs : List (Str × Str)) :
    ∃ items out', ListedSubs subs out.text items ∧ printSparse m name sufix subs header pf c pbm sym dof = .ok out' ∧
      out'.text = (if items = [] then [] else joinStr "\n".toList ("subs\n".toList :: items.map (fun kv => kv.2 ++ " = ".toList ++ kv.1) ++ ["\n".toList]) ++
        "\n".toList) ++ out.text := by
  unfold printSparse at h ⊢
  cases hb : printLoop (sparseStepFull m name c pbm sym dof) m.enum with
  | error e => rw [hb] at h; cases h
  | ok body =>
    rw [hb] at h
    simp only [Except.ok.injEq] at h
    subst h
    obtain ⟨items, h1, h2, h3⟩ := withSubs_spec subs ["subs\n".toList] ["\n".toList] [] ((headerLines header ++ ["# ".toList ++ nameSuffix name sufix] ++ body).insertIdx 1
      ("# ".toList ++ nameSuffix name sufix ++ "_num=".toList ++ num (m.enum.filter (sparseCounts m sym dof)).length)) (by simp) (insertIdx_ne_nil _ _ (by simp))
    have e0 : ∀ ls first last pre, withSubs [] first last pre ls = joinStr "\n".toList ls := by intro ls first last pre; simp [withSubs]
    simp only [finish, e0]
    exact ⟨items, _, listed h1 h2, rfl, by rw [h3]; rfl⟩

/-! ### C102 -/

theorem nines {α : Type} : ∀ (n : ℕ) (l : List α), l.length ≤ n → ((List.range ((l.length + 8) / 9)).map fun i => (l.drop (9 * i)).take 9).flatten = l ∧
    ∀ g ∈ (List.range ((l.length + 8) / 9)).map fun i => (l.drop (9 * i)).take 9, g ≠ [] ∧ g.length ≤ 9
  | n, [], _ => by simp
  | 0, _ :: _, h => by simp at h
  | n + 1, a :: l, h => by
    have ih := nines n ((a :: l).drop 9) (by simp only [List.length_drop, List.length_cons] at *; omega)
    have hn : ((a :: l).length + 8) / 9 = (((a :: l).drop 9).length + 8) / 9 + 1 := by
      simp only [List.length_drop, List.length_cons]; omega
    rw [hn, List.range_succ_eq_map, List.map_cons, List.map_map]
    have he : ((fun i => ((a :: l).drop (9 * i)).take 9) ∘ Nat.succ) = fun i => (((a :: l).drop 9).drop (9 * i)).take 9 := by
      funext i
      simp only [Function.comp, List.drop_drop]
      congr 2
      omega
    rw [he]
    constructor
    · rw [List.flatten_cons, ih.1]
      exact List.take_append_drop 9 (a :: l)
    · intro g hg
      rcases List.mem_cons.1 hg with rfl | hg
      · exact ⟨by simp, List.length_take_le _ _⟩
      · exact ih.2 g hg

/-- C102: with `use_cse` the output is the declarations, every substituted symbol declared exactly once in its order, at most nine per line, then one
assignment per symbol in the same order, then what is printed for the reduced matrix -/
theorem C102_cse {m r : SMat} {name order op : Str} {sufix header : Option Str} {subs : List (Str × Str)} {pf pbm : Bool} {c : Collect} {out : Printed}
    (h : printArray r name sufix none none pf c pbm order op = (.ok out, r)) : ∃ (groups : List (List Str)) (out' : Printed),
      groups.flatten = subs.map Prod.fst ∧ (∀ g ∈ groups, g ≠ [] ∧ g.length ≤ 9) ∧
      (printArray m name sufix (some (subs, r)) header pf c pbm order op).1 = .ok out' ∧
      out'.text = joinStr "\n".toList (topLine header ++ ["# cdefs".toList] ++ groups.map (fun g => "cdef double ".toList ++ joinStr ", ".toList g) ++ ["# subs".toList] ++
        subs.map fun s => s.1 ++ " = ".toList ++ s.2) ++ "\n".toList ++ out.text := by
  obtain ⟨h1, h2⟩ := nines _ (subs.map Prod.fst) le_rfl
  refine ⟨(List.range (((subs.map Prod.fst).length + 8) / 9)).map fun i => ((subs.map Prod.fst).drop (9 * i)).take 9, ?_⟩
  have hlen : (subs.map Prod.fst).length = subs.length := List.length_map ..
  unfold printArray at h ⊢
  dsimp only at h ⊢
  cases ho : orderFlag order with
  | error e => rw [ho] at h; cases h
  | ok f =>
    rw [ho] at h
    dsimp only at h ⊢
    cases hb : printLoop (arrayStepFull r name op c pbm) ((List.range (r.places f).length).zip (r.places f)) with
    | error e => rw [hb] at h; cases h
    | ok body =>
      rw [hb] at h
      simp only [Prod.mk.injEq, Except.ok.injEq, and_true] at h
      subst h
      refine ⟨_, h1, h2, rfl, ?_⟩
      have e0 : topLine none = [] := rfl
      simp only [finish, List.nil_append, header_top, hlen, e0]
      rw [List.append_assoc, joinStr_append _ (topLine header ++ cseLines subs) _ (by simp [cseLines]) (by simp)]
      simp only [cseLines, List.map_map, Function.comp_def, List.map_take, List.map_drop, List.append_assoc]

/-! ### C103 -/

/-- C103 as far as it holds: without `use_cse` the matrix given to `mprint_as_array` is as before after the call, also after an exception; with `use_cse`
it holds the reduced matrix. (The other two printers have no statement that writes to it.) Missing: with `use_cse` the claim is false, see `C103_false`. -/
theorem C103_kept_partial (m : SMat) (name order op : Str) (sufix header : Option Str) (pf pbm : Bool) (c : Collect) :
    (printArray m name sufix none header pf c pbm order op).2 = m ∧ ∀ r, (printArray m name sufix (some r) header pf c pbm order op).2 = r.2 := by
  constructor
  · unfold printArray
    dsimp only
    split
    · rfl
    · split <;> rfl
  · intro r
    unfold printArray
    dsimp only
    split
    · rfl
    · split <;> rfl

/-- `(a + b)**2` and `2*(a + b)` in a row, and the result of `sympy.cse`: `x0 = a + b` with `x0**2` and `2*x0` -/
def cseBefore : SMat := ⟨1, 2, fun _ j => some (if j = 0 then "(a + b)**2".toList else "2*(a + b)".toList)⟩
/-- see `cseBefore` -/
def cseAfter : SMat := ⟨1, 2, fun _ j => some (if j = 0 then "x0**2".toList else "2*x0".toList)⟩

/-- C103 is false with `use_cse`: after printing `[(a + b)**2, 2*(a + b)]` the caller's matrix is `[x0**2, 2*x0]` -/
theorem C103_false : (printArray cseBefore "k".toList none (some ([("x0".toList, "a + b".toList)], cseAfter)) none true none true "C".toList "+=".toList).2.entry 0 0 =
    some "x0**2".toList ∧ cseBefore.entry 0 0 ≠ some "x0**2".toList := by
  rw [(C103_kept_partial cseBefore _ _ _ _ _ _ _ _).2]
  decide

/-! ### C104 -/

/-- C104 as far as it holds: without `collect_for` every printed entry of `mprint_as_array` is a line `name[pos+k] op text`. Missing: with `collect_for` the
claim is false, see `C104_false`. -/
theorem C104_op_partial (m : SMat) (name : Str) (sufix header : Option Str) (pf powByMul fortran : Bool) (op : Str) {out : Printed}
    (h : (printArray m name sufix none header pf none powByMul (if fortran then "F".toList else "C".toList) op).1 = .ok out) :
    ∃ lines : List Str, out.text = joinStr "\n".toList (topLine header ++ ["# ".toList ++ title name sufix,
        "# ".toList ++ title name sufix ++ "_num=".toList ++ digits lines.length] ++ lines) ∧
      ∀ l ∈ lines, ∃ k < m.rows * m.cols, flatEntry m fortran k ≠ none ∧ ∃ t, l = name ++ "[pos+".toList ++ digits k ++ "] ".toList ++ op ++ " ".toList ++ t := by
  have ho : (if fortran then "F".toList else "C".toList) = "C".toList ∨ (if fortran then "F".toList else "C".toList) = "F".toList := by cases fortran <;> simp
  have hf : (decide ((if fortran then "F".toList else "C".toList) = "F".toList)) = fortran := by cases fortran <;> decide
  have hval : ∀ k v, k < m.rows * m.cols → flatEntry m fortran k = some v → ∃ t, (if powByMul then arrValue v else .ok v) = .ok t := by
    intro k v hk hv
    rw [array_plain] at h
    have ho' : orderFlag (if fortran then "F".toList else "C".toList) = .ok fortran := by cases fortran <;> decide
    rw [ho'] at h
    dsimp only [Except.bind] at h
    cases hx : (if powByMul then arrValue v else .ok v : Except Err Str) with
    | ok t => exact ⟨t, rfl⟩
    | error e =>
      exfalso
      cases hm : mprintArray m name sufix header powByMul fortran op with
      | error e' => rw [hm] at h; cases h
      | ok o =>
        unfold mprintArray at hm
        cases hb : printLoop (arrayStep name op powByMul) ((List.range (m.ravel fortran).length).zip (m.ravel fortran)) with
        | error e' => rw [hb] at hm; cases hm
        | ok body =>
          have hmem : (k, flatEntry m fortran k) ∈ (List.range (m.ravel fortran).length).zip (m.ravel fortran) := by
            rw [ravel_eq, List.length_map, List.length_range]
            have hg : ∀ l : List ℕ, l.zip (l.map (flatEntry m fortran)) = l.map fun k => (k, flatEntry m fortran k) := by
              intro l; induction l with
              | nil => rfl
              | cons a l ih => rw [List.map_cons, List.zip_cons_cons, ih]; rfl
            rw [hg]
            exact List.mem_map.2 ⟨k, List.mem_range.2 hk, rfl⟩
          have hall : ∀ (l : List (ℕ × Option Str)) (b : List Str), printLoop (arrayStep name op powByMul) l = .ok b → ∀ a ∈ l, ∃ x, arrayStep name op powByMul a = .ok x := by
            intro l
            induction l with
            | nil => intro b _ a ha; cases ha
            | cons a' l ih =>
              intro b hb a ha
              rw [printLoop] at hb
              cases hs : arrayStep name op powByMul a' with
              | error e => rw [hs] at hb; cases hb
              | ok x =>
                rw [hs] at hb
                dsimp only at hb
                cases hp : printLoop (arrayStep name op powByMul) l with
                | error e => rw [hp] at hb; cases hb
                | ok y =>
                  rcases List.mem_cons.1 ha with rfl | ha
                  · exact ⟨x, hs⟩
                  · exact ih y hp a ha
          obtain ⟨x, hxx⟩ := hall _ _ hb _ hmem
          unfold arrayStep at hxx
          rw [hv] at hxx
          dsimp only at hxx
          rw [hx] at hxx
          cases hxx
  choose! text htext using hval
  have htext' : ∀ k v, k < m.rows * m.cols → flatEntry m fortran k = some v → (if powByMul then arrValue v else .ok v) = .ok (text k ((flatEntry m fortran k).getD [])) := by
    intro k v hk hv
    rw [hv]
    exact htext k v hk hv
  obtain ⟨ks, _, h2, out', h3, h4⟩ := (C72_full m name sufix header pf powByMul (if fortran then "F".toList else "C".toList) op
    (fun k => text k ((flatEntry m fortran k).getD [])) (by rw [hf]; exact htext')).2.2 ho
  rw [h3] at h
  cases h
  rw [hf] at h2
  refine ⟨ks.map fun k => name ++ "[pos+".toList ++ digits k ++ "] ".toList ++ op ++ " ".toList ++ text k ((flatEntry m fortran k).getD []), by rw [h4, List.length_map], ?_⟩
  intro l hl
  obtain ⟨k, hk, rfl⟩ := List.mem_map.1 hl
  exact ⟨k, ((h2 k).1 hk).1, ((h2 k).1 hk).2, _, rfl⟩

/-- C104 is false with `collect_for`: with `op='='` the entry is printed with `+=` -/
theorem C104_false : ∃ out, (printArray (oneEntry "a*x".toList) "k".toList none none none false (some fun _ _ => [("x".toList, "a*x".toList)]) true "C".toList "=".toList).1 = .ok out ∧
    out.text = "# k\n# k_num=1\nk[pos+0] +=\n#   collected for x\n    a*x".toList := ⟨_, rfl, by decide⟩

/-! ### concrete cases -/

/-- `mprint_as_dense` of a row `[a*x + b, 0]` collected for `x` -/
example : ∃ out, printDense ⟨1, 2, fun _ j => if j = 0 then some "a*x + b".toList else none⟩ "k".toList [] none true
    (some fun _ _ => [("x".toList, "a*x".toList), ("1".toList, "b".toList)]) true none = .ok out ∧
    out.text = "# k\n# k_num=1\nk[0, 0] +=\n#   collected for x\n    a*x\n#   collected for 1\n    b".toList ∧
    out.files = [("print_k.txt".toList, out.text)] :=
  ⟨_, rfl, by simp only [finish, withSubs, List.mergeSort_nil, List.filter_nil, if_true]; decide, rfl⟩

/-- the reduced row of `cseBefore` is printed, so C102 applies -/
example : ∃ out, printArray cseAfter "k".toList none none none true none false "C".toList "+=".toList = (.ok out, cseAfter) ∧
    out.text = "# k\n# k_num=2\nk[pos+0] += x0**2\nk[pos+1] += 2*x0".toList := by
  have h := C72_full cseAfter "k".toList none none true false "C".toList "+=".toList (fun k => if k = 0 then "x0**2".toList else "2*x0".toList) (by
    intro k v hk hv
    have : k = 0 ∨ k = 1 := by have : k < 2 := hk; omega
    rcases this with rfl | rfl
    · cases hv; rfl
    · cases hv; rfl)
  obtain ⟨ks, h1, h2, out, h3, h4⟩ := h.2.2 (Or.inl rfl)
  have hks : ks = [0, 1] := by
    refine List.Perm.eq_of_pairwise (le := (· < ·)) (fun a b _ _ x y => by omega) h1 (by decide) ?_
    refine (List.perm_ext_iff_of_nodup (h1.imp fun h => Nat.ne_of_lt h) (by decide)).2 fun k => ?_
    rw [h2]
    change k < 2 ∧ _ ↔ _
    simp only [List.mem_cons, List.not_mem_nil, or_false]
    constructor
    · rintro ⟨h, _⟩; omega
    · rintro (rfl | rfl) <;> exact ⟨by omega, by simp [flatEntry, cseAfter]⟩
  refine ⟨out, Prod.ext h3 h.1, ?_⟩
  rw [h4, hks]
  decide

/-- substitutions `{b: 'beta', z: 'zeta'}` for the text with `beta` only -/
example : ListedSubs [("b".toList, "beta".toList), ("z".toList, "zeta".toList)] "k[0] += beta".toList [("b".toList, "beta".toList)] :=
  listed (by decide) (by simp)

end Meshless
