import Verif.Props.SymPyFull

/-! C72: `mprint_as_array` returns for every matrix; the expansion of powers never raises. C61: the texts on which `pow2mul` returns. -/

set_option autoImplicit false

namespace Meshless
open SymPy Spec

/-- what `re.findall` finds is a match somewhere in the text -/
theorem findAll_found {m : Str → Option ℕ} : ∀ (n : ℕ) (s : Str), s.length ≤ n → ∀ p ∈ findAll m s, ∃ u k, u <:+ s ∧ m u = some k ∧ p = u.take k
  | _, [], _, p, hp => by rw [findAll] at hp; simp at hp
  | 0, _ :: _, hn, _, _ => by simp at hn
  | n + 1, c :: t, hn, p, hp => by
    rw [findAll] at hp
    have ht : t.length ≤ n := by simpa using hn
    split at hp
    · rename_i k hk
      rcases List.mem_cons.1 hp with rfl | hp
      · exact ⟨c :: t, _, List.suffix_rfl, hk, rfl⟩
      · obtain ⟨u, j, hs, h⟩ := findAll_found n _ (by rw [List.length_drop]; omega) p hp
        exact ⟨u, j, (hs.trans (List.drop_suffix _ _)).trans (List.suffix_cons _ _), h⟩
    · obtain ⟨u, j, hs, h⟩ := findAll_found n t ht p hp
      exact ⟨u, j, hs.trans (List.suffix_cons _ _), h⟩

theorem takeWhile_all (f : Char → Bool) : ∀ (s : Str), ∀ c ∈ s.takeWhile f, f c = true := fun s c hc => by
  induction s with
  | nil => simp at hc
  | cons a s ih =>
    rw [List.takeWhile_cons] at hc
    split at hc
    · rcases List.mem_cons.1 hc with rfl | hc
      · assumption
      · exact ih hc
    · simp at hc

/-- a match of the pattern of `mprint_as_array` is a name, two stars and digits, so it can be split and its exponent read -/
theorem matchArr_new {u : Str} {k : ℕ} (h : matchArr u = some k) : ∃ t, arrNew (u.take k) = .ok t := by
  unfold matchArr at h
  dsimp only at h
  split at h
  · simp at h
  split at h
  · rename_i hw r hr
    split at h
    · simp at h
    · rename_i hd
      have hu : u = u.takeWhile isWord ++ ('*' :: '*' :: (r.takeWhile isDigit ++ r.dropWhile isDigit)) := by
        conv_lhs => rw [← List.takeWhile_append_dropWhile (p := isWord) (l := u), hr]
        rw [List.takeWhile_append_dropWhile]
      have hk : u.take k = u.takeWhile isWord ++ '*' :: '*' :: r.takeWhile isDigit := by
        have e : u = (u.takeWhile isWord ++ '*' :: '*' :: r.takeWhile isDigit) ++ r.dropWhile isDigit := by
          conv_lhs => rw [hu]
          simp
        have hl : k = (u.takeWhile isWord ++ '*' :: '*' :: r.takeWhile isDigit).length := by
          have := Option.some.inj h
          simp only [List.length_append, List.length_cons]
          omega
        conv_lhs => rw [e, hl]
        exact List.take_left
      rw [hk]
      exact ⟨_, arrNew_pow (fun c hc => (isWord_iff c).1 (takeWhile_all _ _ c hc)) hd (fun c hc => (isDigit_iff c).1 (takeWhile_all _ _ c hc))⟩
  · simp at h

theorem pairs_total {new : Str → Except Err Str} : ∀ {l : List Str}, (∀ p ∈ l, ∃ t, new p = .ok t) → ∃ r, pairs new l = .ok r
  | [], _ => ⟨_, rfl⟩
  | p :: l, h => by
    obtain ⟨t, ht⟩ := h p List.mem_cons_self
    obtain ⟨r, hr⟩ := pairs_total fun q hq => h q (List.mem_cons_of_mem _ hq)
    exact ⟨_, by rw [pairs, ht]; dsimp only; rw [hr]⟩

/-- the expansion of powers in `mprint_as_array` never raises -/
theorem arrValue_total (v : Str) : ∃ t, arrValue v = .ok t := by
  obtain ⟨r, hr⟩ := pairs_total (new := arrNew) (l := findAll matchArr v) (by
    intro p hp
    obtain ⟨u, k, _, h, e⟩ := findAll_found _ v le_rfl p hp
    rw [e]; exact matchArr_new h)
  exact ⟨_, by rw [arrValue, hr]⟩

/-- C72 for every matrix and every text of its entries: `mprint_as_array` returns; it prints one line per non-zero entry at its flat position, and without
`pow_by_mul` the line ends with the text of the entry -/
theorem C72_always (m : SMat) (name : Str) (sufix header : Option Str) (pf powByMul : Bool) (order op : Str) (ho : order = "C".toList ∨ order = "F".toList) :
    ∃ (ks : List ℕ) (text : ℕ → Str) (out : Printed), ks.Pairwise (· < ·) ∧
      (∀ k, k ∈ ks ↔ k < m.rows * m.cols ∧ flatEntry m (order = "F".toList) k ≠ none) ∧
      printArray m name sufix none header pf none powByMul order op = (.ok out, m) ∧ out.text = joinStr "\n".toList (topLine header ++
        ["# ".toList ++ title name sufix, "# ".toList ++ title name sufix ++ "_num=".toList ++ digits ks.length] ++
        ks.map fun k => name ++ "[pos+".toList ++ digits k ++ "] ".toList ++ op ++ " ".toList ++ text k) ∧
      (powByMul = false → ∀ k ∈ ks, flatEntry m (order = "F".toList) k = some (text k)) := by
  have hv : ∀ k, ∃ t, ∀ v, flatEntry m (order = "F".toList) k = some v → (if powByMul then arrValue v else .ok v) = .ok t := by
    intro k
    cases he : flatEntry m (order = "F".toList) k with
    | none => exact ⟨[], fun v hv => by cases hv⟩
    | some v =>
      cases powByMul with
      | false => exact ⟨v, fun v' hv => by cases hv; rfl⟩
      | true =>
        obtain ⟨t, ht⟩ := arrValue_total v
        exact ⟨t, fun v' hv => by cases hv; exact ht⟩
  choose text ht using hv
  obtain ⟨h1, _, h3⟩ := C72_full m name sufix header pf powByMul order op text fun k v _ h => ht k v h
  obtain ⟨ks, hs, hm, out, ho1, ho2⟩ := h3 ho
  refine ⟨ks, text, out, hs, hm, Prod.ext ho1 h1, ho2, fun hp k hk => ?_⟩
  subst hp
  obtain ⟨_, hn⟩ := (hm k).1 hk
  obtain ⟨v, hv⟩ := Option.ne_none_iff_exists'.1 hn
  have := ht k v hv
  simp only [Bool.false_eq_true, if_false, Except.ok.injEq] at this
  rw [hv, this]

/-- the text `b**2 + ab**2`, which is expanded to a wrong text (`arr_inner`), is printed too -/
example : ∃ out, (printArray (oneEntry "b**2 + ab**2".toList) "k".toList none none none false none true "C".toList "+=".toList).1 = .ok out :=
  let ⟨_, _, out, _, _, h, _⟩ := C72_always (oneEntry "b**2 + ab**2".toList) "k".toList none none false true "C".toList "+=".toList (Or.inl rfl)
  ⟨out, by rw [h]⟩

/-! ### C61 -/

/-- the first pattern of `pow2mul`: a name or a group without parentheses inside, stars and digits -/
theorem matchPow_shape {u : Str} {k : ℕ} (h : matchPow u = some k) :
    (∃ w b d, (∀ c ∈ w, Word c) ∧ (∀ c ∈ b, Blank c) ∧ d ≠ [] ∧ (∀ c ∈ d, Digit c) ∧ u.take k = w ++ '*' :: '*' :: (b ++ d)) ∨
    ∃ c d, (∀ x ∈ c, ¬ Paren x) ∧ d ≠ [] ∧ (∀ x ∈ d, Digit x) ∧ u.take k = '(' :: (c ++ ')' :: '*' :: '*' :: d) ∧ ('(' :: (c ++ ')' :: '*' :: '*' :: d)) <+: u := by
  unfold matchPow at h
  cases hw : matchWord u with
  | some j =>
    rw [hw] at h
    have hj : j = k := by simpa using h
    subst hj
    left
    unfold matchWord at hw
    dsimp only at hw
    split at hw
    · simp at hw
    split at hw
    · rename_i _ r hr
      split at hw
      · simp at hw
      · rename_i hd
        have e : u = (u.takeWhile isWord ++ '*' :: '*' :: (r.takeWhile isSpace ++ (r.dropWhile isSpace).takeWhile isDigit)) ++ (r.dropWhile isSpace).dropWhile isDigit := by
          conv_lhs => rw [← List.takeWhile_append_dropWhile (p := isWord) (l := u), hr]
          simp
        have hl : j = (u.takeWhile isWord ++ '*' :: '*' :: (r.takeWhile isSpace ++ (r.dropWhile isSpace).takeWhile isDigit)).length := by
          have := Option.some.inj hw
          simp only [List.length_append, List.length_cons]
          omega
        refine ⟨u.takeWhile isWord, r.takeWhile isSpace, (r.dropWhile isSpace).takeWhile isDigit, fun c hc => (isWord_iff c).1 (takeWhile_all _ _ c hc),
          fun c hc => (isSpace_iff c).1 (takeWhile_all _ _ c hc), hd, fun c hc => (isDigit_iff c).1 (takeWhile_all _ _ c hc), ?_⟩
        conv_lhs => rw [e, hl]
        exact List.take_left
    · simp at hw
  | none =>
    rw [hw] at h
    have hg : matchGroup u = some k := by simpa using h
    right
    unfold matchGroup at hg
    split at hg
    · rename_i s
      dsimp only at hg
      split at hg
      · simp at hg
      split at hg
      · rename_i _ r hr
        split at hg
        · simp at hg
        · rename_i hd
          have e : '(' :: s = ('(' :: (s.takeWhile notParen ++ ')' :: '*' :: '*' :: r.takeWhile isDigit)) ++ r.dropWhile isDigit := by
            conv_lhs => rw [← List.takeWhile_append_dropWhile (p := notParen) (l := s), hr]
            simp
          have hl : k = ('(' :: (s.takeWhile notParen ++ ')' :: '*' :: '*' :: r.takeWhile isDigit)).length := by
            have := Option.some.inj hg
            simp only [List.length_append, List.length_cons]
            omega
          refine ⟨s.takeWhile notParen, r.takeWhile isDigit, fun c hc => ?_, hd, fun c hc => (isDigit_iff c).1 (takeWhile_all _ _ c hc), ?_, ⟨_, e.symm⟩⟩
          · have := takeWhile_all _ _ c hc
            simpa [notParen, Paren] using this
          · conv_lhs => rw [e, hl]
            exact List.take_left
      · simp at hg
    · simp at hg

/-- C61: `pow2mul` returns on every text without `pow(` in which no group that is raised to a number contains a power; without the second condition it
may raise (`C61_raises`). What it returns is a text of the same value only in the cases of `C61_value_partial`. -/
theorem C61_returns_partial (s : Str) (hg : ∀ c d, (∀ x ∈ c, ¬ Paren x) → d ≠ [] → (∀ x ∈ d, Digit x) → '(' :: (c ++ ')' :: '*' :: '*' :: d) <:+: s →
    ¬ "**".toList <:+: squeeze c) (hc : ¬ "pow(".toList <:+: s) : ∃ out, pow2mul s = .ok out := by
  obtain ⟨r, hr⟩ := pairs_total (new := powNew) (l := findAll matchPow s) (by
    intro p hp
    obtain ⟨u, k, hs, h, e⟩ := findAll_found _ s le_rfl p hp
    rw [e]
    rcases matchPow_shape h with ⟨w, b, d, h1, h2, h3, h4, e⟩ | ⟨c, d, h1, h2, h3, e, hpre⟩
    · rw [e]; exact ⟨_, powNew_pow h1 h2 h3 h4⟩
    · rw [e]; exact ⟨_, powNew_grp (hg c d h1 h2 h3 (hpre.isInfix.trans hs.isInfix)) h2 h3⟩)
  have h2 : findAll matchPowCall s = [] := by
    rw [List.eq_nil_iff_forall_not_mem]
    intro p hp
    obtain ⟨u, k, hs, h, _⟩ := findAll_found _ s le_rfl p hp
    unfold matchPowCall at h
    split at h
    · exact hc (List.IsInfix.trans ⟨[], _, rfl⟩ hs.isInfix)
    · simp at h
  exact ⟨_, by rw [pow2mul, hr]; dsimp only; rw [h2]; rfl⟩

/-- a chained power, which is expanded to something else, does not make it raise -/
example : ∃ out, pow2mul "(x + 1)**2 + x**2**3".toList = .ok out :=
  C61_returns_partial _ (by
    intro c d h1 _ _ hi
    obtain ⟨a, b, e⟩ := hi
    rw [show "(x + 1)**2 + x**2**3".toList = '(' :: "x + 1)**2 + x**2**3".toList by decide] at e
    match a, e with
    | y :: a, e =>
      have h := (List.cons.inj e).2
      have hm : '(' ∈ "x + 1)**2 + x**2**3".toList := by
        rw [show "x + 1)**2 + x**2**3".toList = a ++ '(' :: (c ++ ')' :: '*' :: '*' :: d) ++ b from h.symm]
        simp
      exact absurd hm (by decide)
    | [], e =>
      have h : c ++ ')' :: ('*' :: '*' :: d ++ b) = "x + 1)**2 + x**2**3".toList := by
        rw [← (List.cons.inj e).2]
        simp
      have hc : c = "x + 1".toList := by
        have ht := congrArg (List.takeWhile fun x => x != ')') h
        rw [List.takeWhile_append_of_pos (by
          intro x hx
          have := h1 x hx
          simp only [Paren, not_or] at this
          simpa using this.2)] at ht
        rw [List.takeWhile_cons, if_neg (by decide), List.append_nil] at ht
        rw [ht]
        decide
      rw [hc]
      decide) (by decide)

end Meshless
