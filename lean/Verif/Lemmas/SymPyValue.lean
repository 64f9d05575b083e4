import Verif.Lemmas.SymPyMul
import Verif.Spec.SymPyExpr

/-! Values of texts cut into pieces, before and after the expansion of the powers. -/

set_option autoImplicit false

namespace Meshless
namespace SymPy
open Spec

variable {ρ : List Char → ℝ} {φ : List Char → ℝ → ℝ}

/-- replacing every symbol by a text, characters by themselves and ready-made operands by expressions of the same value, keeps the value -/
theorem gram_text {α : Type} {ch : Char → α} {base : Lvl → List α → ℝ → Prop} (h : α → List Char) (hc : ∀ c, h (ch c) = [c])
    (hb : ∀ k s v, base k s v → Reads ρ φ k (s.flatMap h) v) {k : Lvl} {s : List α} {v : ℝ} (g : Gram ch base ρ φ k s v) :
    Reads ρ φ k (s.flatMap h) v := by
  have hm : ∀ w : List Char, (w.map ch).flatMap h = w := by
    intro w
    induction w with
    | nil => rfl
    | cons c w ih => rw [List.map_cons, List.flatMap_cons, ih, hc]; rfl
  induction g with
  | given g => exact hb _ _ _ g
  | name g => rw [hm]; have := Gram.name (ch := id) (base := fun _ _ _ => False) (ρ := ρ) (φ := φ) g; rwa [List.map_id] at this
  | int g => rw [hm]; have := Gram.int (ch := id) (base := fun _ _ _ => False) (ρ := ρ) (φ := φ) g; rwa [List.map_id] at this
  | decimal g g' => rw [hm]; have := Gram.decimal (ch := id) (base := fun _ _ _ => False) (ρ := ρ) (φ := φ) g g'; rwa [List.map_id] at this
  | paren _ ih => simpa [List.flatMap_append, hc] using Gram.paren ih
  | app g _ ih =>
    have := Gram.app g ih
    rw [List.map_id] at this
    simpa [List.flatMap_append, hc, hm] using this
  | call _ _ ih ih' => simpa [List.flatMap_append, hc] using Gram.call ih ih'
  | pow _ _ ih ih' => simpa [List.flatMap_append, hc] using Gram.pow ih ih'
  | neg _ ih => simpa [List.flatMap_append, hc] using Gram.neg ih
  | mul _ _ ih ih' => simpa [List.flatMap_append, hc] using Gram.mul ih ih'
  | div _ _ ih ih' => simpa [List.flatMap_append, hc] using Gram.div ih ih'
  | add _ _ ih ih' => simpa [List.flatMap_append, hc] using Gram.add ih ih'
  | sub _ _ ih ih' => simpa [List.flatMap_append, hc] using Gram.sub ih ih'
  | ofAtom _ ih => exact Gram.ofAtom ih
  | ofPower _ ih => exact Gram.ofPower ih
  | ofUnary _ ih => exact Gram.ofUnary ih
  | ofTerm _ ih => exact Gram.ofTerm ih
  | blankL g _ ih => simpa [List.flatMap_append, hc] using Gram.blankL g ih
  | blankR g _ ih => simpa [List.flatMap_append, hc] using Gram.blankR g ih

theorem squeeze_append (a b : Str) : squeeze (a ++ b) = squeeze a ++ squeeze b := by simp [squeeze]
theorem squeeze_cons {c : Char} (h : c ≠ ' ') (b : Str) : squeeze (c :: b) = c :: squeeze b := by simp [squeeze, h]
theorem squeeze_self {w : Str} (h : ∀ c ∈ w, c ≠ ' ') : squeeze w = w := by
  rw [squeeze, List.filter_eq_self]
  intro c hc
  simpa using h c hc

theorem word_ne_space {c : Char} (h : Word c) : c ≠ ' ' := by
  rintro rfl; exact absurd h (by decide)

/-- leaving out the spaces keeps the value -/
theorem reads_squeeze {k : Lvl} {s : Str} {v : ℝ} (g : Reads ρ φ k s v) : Reads ρ φ k (squeeze s) v := by
  have hn : ∀ w, IsName w → squeeze (w.map id) = w.map id := fun w hw => by
    rw [List.map_id]; exact squeeze_self fun c hc => word_ne_space (hw.2.1 c hc)
  have hd : ∀ w, IsDigits w → squeeze w = w := fun w hw => squeeze_self fun c hc => word_ne_space (digit_word (hw.2 c hc))
  induction g with
  | given g => exact g.elim
  | name g => rw [hn _ g]; exact Gram.name g
  | int g => rw [List.map_id, hd _ g]; have := Gram.int (ch := id) (base := fun _ _ _ => False) (ρ := ρ) (φ := φ) g; rwa [List.map_id] at this
  | decimal g g' =>
    rw [List.map_id, squeeze_append, squeeze_cons (by decide), hd _ g, hd _ g']
    have := Gram.decimal (ch := id) (base := fun _ _ _ => False) (ρ := ρ) (φ := φ) g g'; rwa [List.map_id] at this
  | paren _ ih =>
    rw [squeeze_cons (by decide), squeeze_append, squeeze_cons (by decide)]; exact Gram.paren ih
  | app g _ ih =>
    rw [squeeze_append, hn _ g, squeeze_cons (by decide), squeeze_append, squeeze_cons (by decide)]; exact Gram.app g ih
  | call _ _ ih ih' =>
    rw [squeeze_cons (by decide), squeeze_cons (by decide), squeeze_cons (by decide), squeeze_cons (by decide), squeeze_append, squeeze_cons (by decide),
      squeeze_append, squeeze_cons (by decide)]
    exact Gram.call ih ih'
  | pow _ _ ih ih' => rw [squeeze_append, squeeze_cons (by decide), squeeze_cons (by decide)]; exact Gram.pow ih ih'
  | neg _ ih => rw [squeeze_cons (by decide)]; exact Gram.neg ih
  | mul _ _ ih ih' => rw [squeeze_append, squeeze_cons (by decide)]; exact Gram.mul ih ih'
  | div _ _ ih ih' => rw [squeeze_append, squeeze_cons (by decide)]; exact Gram.div ih ih'
  | add _ _ ih ih' => rw [squeeze_append, squeeze_cons (by decide)]; exact Gram.add ih ih'
  | sub _ _ ih ih' => rw [squeeze_append, squeeze_cons (by decide)]; exact Gram.sub ih ih'
  | ofAtom _ ih => exact Gram.ofAtom ih
  | ofPower _ ih => exact Gram.ofPower ih
  | ofUnary _ ih => exact Gram.ofUnary ih
  | ofTerm _ ih => exact Gram.ofTerm ih
  | @blankL k b s v g _ ih =>
    by_cases hb : b = ' '
    · subst hb; simpa [squeeze] using ih
    · rw [squeeze_cons (show id b ≠ ' ' from hb)]; exact Gram.blankL g ih
  | @blankR k b s v g _ ih =>
    rw [squeeze_append]
    by_cases hb : b = ' '
    · subst hb; simpa [squeeze] using ih
    · rw [squeeze_cons (show id b ≠ ' ' from hb)]; exact Gram.blankR g ih

theorem reads_up {s : Str} {v : ℝ} (h : Reads ρ φ .atom s v) : Reads ρ φ .sum s v := .ofTerm (.ofUnary (.ofPower (.ofAtom h)))

theorem reads_digits {d : Str} (h : IsDigits d) : Reads ρ φ .atom d (numeral d) := by
  have := Gram.int (ch := id) (base := fun _ _ _ => False) (ρ := ρ) (φ := φ) h
  rwa [List.map_id] at this

theorem reads_blanksL {k : Lvl} {v : ℝ} {s : Str} (h : Reads ρ φ k s v) : ∀ b : Str, (∀ c ∈ b, Blank c) → Reads ρ φ k (b ++ s) v
  | [], _ => h
  | c :: b, hb => Gram.blankL (hb c (by simp)) (reads_blanksL h b fun x hx => hb x (List.mem_cons_of_mem _ hx))

theorem reads_blanksR {k : Lvl} {v : ℝ} : ∀ (b : Str) {s : Str}, Reads ρ φ k s v → (∀ c ∈ b, Blank c) → Reads ρ φ k (s ++ b) v
  | [], s, h, _ => by rwa [List.append_nil]
  | c :: b, s, h, hb => by
    have := reads_blanksR b (Gram.blankR (hb c (by simp)) h) fun x hx => hb x (List.mem_cons_of_mem _ hx)
    simpa using this

/-- a product of equal factors, each at least as tight as a signed operand -/
theorem reads_times {w : Str} {v : ℝ} (h : Reads ρ φ .atom w v) : ∀ n : ℕ, Reads ρ φ .term (times w (n + 1)) (v ^ (n + 1))
  | 0 => by rw [times, pow_one]; exact .ofUnary (.ofPower (.ofAtom h))
  | n + 1 => by
    have ih := reads_times h n
    -- the products are grouped from the left, so the copies are moved to the end
    have e : ∀ m : ℕ, times w (m + 2) = times w (m + 1) ++ '*' :: w := by
      intro m
      induction m with
      | zero => simp [times]
      | succ m im =>
        show w ++ '*' :: times w (m + 2) = (w ++ '*' :: times w (m + 1)) ++ '*' :: w
        rw [im]; simp
    rw [e n, pow_succ]
    exact Gram.mul (ch := id) ih (.ofPower (.ofAtom h))

theorem reads_product {w d : Str} {v : ℝ} (h : Reads ρ φ .atom w v) (hd : 0 < numeral d) :
    Reads ρ φ .atom ('(' :: (times w (numeral d) ++ [')'])) (v ^ numeral d) := by
  obtain ⟨n, hn⟩ : ∃ n, numeral d = n + 1 := ⟨numeral d - 1, by omega⟩
  rw [hn]
  exact Gram.paren (ch := id) (.ofTerm (reads_times h n))

theorem piece_source {k : Lvl} {l : List Piece} {v : ℝ} (h : PieceReads ρ φ k l v) : Reads ρ φ k (sourceText l) v := by
  refine gram_text Piece.source (fun c => rfl) ?_ h
  rintro k s v (⟨h, hb, hd, _⟩ | ⟨h, hd, _⟩ | ⟨h, hb, hd, hb', _⟩)
  · rw [← Real.rpow_natCast]
    simpa [Piece.source] using Gram.pow (ch := id) h (.ofPower (.ofAtom (reads_blanksL (reads_digits hd) _ hb)))
  · rw [← Real.rpow_natCast]
    simpa [Piece.source] using Gram.pow (ch := id) (.paren h) (.ofPower (.ofAtom (reads_digits hd)))
  · rw [← Real.rpow_natCast]
    simpa [Piece.source] using Gram.call (ch := id) h (reads_blanksR _ (reads_blanksL (reads_up (reads_digits hd)) _ hb) hb')

theorem piece_result {k : Lvl} {l : List Piece} {v : ℝ} (h : PieceReads ρ φ k l v) : Reads ρ φ k (resultText l) v := by
  refine gram_text Piece.result (fun c => rfl) ?_ h
  rintro k s v (⟨h, hb, hd, hn⟩ | ⟨h, hd, hn⟩ | ⟨h, hb, hd, hb', hn⟩)
  · simpa [Piece.result] using Gram.ofAtom (reads_product h hn)
  · have := Gram.ofAtom (reads_product (Gram.paren (ch := id) (reads_squeeze h)) hn)
    simpa [Piece.result] using this
  · have := reads_product (Gram.paren (ch := id) (reads_squeeze h)) hn
    simpa [Piece.result] using this

end SymPy
end Meshless
