import Verif.Model.SymPy
import Verif.Spec.SymPyPrint
import Mathlib.Data.List.Perm.Basic
import Mathlib.Data.List.Perm.Subperm
import Mathlib.Data.List.Nodup
import Mathlib.Data.List.Range

/-! Lemmas on the printing loops. -/

set_option autoImplicit false

namespace Meshless
namespace SymPy
open Spec

theorem printLoop_ok {α : Type} {f : α → Except Err (List Str)} {g : α → List Str} : ∀ {l : List α}, (∀ a ∈ l, f a = .ok (g a)) →
    printLoop f l = .ok (l.flatMap g)
  | [], _ => rfl
  | a :: l, h => by
    rw [printLoop, h a (by simp)]
    dsimp only
    rw [printLoop_ok fun x hx => h x (List.mem_cons_of_mem _ hx)]
    rfl

theorem printLoop_error {α : Type} {f : α → Except Err (List Str)} : ∀ {l : List α} {a : α} {e : Err}, a ∈ l → f a = .error e →
    ∃ e', printLoop f l = .error e'
  | b :: l, a, e, ha, he => by
    rw [printLoop]
    cases hb : f b with
    | error e' => exact ⟨e', rfl⟩
    | ok x =>
      rcases List.mem_cons.1 ha with rfl | ha
      · rw [he] at hb; exact absurd hb (by simp)
      · obtain ⟨e', h⟩ := printLoop_error ha he
        dsimp only
        rw [h]
        exact ⟨e', rfl⟩

theorem mem_enum (m : SMat) (i j : ℕ) : (i, j) ∈ m.enum ↔ i < m.rows ∧ j < m.cols := by
  simp [SMat.enum]

theorem enum_pairwise (m : SMat) : m.enum.Pairwise RowMajor := by
  unfold SMat.enum
  rw [List.pairwise_flatMap]
  constructor
  · intro i _
    rw [List.pairwise_map]
    exact List.pairwise_lt_range.imp fun h => Or.inr ⟨rfl, h⟩
  · refine List.pairwise_lt_range.imp fun {i j} h => ?_
    intro x hx y hy
    simp only [List.mem_map, List.mem_range] at hx hy
    obtain ⟨a, _, rfl⟩ := hx
    obtain ⟨b, _, rfl⟩ := hy
    exact Or.inl h

/-- a loop that prints the block `g a` for the elements chosen by `p` and nothing for the others -/
theorem flatMap_if {α β : Type} (p : α → Bool) (g : α → List β) (l : List α) :
    (l.flatMap fun a => if p a then g a else []) = (l.filter p).flatMap g := by
  induction l with
  | nil => rfl
  | cons a l ih =>
    rw [List.flatMap_cons, ih, List.filter_cons]
    by_cases h : p a <;> simp [h]

theorem flatMap_length {α β : Type} (g : α → List β) (k : ℕ) (l : List α) (h : ∀ a, (g a).length = k) : (l.flatMap g).length = k * l.length := by
  induction l with
  | nil => simp
  | cons a l ih => rw [List.flatMap_cons, List.length_append, ih, h, List.length_cons]; ring_nf

theorem range_pairs (r c : ℕ) : ((List.range r).flatMap fun i => (List.range c).map fun j => (i, j)) = (List.range (r * c)).map fun k => (k / c, k % c) := by
  induction r with
  | zero => simp
  | succ r ih =>
    rw [List.range_succ, List.flatMap_append, ih, Nat.succ_mul, List.range_add, List.map_append]
    congr 1
    rw [List.flatMap_cons, List.flatMap_nil, List.append_nil, List.map_map]
    refine List.map_congr_left fun j hj => ?_
    rw [List.mem_range] at hj
    have hc : 0 < c := by omega
    simp only [Function.comp_apply]
    rw [Nat.mul_comm r c, Nat.mul_add_div hc, Nat.mul_add_mod, Nat.div_eq_of_lt hj, Nat.mod_eq_of_lt hj, Nat.add_zero]

theorem swap_perm (r c : ℕ) : ((List.range c).flatMap fun j => (List.range r).map fun i => (i, j)).Perm
    ((List.range r).flatMap fun i => (List.range c).map fun j => (i, j)) := by
  refine (List.perm_ext_iff_of_nodup ?_ ?_).2 ?_
  · rw [List.nodup_flatMap]
    refine ⟨fun j _ => List.Nodup.map (fun a b h => by simpa using h) List.nodup_range, ?_⟩
    refine List.pairwise_lt_range.imp fun {a b} h => ?_
    intro x hx hy
    simp only [List.mem_map] at hx hy
    obtain ⟨_, _, rfl⟩ := hx
    obtain ⟨_, _, e⟩ := hy
    simp at e
    omega
  · rw [List.nodup_flatMap]
    refine ⟨fun j _ => List.Nodup.map (fun a b h => by simpa using h) List.nodup_range, ?_⟩
    refine List.pairwise_lt_range.imp fun {a b} h => ?_
    intro x hx hy
    simp only [List.mem_map] at hx hy
    obtain ⟨_, _, rfl⟩ := hx
    obtain ⟨_, _, e⟩ := hy
    simp at e
    omega
  · rintro ⟨i, j⟩
    simp [and_comm]

end SymPy
end Meshless
