import Verif.Model.Gen.Map
import Verif.Lemmas.Cert

/-! GENERATED by /verif/tools/gencert.py: the certified evaluation of the increments of Model/Gen/EdgeB.lean, group by group. -/

set_option autoImplicit false
set_option maxRecDepth 10000

namespace Meshless

variable {R : Rounding} {v : ℝ} [RoundOK R v]

private theorem edgeB_i1_2_c (e : EdgeBEnv (Cert R v)) : (edgeB_i1_2 e).map (fun t => (t.1, t.2.1, (t.2.2.c : Fl R))) = edgeB_i1_2 (K := Fl R) (e.map fun x => (x.c : Fl R)) := rfl
private theorem edgeB_i1_2_e (e : EdgeBEnv (Cert R v)) : (edgeB_i1_2 e).map (fun t => (t.1, t.2.1, t.2.2.e)) = edgeB_i1_2 (e.map fun x => x.e) := rfl
private theorem edgeB_i1_2_M (e : EdgeBEnv (Cert R v)) : (edgeB_i1_2 e).map (fun t => (t.1, t.2.1, (t.2.2.M : Mag))) = edgeB_i1_2 (K := Mag) (e.map fun x => (x.M : Mag)) := rfl
private theorem edgeB_i1_3_c (e : EdgeBEnv (Cert R v)) : (edgeB_i1_3 e).map (fun t => (t.1, t.2.1, (t.2.2.c : Fl R))) = edgeB_i1_3 (K := Fl R) (e.map fun x => (x.c : Fl R)) := rfl
private theorem edgeB_i1_3_e (e : EdgeBEnv (Cert R v)) : (edgeB_i1_3 e).map (fun t => (t.1, t.2.1, t.2.2.e)) = edgeB_i1_3 (e.map fun x => x.e) := rfl
private theorem edgeB_i1_3_M (e : EdgeBEnv (Cert R v)) : (edgeB_i1_3 e).map (fun t => (t.1, t.2.1, (t.2.2.M : Mag))) = edgeB_i1_3 (K := Mag) (e.map fun x => (x.M : Mag)) := rfl
private theorem edgeB_i1_4_c (e : EdgeBEnv (Cert R v)) : (edgeB_i1_4 e).map (fun t => (t.1, t.2.1, (t.2.2.c : Fl R))) = edgeB_i1_4 (K := Fl R) (e.map fun x => (x.c : Fl R)) := rfl
private theorem edgeB_i1_4_e (e : EdgeBEnv (Cert R v)) : (edgeB_i1_4 e).map (fun t => (t.1, t.2.1, t.2.2.e)) = edgeB_i1_4 (e.map fun x => x.e) := rfl
private theorem edgeB_i1_4_M (e : EdgeBEnv (Cert R v)) : (edgeB_i1_4 e).map (fun t => (t.1, t.2.1, (t.2.2.M : Mag))) = edgeB_i1_4 (K := Mag) (e.map fun x => (x.M : Mag)) := rfl
private theorem edgeB_i2_2_c (e : EdgeBEnv (Cert R v)) : (edgeB_i2_2 e).map (fun t => (t.1, t.2.1, (t.2.2.c : Fl R))) = edgeB_i2_2 (K := Fl R) (e.map fun x => (x.c : Fl R)) := rfl
private theorem edgeB_i2_2_e (e : EdgeBEnv (Cert R v)) : (edgeB_i2_2 e).map (fun t => (t.1, t.2.1, t.2.2.e)) = edgeB_i2_2 (e.map fun x => x.e) := rfl
private theorem edgeB_i2_2_M (e : EdgeBEnv (Cert R v)) : (edgeB_i2_2 e).map (fun t => (t.1, t.2.1, (t.2.2.M : Mag))) = edgeB_i2_2 (K := Mag) (e.map fun x => (x.M : Mag)) := rfl
private theorem edgeB_i2_3_c (e : EdgeBEnv (Cert R v)) : (edgeB_i2_3 e).map (fun t => (t.1, t.2.1, (t.2.2.c : Fl R))) = edgeB_i2_3 (K := Fl R) (e.map fun x => (x.c : Fl R)) := rfl
private theorem edgeB_i2_3_e (e : EdgeBEnv (Cert R v)) : (edgeB_i2_3 e).map (fun t => (t.1, t.2.1, t.2.2.e)) = edgeB_i2_3 (e.map fun x => x.e) := rfl
private theorem edgeB_i2_3_M (e : EdgeBEnv (Cert R v)) : (edgeB_i2_3 e).map (fun t => (t.1, t.2.1, (t.2.2.M : Mag))) = edgeB_i2_3 (K := Mag) (e.map fun x => (x.M : Mag)) := rfl
private theorem edgeB_i2_4_c (e : EdgeBEnv (Cert R v)) : (edgeB_i2_4 e).map (fun t => (t.1, t.2.1, (t.2.2.c : Fl R))) = edgeB_i2_4 (K := Fl R) (e.map fun x => (x.c : Fl R)) := rfl
private theorem edgeB_i2_4_e (e : EdgeBEnv (Cert R v)) : (edgeB_i2_4 e).map (fun t => (t.1, t.2.1, t.2.2.e)) = edgeB_i2_4 (e.map fun x => x.e) := rfl
private theorem edgeB_i2_4_M (e : EdgeBEnv (Cert R v)) : (edgeB_i2_4 e).map (fun t => (t.1, t.2.1, (t.2.2.M : Mag))) = edgeB_i2_4 (K := Mag) (e.map fun x => (x.M : Mag)) := rfl
private theorem edgeB_i3_2_c (e : EdgeBEnv (Cert R v)) : (edgeB_i3_2 e).map (fun t => (t.1, t.2.1, (t.2.2.c : Fl R))) = edgeB_i3_2 (K := Fl R) (e.map fun x => (x.c : Fl R)) := rfl
private theorem edgeB_i3_2_e (e : EdgeBEnv (Cert R v)) : (edgeB_i3_2 e).map (fun t => (t.1, t.2.1, t.2.2.e)) = edgeB_i3_2 (e.map fun x => x.e) := rfl
private theorem edgeB_i3_2_M (e : EdgeBEnv (Cert R v)) : (edgeB_i3_2 e).map (fun t => (t.1, t.2.1, (t.2.2.M : Mag))) = edgeB_i3_2 (K := Mag) (e.map fun x => (x.M : Mag)) := rfl
private theorem edgeB_i3_3_c (e : EdgeBEnv (Cert R v)) : (edgeB_i3_3 e).map (fun t => (t.1, t.2.1, (t.2.2.c : Fl R))) = edgeB_i3_3 (K := Fl R) (e.map fun x => (x.c : Fl R)) := rfl
private theorem edgeB_i3_3_e (e : EdgeBEnv (Cert R v)) : (edgeB_i3_3 e).map (fun t => (t.1, t.2.1, t.2.2.e)) = edgeB_i3_3 (e.map fun x => x.e) := rfl
private theorem edgeB_i3_3_M (e : EdgeBEnv (Cert R v)) : (edgeB_i3_3 e).map (fun t => (t.1, t.2.1, (t.2.2.M : Mag))) = edgeB_i3_3 (K := Mag) (e.map fun x => (x.M : Mag)) := rfl
private theorem edgeB_i3_4_c (e : EdgeBEnv (Cert R v)) : (edgeB_i3_4 e).map (fun t => (t.1, t.2.1, (t.2.2.c : Fl R))) = edgeB_i3_4 (K := Fl R) (e.map fun x => (x.c : Fl R)) := rfl
private theorem edgeB_i3_4_e (e : EdgeBEnv (Cert R v)) : (edgeB_i3_4 e).map (fun t => (t.1, t.2.1, t.2.2.e)) = edgeB_i3_4 (e.map fun x => x.e) := rfl
private theorem edgeB_i3_4_M (e : EdgeBEnv (Cert R v)) : (edgeB_i3_4 e).map (fun t => (t.1, t.2.1, (t.2.2.M : Mag))) = edgeB_i3_4 (K := Mag) (e.map fun x => (x.M : Mag)) := rfl

private theorem edgeBEntries_c (e : EdgeBEnv (Cert R v)) : (edgeBEntries e).map (fun t => (t.1, t.2.1, (t.2.2.c : Fl R))) = edgeBEntries (K := Fl R) (e.map fun x => (x.c : Fl R)) := by
  unfold edgeBEntries
  simp only [List.map_append, edgeB_i1_2_c, edgeB_i1_3_c, edgeB_i1_4_c, edgeB_i2_2_c, edgeB_i2_3_c, edgeB_i2_4_c, edgeB_i3_2_c, edgeB_i3_3_c, edgeB_i3_4_c]

private theorem edgeBEntries_e (e : EdgeBEnv (Cert R v)) : (edgeBEntries e).map (fun t => (t.1, t.2.1, t.2.2.e)) = edgeBEntries (e.map fun x => x.e) := by
  unfold edgeBEntries
  simp only [List.map_append, edgeB_i1_2_e, edgeB_i1_3_e, edgeB_i1_4_e, edgeB_i2_2_e, edgeB_i2_3_e, edgeB_i2_4_e, edgeB_i3_2_e, edgeB_i3_3_e, edgeB_i3_4_e]

private theorem edgeBEntries_M (e : EdgeBEnv (Cert R v)) : (edgeBEntries e).map (fun t => (t.1, t.2.1, (t.2.2.M : Mag))) = edgeBEntries (K := Mag) (e.map fun x => (x.M : Mag)) := by
  unfold edgeBEntries
  simp only [List.map_append, edgeB_i1_2_M, edgeB_i1_3_M, edgeB_i1_4_M, edgeB_i2_2_M, edgeB_i2_3_M, edgeB_i2_4_M, edgeB_i3_2_M, edgeB_i3_3_M, edgeB_i3_4_M]

/-- the magnitudes of the data: every number with the absolute tolerance `τ` added to its absolute value, the areas without -/
noncomputable def EdgeBEnv.mag (e : EdgeBEnv ℝ) (τ : ℝ) : EdgeBEnv Mag :=
  { e.map fun x => (show ℝ from |x| + τ) with Ac := (show ℝ from |e.Ac|) }

private noncomputable def cert0 {τ : ℝ} {c e : EdgeBEnv ℝ} (hτ : 0 ≤ τ) (h : EdgeBEnv.Rel (Near v 0 τ) c e) (hAc : RelNear v 0 c.Ac e.Ac) : EdgeBEnv (Cert R v) :=
  { EdgeBEnv.ofRel (Cert.ofNear hτ 0) h with Ac := Cert.ofRelNear 0 hAc }

private def cnt0 : EdgeBEnv Cert.Cnt := { i1 := 0, i2 := 0, i3 := 0, Ac := ⟨0, true, true⟩, E44 := ⟨0, true, false⟩, E45 := ⟨0, true, false⟩, E55 := ⟨0, true, false⟩, a1 := ⟨0, true, false⟩, b1 := ⟨0, true, false⟩, c1 := ⟨0, true, false⟩, d1 := ⟨0, true, false⟩ }

private theorem edgeB_i1_2_n0 {τ : ℝ} {c e : EdgeBEnv ℝ} (hτ : 0 ≤ τ) (h : EdgeBEnv.Rel (Near v 0 τ) c e) (hAc : RelNear v 0 c.Ac e.Ac) : (edgeB_i1_2 (cert0 (R := R) hτ h hAc)).map (fun t => t.2.2.cnt) = (edgeB_i1_2 cnt0).map (fun t => t.2.2) := rfl
private theorem edgeB_i1_2_b0 : (edgeB_i1_2 cnt0).all (fun t => t.2.2.ok && Nat.ble t.2.2.k 15) = true := by decide +kernel
private theorem edgeB_i1_3_n0 {τ : ℝ} {c e : EdgeBEnv ℝ} (hτ : 0 ≤ τ) (h : EdgeBEnv.Rel (Near v 0 τ) c e) (hAc : RelNear v 0 c.Ac e.Ac) : (edgeB_i1_3 (cert0 (R := R) hτ h hAc)).map (fun t => t.2.2.cnt) = (edgeB_i1_3 cnt0).map (fun t => t.2.2) := rfl
private theorem edgeB_i1_3_b0 : (edgeB_i1_3 cnt0).all (fun t => t.2.2.ok && Nat.ble t.2.2.k 15) = true := by decide +kernel
private theorem edgeB_i1_4_n0 {τ : ℝ} {c e : EdgeBEnv ℝ} (hτ : 0 ≤ τ) (h : EdgeBEnv.Rel (Near v 0 τ) c e) (hAc : RelNear v 0 c.Ac e.Ac) : (edgeB_i1_4 (cert0 (R := R) hτ h hAc)).map (fun t => t.2.2.cnt) = (edgeB_i1_4 cnt0).map (fun t => t.2.2) := rfl
private theorem edgeB_i1_4_b0 : (edgeB_i1_4 cnt0).all (fun t => t.2.2.ok && Nat.ble t.2.2.k 15) = true := by decide +kernel
private theorem edgeB_i2_2_n0 {τ : ℝ} {c e : EdgeBEnv ℝ} (hτ : 0 ≤ τ) (h : EdgeBEnv.Rel (Near v 0 τ) c e) (hAc : RelNear v 0 c.Ac e.Ac) : (edgeB_i2_2 (cert0 (R := R) hτ h hAc)).map (fun t => t.2.2.cnt) = (edgeB_i2_2 cnt0).map (fun t => t.2.2) := rfl
private theorem edgeB_i2_2_b0 : (edgeB_i2_2 cnt0).all (fun t => t.2.2.ok && Nat.ble t.2.2.k 15) = true := by decide +kernel
private theorem edgeB_i2_3_n0 {τ : ℝ} {c e : EdgeBEnv ℝ} (hτ : 0 ≤ τ) (h : EdgeBEnv.Rel (Near v 0 τ) c e) (hAc : RelNear v 0 c.Ac e.Ac) : (edgeB_i2_3 (cert0 (R := R) hτ h hAc)).map (fun t => t.2.2.cnt) = (edgeB_i2_3 cnt0).map (fun t => t.2.2) := rfl
private theorem edgeB_i2_3_b0 : (edgeB_i2_3 cnt0).all (fun t => t.2.2.ok && Nat.ble t.2.2.k 15) = true := by decide +kernel
private theorem edgeB_i2_4_n0 {τ : ℝ} {c e : EdgeBEnv ℝ} (hτ : 0 ≤ τ) (h : EdgeBEnv.Rel (Near v 0 τ) c e) (hAc : RelNear v 0 c.Ac e.Ac) : (edgeB_i2_4 (cert0 (R := R) hτ h hAc)).map (fun t => t.2.2.cnt) = (edgeB_i2_4 cnt0).map (fun t => t.2.2) := rfl
private theorem edgeB_i2_4_b0 : (edgeB_i2_4 cnt0).all (fun t => t.2.2.ok && Nat.ble t.2.2.k 15) = true := by decide +kernel
private theorem edgeB_i3_2_n0 {τ : ℝ} {c e : EdgeBEnv ℝ} (hτ : 0 ≤ τ) (h : EdgeBEnv.Rel (Near v 0 τ) c e) (hAc : RelNear v 0 c.Ac e.Ac) : (edgeB_i3_2 (cert0 (R := R) hτ h hAc)).map (fun t => t.2.2.cnt) = (edgeB_i3_2 cnt0).map (fun t => t.2.2) := rfl
private theorem edgeB_i3_2_b0 : (edgeB_i3_2 cnt0).all (fun t => t.2.2.ok && Nat.ble t.2.2.k 15) = true := by decide +kernel
private theorem edgeB_i3_3_n0 {τ : ℝ} {c e : EdgeBEnv ℝ} (hτ : 0 ≤ τ) (h : EdgeBEnv.Rel (Near v 0 τ) c e) (hAc : RelNear v 0 c.Ac e.Ac) : (edgeB_i3_3 (cert0 (R := R) hτ h hAc)).map (fun t => t.2.2.cnt) = (edgeB_i3_3 cnt0).map (fun t => t.2.2) := rfl
private theorem edgeB_i3_3_b0 : (edgeB_i3_3 cnt0).all (fun t => t.2.2.ok && Nat.ble t.2.2.k 15) = true := by decide +kernel
private theorem edgeB_i3_4_n0 {τ : ℝ} {c e : EdgeBEnv ℝ} (hτ : 0 ≤ τ) (h : EdgeBEnv.Rel (Near v 0 τ) c e) (hAc : RelNear v 0 c.Ac e.Ac) : (edgeB_i3_4 (cert0 (R := R) hτ h hAc)).map (fun t => t.2.2.cnt) = (edgeB_i3_4 cnt0).map (fun t => t.2.2) := rfl
private theorem edgeB_i3_4_b0 : (edgeB_i3_4 cnt0).all (fun t => t.2.2.ok && Nat.ble t.2.2.k 15) = true := by decide +kernel

/-- the increments computed from data with no error -/
theorem edgeBEntries_cert0 (R : Rounding) [RoundOK R v] {τ : ℝ} {c e : EdgeBEnv ℝ} (hτ : 0 ≤ τ) (h : EdgeBEnv.Rel (Near v 0 τ) c e) (hAc : RelNear v 0 c.Ac e.Ac) :
    ∃ L : List (ℤ × ℤ × Cert R v), L.map (fun t => (t.1, t.2.1, (t.2.2.c : Fl R))) = edgeBEntries (K := Fl R) c ∧ L.map (fun t => (t.1, t.2.1, t.2.2.e)) = edgeBEntries e ∧
      L.map (fun t => (t.1, t.2.1, (t.2.2.M : Mag))) = edgeBEntries (K := Mag) (e.mag τ) ∧ ∀ t ∈ L, t.2.2.ok = true ∧ t.2.2.k ≤ 15 := by
  refine ⟨edgeBEntries (cert0 (R := R) hτ h hAc), ?_, ?_, ?_, ?_⟩
  · rw [edgeBEntries_c]; congr 1; obtain ⟨⟩ := c; obtain ⟨⟩ := e
    obtain rfl := h.i1
    obtain rfl := h.i2
    obtain rfl := h.i3
    rfl
  · rw [edgeBEntries_e]; rfl
  · rw [edgeBEntries_M]; rfl
  · intro t ht
    unfold edgeBEntries at ht
    simp only [List.mem_append] at ht
    rcases ht with (((((((h1 | h1) | h1) | h1) | h1) | h1) | h1) | h1) | h1
    · exact Cert.of_cnt (edgeB_i1_2_n0 hτ h hAc) edgeB_i1_2_b0 h1
    · exact Cert.of_cnt (edgeB_i1_3_n0 hτ h hAc) edgeB_i1_3_b0 h1
    · exact Cert.of_cnt (edgeB_i1_4_n0 hτ h hAc) edgeB_i1_4_b0 h1
    · exact Cert.of_cnt (edgeB_i2_2_n0 hτ h hAc) edgeB_i2_2_b0 h1
    · exact Cert.of_cnt (edgeB_i2_3_n0 hτ h hAc) edgeB_i2_3_b0 h1
    · exact Cert.of_cnt (edgeB_i2_4_n0 hτ h hAc) edgeB_i2_4_b0 h1
    · exact Cert.of_cnt (edgeB_i3_2_n0 hτ h hAc) edgeB_i3_2_b0 h1
    · exact Cert.of_cnt (edgeB_i3_3_n0 hτ h hAc) edgeB_i3_3_b0 h1
    · exact Cert.of_cnt (edgeB_i3_4_n0 hτ h hAc) edgeB_i3_4_b0 h1

private noncomputable def cert1 {τ : ℝ} {c e : EdgeBEnv ℝ} (hτ : 0 ≤ τ) (h : EdgeBEnv.Rel (Near v 1 τ) c e) (hAc : RelNear v 1 c.Ac e.Ac) : EdgeBEnv (Cert R v) :=
  { EdgeBEnv.ofRel (Cert.ofNear hτ 1) h with Ac := Cert.ofRelNear 1 hAc }

private def cnt1 : EdgeBEnv Cert.Cnt := { i1 := 0, i2 := 0, i3 := 0, Ac := ⟨1, true, true⟩, E44 := ⟨1, true, false⟩, E45 := ⟨1, true, false⟩, E55 := ⟨1, true, false⟩, a1 := ⟨1, true, false⟩, b1 := ⟨1, true, false⟩, c1 := ⟨1, true, false⟩, d1 := ⟨1, true, false⟩ }

private theorem edgeB_i1_2_n1 {τ : ℝ} {c e : EdgeBEnv ℝ} (hτ : 0 ≤ τ) (h : EdgeBEnv.Rel (Near v 1 τ) c e) (hAc : RelNear v 1 c.Ac e.Ac) : (edgeB_i1_2 (cert1 (R := R) hτ h hAc)).map (fun t => t.2.2.cnt) = (edgeB_i1_2 cnt1).map (fun t => t.2.2) := rfl
private theorem edgeB_i1_2_b1 : (edgeB_i1_2 cnt1).all (fun t => t.2.2.ok && Nat.ble t.2.2.k 23) = true := by decide +kernel
private theorem edgeB_i1_3_n1 {τ : ℝ} {c e : EdgeBEnv ℝ} (hτ : 0 ≤ τ) (h : EdgeBEnv.Rel (Near v 1 τ) c e) (hAc : RelNear v 1 c.Ac e.Ac) : (edgeB_i1_3 (cert1 (R := R) hτ h hAc)).map (fun t => t.2.2.cnt) = (edgeB_i1_3 cnt1).map (fun t => t.2.2) := rfl
private theorem edgeB_i1_3_b1 : (edgeB_i1_3 cnt1).all (fun t => t.2.2.ok && Nat.ble t.2.2.k 23) = true := by decide +kernel
private theorem edgeB_i1_4_n1 {τ : ℝ} {c e : EdgeBEnv ℝ} (hτ : 0 ≤ τ) (h : EdgeBEnv.Rel (Near v 1 τ) c e) (hAc : RelNear v 1 c.Ac e.Ac) : (edgeB_i1_4 (cert1 (R := R) hτ h hAc)).map (fun t => t.2.2.cnt) = (edgeB_i1_4 cnt1).map (fun t => t.2.2) := rfl
private theorem edgeB_i1_4_b1 : (edgeB_i1_4 cnt1).all (fun t => t.2.2.ok && Nat.ble t.2.2.k 23) = true := by decide +kernel
private theorem edgeB_i2_2_n1 {τ : ℝ} {c e : EdgeBEnv ℝ} (hτ : 0 ≤ τ) (h : EdgeBEnv.Rel (Near v 1 τ) c e) (hAc : RelNear v 1 c.Ac e.Ac) : (edgeB_i2_2 (cert1 (R := R) hτ h hAc)).map (fun t => t.2.2.cnt) = (edgeB_i2_2 cnt1).map (fun t => t.2.2) := rfl
private theorem edgeB_i2_2_b1 : (edgeB_i2_2 cnt1).all (fun t => t.2.2.ok && Nat.ble t.2.2.k 23) = true := by decide +kernel
private theorem edgeB_i2_3_n1 {τ : ℝ} {c e : EdgeBEnv ℝ} (hτ : 0 ≤ τ) (h : EdgeBEnv.Rel (Near v 1 τ) c e) (hAc : RelNear v 1 c.Ac e.Ac) : (edgeB_i2_3 (cert1 (R := R) hτ h hAc)).map (fun t => t.2.2.cnt) = (edgeB_i2_3 cnt1).map (fun t => t.2.2) := rfl
private theorem edgeB_i2_3_b1 : (edgeB_i2_3 cnt1).all (fun t => t.2.2.ok && Nat.ble t.2.2.k 23) = true := by decide +kernel
private theorem edgeB_i2_4_n1 {τ : ℝ} {c e : EdgeBEnv ℝ} (hτ : 0 ≤ τ) (h : EdgeBEnv.Rel (Near v 1 τ) c e) (hAc : RelNear v 1 c.Ac e.Ac) : (edgeB_i2_4 (cert1 (R := R) hτ h hAc)).map (fun t => t.2.2.cnt) = (edgeB_i2_4 cnt1).map (fun t => t.2.2) := rfl
private theorem edgeB_i2_4_b1 : (edgeB_i2_4 cnt1).all (fun t => t.2.2.ok && Nat.ble t.2.2.k 23) = true := by decide +kernel
private theorem edgeB_i3_2_n1 {τ : ℝ} {c e : EdgeBEnv ℝ} (hτ : 0 ≤ τ) (h : EdgeBEnv.Rel (Near v 1 τ) c e) (hAc : RelNear v 1 c.Ac e.Ac) : (edgeB_i3_2 (cert1 (R := R) hτ h hAc)).map (fun t => t.2.2.cnt) = (edgeB_i3_2 cnt1).map (fun t => t.2.2) := rfl
private theorem edgeB_i3_2_b1 : (edgeB_i3_2 cnt1).all (fun t => t.2.2.ok && Nat.ble t.2.2.k 23) = true := by decide +kernel
private theorem edgeB_i3_3_n1 {τ : ℝ} {c e : EdgeBEnv ℝ} (hτ : 0 ≤ τ) (h : EdgeBEnv.Rel (Near v 1 τ) c e) (hAc : RelNear v 1 c.Ac e.Ac) : (edgeB_i3_3 (cert1 (R := R) hτ h hAc)).map (fun t => t.2.2.cnt) = (edgeB_i3_3 cnt1).map (fun t => t.2.2) := rfl
private theorem edgeB_i3_3_b1 : (edgeB_i3_3 cnt1).all (fun t => t.2.2.ok && Nat.ble t.2.2.k 23) = true := by decide +kernel
private theorem edgeB_i3_4_n1 {τ : ℝ} {c e : EdgeBEnv ℝ} (hτ : 0 ≤ τ) (h : EdgeBEnv.Rel (Near v 1 τ) c e) (hAc : RelNear v 1 c.Ac e.Ac) : (edgeB_i3_4 (cert1 (R := R) hτ h hAc)).map (fun t => t.2.2.cnt) = (edgeB_i3_4 cnt1).map (fun t => t.2.2) := rfl
private theorem edgeB_i3_4_b1 : (edgeB_i3_4 cnt1).all (fun t => t.2.2.ok && Nat.ble t.2.2.k 23) = true := by decide +kernel

/-- the increments computed from data with errors of one rounding -/
theorem edgeBEntries_cert1 (R : Rounding) [RoundOK R v] {τ : ℝ} {c e : EdgeBEnv ℝ} (hτ : 0 ≤ τ) (h : EdgeBEnv.Rel (Near v 1 τ) c e) (hAc : RelNear v 1 c.Ac e.Ac) :
    ∃ L : List (ℤ × ℤ × Cert R v), L.map (fun t => (t.1, t.2.1, (t.2.2.c : Fl R))) = edgeBEntries (K := Fl R) c ∧ L.map (fun t => (t.1, t.2.1, t.2.2.e)) = edgeBEntries e ∧
      L.map (fun t => (t.1, t.2.1, (t.2.2.M : Mag))) = edgeBEntries (K := Mag) (e.mag τ) ∧ ∀ t ∈ L, t.2.2.ok = true ∧ t.2.2.k ≤ 23 := by
  refine ⟨edgeBEntries (cert1 (R := R) hτ h hAc), ?_, ?_, ?_, ?_⟩
  · rw [edgeBEntries_c]; congr 1; obtain ⟨⟩ := c; obtain ⟨⟩ := e
    obtain rfl := h.i1
    obtain rfl := h.i2
    obtain rfl := h.i3
    rfl
  · rw [edgeBEntries_e]; rfl
  · rw [edgeBEntries_M]; rfl
  · intro t ht
    unfold edgeBEntries at ht
    simp only [List.mem_append] at ht
    rcases ht with (((((((h1 | h1) | h1) | h1) | h1) | h1) | h1) | h1) | h1
    · exact Cert.of_cnt (edgeB_i1_2_n1 hτ h hAc) edgeB_i1_2_b1 h1
    · exact Cert.of_cnt (edgeB_i1_3_n1 hτ h hAc) edgeB_i1_3_b1 h1
    · exact Cert.of_cnt (edgeB_i1_4_n1 hτ h hAc) edgeB_i1_4_b1 h1
    · exact Cert.of_cnt (edgeB_i2_2_n1 hτ h hAc) edgeB_i2_2_b1 h1
    · exact Cert.of_cnt (edgeB_i2_3_n1 hτ h hAc) edgeB_i2_3_b1 h1
    · exact Cert.of_cnt (edgeB_i2_4_n1 hτ h hAc) edgeB_i2_4_b1 h1
    · exact Cert.of_cnt (edgeB_i3_2_n1 hτ h hAc) edgeB_i3_2_b1 h1
    · exact Cert.of_cnt (edgeB_i3_3_n1 hτ h hAc) edgeB_i3_3_b1 h1
    · exact Cert.of_cnt (edgeB_i3_4_n1 hτ h hAc) edgeB_i3_4_b1 h1

end Meshless
