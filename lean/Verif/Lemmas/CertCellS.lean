import Verif.Model.Gen.Map
import Verif.Lemmas.Cert

/-! GENERATED by /verif/tools/gencert.py: the certified evaluation of the increments of Model/Gen/CellS.lean, group by group. -/

set_option autoImplicit false
set_option maxRecDepth 10000

namespace Meshless

variable {R : Rounding} {v : ℝ} [RoundOK R v]

private theorem cellS_i1_2_c (e : CellSEnv (Cert R v)) : (cellS_i1_2 e).map (fun t => (t.1, t.2.1, (t.2.2.c : Fl R))) = cellS_i1_2 (K := Fl R) (e.map fun x => (x.c : Fl R)) := rfl
private theorem cellS_i1_2_e (e : CellSEnv (Cert R v)) : (cellS_i1_2 e).map (fun t => (t.1, t.2.1, t.2.2.e)) = cellS_i1_2 (e.map fun x => x.e) := rfl
private theorem cellS_i1_2_M (e : CellSEnv (Cert R v)) : (cellS_i1_2 e).map (fun t => (t.1, t.2.1, (t.2.2.M : Mag))) = cellS_i1_2 (K := Mag) (e.map fun x => (x.M : Mag)) := rfl
private theorem cellS_i1_3_c (e : CellSEnv (Cert R v)) : (cellS_i1_3 e).map (fun t => (t.1, t.2.1, (t.2.2.c : Fl R))) = cellS_i1_3 (K := Fl R) (e.map fun x => (x.c : Fl R)) := rfl
private theorem cellS_i1_3_e (e : CellSEnv (Cert R v)) : (cellS_i1_3 e).map (fun t => (t.1, t.2.1, t.2.2.e)) = cellS_i1_3 (e.map fun x => x.e) := rfl
private theorem cellS_i1_3_M (e : CellSEnv (Cert R v)) : (cellS_i1_3 e).map (fun t => (t.1, t.2.1, (t.2.2.M : Mag))) = cellS_i1_3 (K := Mag) (e.map fun x => (x.M : Mag)) := rfl
private theorem cellS_i1_4_c (e : CellSEnv (Cert R v)) : (cellS_i1_4 e).map (fun t => (t.1, t.2.1, (t.2.2.c : Fl R))) = cellS_i1_4 (K := Fl R) (e.map fun x => (x.c : Fl R)) := rfl
private theorem cellS_i1_4_e (e : CellSEnv (Cert R v)) : (cellS_i1_4 e).map (fun t => (t.1, t.2.1, t.2.2.e)) = cellS_i1_4 (e.map fun x => x.e) := rfl
private theorem cellS_i1_4_M (e : CellSEnv (Cert R v)) : (cellS_i1_4 e).map (fun t => (t.1, t.2.1, (t.2.2.M : Mag))) = cellS_i1_4 (K := Mag) (e.map fun x => (x.M : Mag)) := rfl
private theorem cellS_i2_2_c (e : CellSEnv (Cert R v)) : (cellS_i2_2 e).map (fun t => (t.1, t.2.1, (t.2.2.c : Fl R))) = cellS_i2_2 (K := Fl R) (e.map fun x => (x.c : Fl R)) := rfl
private theorem cellS_i2_2_e (e : CellSEnv (Cert R v)) : (cellS_i2_2 e).map (fun t => (t.1, t.2.1, t.2.2.e)) = cellS_i2_2 (e.map fun x => x.e) := rfl
private theorem cellS_i2_2_M (e : CellSEnv (Cert R v)) : (cellS_i2_2 e).map (fun t => (t.1, t.2.1, (t.2.2.M : Mag))) = cellS_i2_2 (K := Mag) (e.map fun x => (x.M : Mag)) := rfl
private theorem cellS_i2_3_c (e : CellSEnv (Cert R v)) : (cellS_i2_3 e).map (fun t => (t.1, t.2.1, (t.2.2.c : Fl R))) = cellS_i2_3 (K := Fl R) (e.map fun x => (x.c : Fl R)) := rfl
private theorem cellS_i2_3_e (e : CellSEnv (Cert R v)) : (cellS_i2_3 e).map (fun t => (t.1, t.2.1, t.2.2.e)) = cellS_i2_3 (e.map fun x => x.e) := rfl
private theorem cellS_i2_3_M (e : CellSEnv (Cert R v)) : (cellS_i2_3 e).map (fun t => (t.1, t.2.1, (t.2.2.M : Mag))) = cellS_i2_3 (K := Mag) (e.map fun x => (x.M : Mag)) := rfl
private theorem cellS_i2_4_c (e : CellSEnv (Cert R v)) : (cellS_i2_4 e).map (fun t => (t.1, t.2.1, (t.2.2.c : Fl R))) = cellS_i2_4 (K := Fl R) (e.map fun x => (x.c : Fl R)) := rfl
private theorem cellS_i2_4_e (e : CellSEnv (Cert R v)) : (cellS_i2_4 e).map (fun t => (t.1, t.2.1, t.2.2.e)) = cellS_i2_4 (e.map fun x => x.e) := rfl
private theorem cellS_i2_4_M (e : CellSEnv (Cert R v)) : (cellS_i2_4 e).map (fun t => (t.1, t.2.1, (t.2.2.M : Mag))) = cellS_i2_4 (K := Mag) (e.map fun x => (x.M : Mag)) := rfl
private theorem cellS_i3_2_c (e : CellSEnv (Cert R v)) : (cellS_i3_2 e).map (fun t => (t.1, t.2.1, (t.2.2.c : Fl R))) = cellS_i3_2 (K := Fl R) (e.map fun x => (x.c : Fl R)) := rfl
private theorem cellS_i3_2_e (e : CellSEnv (Cert R v)) : (cellS_i3_2 e).map (fun t => (t.1, t.2.1, t.2.2.e)) = cellS_i3_2 (e.map fun x => x.e) := rfl
private theorem cellS_i3_2_M (e : CellSEnv (Cert R v)) : (cellS_i3_2 e).map (fun t => (t.1, t.2.1, (t.2.2.M : Mag))) = cellS_i3_2 (K := Mag) (e.map fun x => (x.M : Mag)) := rfl
private theorem cellS_i3_3_c (e : CellSEnv (Cert R v)) : (cellS_i3_3 e).map (fun t => (t.1, t.2.1, (t.2.2.c : Fl R))) = cellS_i3_3 (K := Fl R) (e.map fun x => (x.c : Fl R)) := rfl
private theorem cellS_i3_3_e (e : CellSEnv (Cert R v)) : (cellS_i3_3 e).map (fun t => (t.1, t.2.1, t.2.2.e)) = cellS_i3_3 (e.map fun x => x.e) := rfl
private theorem cellS_i3_3_M (e : CellSEnv (Cert R v)) : (cellS_i3_3 e).map (fun t => (t.1, t.2.1, (t.2.2.M : Mag))) = cellS_i3_3 (K := Mag) (e.map fun x => (x.M : Mag)) := rfl
private theorem cellS_i3_4_c (e : CellSEnv (Cert R v)) : (cellS_i3_4 e).map (fun t => (t.1, t.2.1, (t.2.2.c : Fl R))) = cellS_i3_4 (K := Fl R) (e.map fun x => (x.c : Fl R)) := rfl
private theorem cellS_i3_4_e (e : CellSEnv (Cert R v)) : (cellS_i3_4 e).map (fun t => (t.1, t.2.1, t.2.2.e)) = cellS_i3_4 (e.map fun x => x.e) := rfl
private theorem cellS_i3_4_M (e : CellSEnv (Cert R v)) : (cellS_i3_4 e).map (fun t => (t.1, t.2.1, (t.2.2.M : Mag))) = cellS_i3_4 (K := Mag) (e.map fun x => (x.M : Mag)) := rfl

private theorem cellSEntries_c (e : CellSEnv (Cert R v)) : (cellSEntries e).map (fun t => (t.1, t.2.1, (t.2.2.c : Fl R))) = cellSEntries (K := Fl R) (e.map fun x => (x.c : Fl R)) := by
  unfold cellSEntries
  simp only [List.map_append, cellS_i1_2_c, cellS_i1_3_c, cellS_i1_4_c, cellS_i2_2_c, cellS_i2_3_c, cellS_i2_4_c, cellS_i3_2_c, cellS_i3_3_c, cellS_i3_4_c]

private theorem cellSEntries_e (e : CellSEnv (Cert R v)) : (cellSEntries e).map (fun t => (t.1, t.2.1, t.2.2.e)) = cellSEntries (e.map fun x => x.e) := by
  unfold cellSEntries
  simp only [List.map_append, cellS_i1_2_e, cellS_i1_3_e, cellS_i1_4_e, cellS_i2_2_e, cellS_i2_3_e, cellS_i2_4_e, cellS_i3_2_e, cellS_i3_3_e, cellS_i3_4_e]

private theorem cellSEntries_M (e : CellSEnv (Cert R v)) : (cellSEntries e).map (fun t => (t.1, t.2.1, (t.2.2.M : Mag))) = cellSEntries (K := Mag) (e.map fun x => (x.M : Mag)) := by
  unfold cellSEntries
  simp only [List.map_append, cellS_i1_2_M, cellS_i1_3_M, cellS_i1_4_M, cellS_i2_2_M, cellS_i2_3_M, cellS_i2_4_M, cellS_i3_2_M, cellS_i3_3_M, cellS_i3_4_M]

/-- the magnitudes of the data: every number with the absolute tolerance `τ` added to its absolute value, the areas without -/
noncomputable def CellSEnv.mag (e : CellSEnv ℝ) (τ : ℝ) : CellSEnv Mag :=
  { e.map fun x => (show ℝ from |x| + τ) with Ac := (show ℝ from |e.Ac|), Ac1 := (show ℝ from |e.Ac1|), Ac2 := (show ℝ from |e.Ac2|), Ac3 := (show ℝ from |e.Ac3|) }

private noncomputable def cert0 {τ : ℝ} {c e : CellSEnv ℝ} (hτ : 0 ≤ τ) (h : CellSEnv.Rel (Near v 0 τ) c e) (hAc : RelNear v 0 c.Ac e.Ac) (hAc1 : RelNear v 0 c.Ac1 e.Ac1) (hAc2 : RelNear v 0 c.Ac2 e.Ac2) (hAc3 : RelNear v 0 c.Ac3 e.Ac3) : CellSEnv (Cert R v) :=
  { CellSEnv.ofRel (Cert.ofNear hτ 0) h with Ac := Cert.ofRelNear 0 hAc, Ac1 := Cert.ofRelNear 0 hAc1, Ac2 := Cert.ofRelNear 0 hAc2, Ac3 := Cert.ofRelNear 0 hAc3 }

private def cnt0 : CellSEnv Cert.Cnt := { i1 := 0, i2 := 0, i3 := 0, Ac := ⟨0, true, true⟩, Ac1 := ⟨0, true, true⟩, Ac2 := ⟨0, true, true⟩, Ac3 := ⟨0, true, true⟩, E44 := ⟨0, true, false⟩, E45 := ⟨0, true, false⟩, E55 := ⟨0, true, false⟩, a1 := ⟨0, true, false⟩, b1 := ⟨0, true, false⟩, c1 := ⟨0, true, false⟩, d1 := ⟨0, true, false⟩, a2 := ⟨0, true, false⟩, b2 := ⟨0, true, false⟩, c2 := ⟨0, true, false⟩, d2 := ⟨0, true, false⟩, a3 := ⟨0, true, false⟩, b3 := ⟨0, true, false⟩, c3 := ⟨0, true, false⟩, d3 := ⟨0, true, false⟩ }

private theorem cellS_i1_2_n0 {τ : ℝ} {c e : CellSEnv ℝ} (hτ : 0 ≤ τ) (h : CellSEnv.Rel (Near v 0 τ) c e) (hAc : RelNear v 0 c.Ac e.Ac) (hAc1 : RelNear v 0 c.Ac1 e.Ac1) (hAc2 : RelNear v 0 c.Ac2 e.Ac2) (hAc3 : RelNear v 0 c.Ac3 e.Ac3) : (cellS_i1_2 (cert0 (R := R) hτ h hAc hAc1 hAc2 hAc3)).map (fun t => t.2.2.cnt) = (cellS_i1_2 cnt0).map (fun t => t.2.2) := rfl
private theorem cellS_i1_2_b0 : (cellS_i1_2 cnt0).all (fun t => t.2.2.ok && Nat.ble t.2.2.k 23) = true := by decide +kernel
private theorem cellS_i1_3_n0 {τ : ℝ} {c e : CellSEnv ℝ} (hτ : 0 ≤ τ) (h : CellSEnv.Rel (Near v 0 τ) c e) (hAc : RelNear v 0 c.Ac e.Ac) (hAc1 : RelNear v 0 c.Ac1 e.Ac1) (hAc2 : RelNear v 0 c.Ac2 e.Ac2) (hAc3 : RelNear v 0 c.Ac3 e.Ac3) : (cellS_i1_3 (cert0 (R := R) hτ h hAc hAc1 hAc2 hAc3)).map (fun t => t.2.2.cnt) = (cellS_i1_3 cnt0).map (fun t => t.2.2) := rfl
private theorem cellS_i1_3_b0 : (cellS_i1_3 cnt0).all (fun t => t.2.2.ok && Nat.ble t.2.2.k 23) = true := by decide +kernel
private theorem cellS_i1_4_n0 {τ : ℝ} {c e : CellSEnv ℝ} (hτ : 0 ≤ τ) (h : CellSEnv.Rel (Near v 0 τ) c e) (hAc : RelNear v 0 c.Ac e.Ac) (hAc1 : RelNear v 0 c.Ac1 e.Ac1) (hAc2 : RelNear v 0 c.Ac2 e.Ac2) (hAc3 : RelNear v 0 c.Ac3 e.Ac3) : (cellS_i1_4 (cert0 (R := R) hτ h hAc hAc1 hAc2 hAc3)).map (fun t => t.2.2.cnt) = (cellS_i1_4 cnt0).map (fun t => t.2.2) := rfl
private theorem cellS_i1_4_b0 : (cellS_i1_4 cnt0).all (fun t => t.2.2.ok && Nat.ble t.2.2.k 23) = true := by decide +kernel
private theorem cellS_i2_2_n0 {τ : ℝ} {c e : CellSEnv ℝ} (hτ : 0 ≤ τ) (h : CellSEnv.Rel (Near v 0 τ) c e) (hAc : RelNear v 0 c.Ac e.Ac) (hAc1 : RelNear v 0 c.Ac1 e.Ac1) (hAc2 : RelNear v 0 c.Ac2 e.Ac2) (hAc3 : RelNear v 0 c.Ac3 e.Ac3) : (cellS_i2_2 (cert0 (R := R) hτ h hAc hAc1 hAc2 hAc3)).map (fun t => t.2.2.cnt) = (cellS_i2_2 cnt0).map (fun t => t.2.2) := rfl
private theorem cellS_i2_2_b0 : (cellS_i2_2 cnt0).all (fun t => t.2.2.ok && Nat.ble t.2.2.k 23) = true := by decide +kernel
private theorem cellS_i2_3_n0 {τ : ℝ} {c e : CellSEnv ℝ} (hτ : 0 ≤ τ) (h : CellSEnv.Rel (Near v 0 τ) c e) (hAc : RelNear v 0 c.Ac e.Ac) (hAc1 : RelNear v 0 c.Ac1 e.Ac1) (hAc2 : RelNear v 0 c.Ac2 e.Ac2) (hAc3 : RelNear v 0 c.Ac3 e.Ac3) : (cellS_i2_3 (cert0 (R := R) hτ h hAc hAc1 hAc2 hAc3)).map (fun t => t.2.2.cnt) = (cellS_i2_3 cnt0).map (fun t => t.2.2) := rfl
private theorem cellS_i2_3_b0 : (cellS_i2_3 cnt0).all (fun t => t.2.2.ok && Nat.ble t.2.2.k 23) = true := by decide +kernel
private theorem cellS_i2_4_n0 {τ : ℝ} {c e : CellSEnv ℝ} (hτ : 0 ≤ τ) (h : CellSEnv.Rel (Near v 0 τ) c e) (hAc : RelNear v 0 c.Ac e.Ac) (hAc1 : RelNear v 0 c.Ac1 e.Ac1) (hAc2 : RelNear v 0 c.Ac2 e.Ac2) (hAc3 : RelNear v 0 c.Ac3 e.Ac3) : (cellS_i2_4 (cert0 (R := R) hτ h hAc hAc1 hAc2 hAc3)).map (fun t => t.2.2.cnt) = (cellS_i2_4 cnt0).map (fun t => t.2.2) := rfl
private theorem cellS_i2_4_b0 : (cellS_i2_4 cnt0).all (fun t => t.2.2.ok && Nat.ble t.2.2.k 23) = true := by decide +kernel
private theorem cellS_i3_2_n0 {τ : ℝ} {c e : CellSEnv ℝ} (hτ : 0 ≤ τ) (h : CellSEnv.Rel (Near v 0 τ) c e) (hAc : RelNear v 0 c.Ac e.Ac) (hAc1 : RelNear v 0 c.Ac1 e.Ac1) (hAc2 : RelNear v 0 c.Ac2 e.Ac2) (hAc3 : RelNear v 0 c.Ac3 e.Ac3) : (cellS_i3_2 (cert0 (R := R) hτ h hAc hAc1 hAc2 hAc3)).map (fun t => t.2.2.cnt) = (cellS_i3_2 cnt0).map (fun t => t.2.2) := rfl
private theorem cellS_i3_2_b0 : (cellS_i3_2 cnt0).all (fun t => t.2.2.ok && Nat.ble t.2.2.k 23) = true := by decide +kernel
private theorem cellS_i3_3_n0 {τ : ℝ} {c e : CellSEnv ℝ} (hτ : 0 ≤ τ) (h : CellSEnv.Rel (Near v 0 τ) c e) (hAc : RelNear v 0 c.Ac e.Ac) (hAc1 : RelNear v 0 c.Ac1 e.Ac1) (hAc2 : RelNear v 0 c.Ac2 e.Ac2) (hAc3 : RelNear v 0 c.Ac3 e.Ac3) : (cellS_i3_3 (cert0 (R := R) hτ h hAc hAc1 hAc2 hAc3)).map (fun t => t.2.2.cnt) = (cellS_i3_3 cnt0).map (fun t => t.2.2) := rfl
private theorem cellS_i3_3_b0 : (cellS_i3_3 cnt0).all (fun t => t.2.2.ok && Nat.ble t.2.2.k 23) = true := by decide +kernel
private theorem cellS_i3_4_n0 {τ : ℝ} {c e : CellSEnv ℝ} (hτ : 0 ≤ τ) (h : CellSEnv.Rel (Near v 0 τ) c e) (hAc : RelNear v 0 c.Ac e.Ac) (hAc1 : RelNear v 0 c.Ac1 e.Ac1) (hAc2 : RelNear v 0 c.Ac2 e.Ac2) (hAc3 : RelNear v 0 c.Ac3 e.Ac3) : (cellS_i3_4 (cert0 (R := R) hτ h hAc hAc1 hAc2 hAc3)).map (fun t => t.2.2.cnt) = (cellS_i3_4 cnt0).map (fun t => t.2.2) := rfl
private theorem cellS_i3_4_b0 : (cellS_i3_4 cnt0).all (fun t => t.2.2.ok && Nat.ble t.2.2.k 23) = true := by decide +kernel

/-- the increments computed from data with no error -/
theorem cellSEntries_cert0 (R : Rounding) [RoundOK R v] {τ : ℝ} {c e : CellSEnv ℝ} (hτ : 0 ≤ τ) (h : CellSEnv.Rel (Near v 0 τ) c e) (hAc : RelNear v 0 c.Ac e.Ac) (hAc1 : RelNear v 0 c.Ac1 e.Ac1) (hAc2 : RelNear v 0 c.Ac2 e.Ac2) (hAc3 : RelNear v 0 c.Ac3 e.Ac3) :
    ∃ L : List (ℤ × ℤ × Cert R v), L.map (fun t => (t.1, t.2.1, (t.2.2.c : Fl R))) = cellSEntries (K := Fl R) c ∧ L.map (fun t => (t.1, t.2.1, t.2.2.e)) = cellSEntries e ∧
      L.map (fun t => (t.1, t.2.1, (t.2.2.M : Mag))) = cellSEntries (K := Mag) (e.mag τ) ∧ ∀ t ∈ L, t.2.2.ok = true ∧ t.2.2.k ≤ 23 := by
  refine ⟨cellSEntries (cert0 (R := R) hτ h hAc hAc1 hAc2 hAc3), ?_, ?_, ?_, ?_⟩
  · rw [cellSEntries_c]; congr 1; obtain ⟨⟩ := c; obtain ⟨⟩ := e
    obtain rfl := h.i1
    obtain rfl := h.i2
    obtain rfl := h.i3
    rfl
  · rw [cellSEntries_e]; rfl
  · rw [cellSEntries_M]; rfl
  · intro t ht
    unfold cellSEntries at ht
    simp only [List.mem_append] at ht
    rcases ht with (((((((h1 | h1) | h1) | h1) | h1) | h1) | h1) | h1) | h1
    · exact Cert.of_cnt (cellS_i1_2_n0 hτ h hAc hAc1 hAc2 hAc3) cellS_i1_2_b0 h1
    · exact Cert.of_cnt (cellS_i1_3_n0 hτ h hAc hAc1 hAc2 hAc3) cellS_i1_3_b0 h1
    · exact Cert.of_cnt (cellS_i1_4_n0 hτ h hAc hAc1 hAc2 hAc3) cellS_i1_4_b0 h1
    · exact Cert.of_cnt (cellS_i2_2_n0 hτ h hAc hAc1 hAc2 hAc3) cellS_i2_2_b0 h1
    · exact Cert.of_cnt (cellS_i2_3_n0 hτ h hAc hAc1 hAc2 hAc3) cellS_i2_3_b0 h1
    · exact Cert.of_cnt (cellS_i2_4_n0 hτ h hAc hAc1 hAc2 hAc3) cellS_i2_4_b0 h1
    · exact Cert.of_cnt (cellS_i3_2_n0 hτ h hAc hAc1 hAc2 hAc3) cellS_i3_2_b0 h1
    · exact Cert.of_cnt (cellS_i3_3_n0 hτ h hAc hAc1 hAc2 hAc3) cellS_i3_3_b0 h1
    · exact Cert.of_cnt (cellS_i3_4_n0 hτ h hAc hAc1 hAc2 hAc3) cellS_i3_4_b0 h1

private noncomputable def cert1 {τ : ℝ} {c e : CellSEnv ℝ} (hτ : 0 ≤ τ) (h : CellSEnv.Rel (Near v 1 τ) c e) (hAc : RelNear v 1 c.Ac e.Ac) (hAc1 : RelNear v 1 c.Ac1 e.Ac1) (hAc2 : RelNear v 1 c.Ac2 e.Ac2) (hAc3 : RelNear v 1 c.Ac3 e.Ac3) : CellSEnv (Cert R v) :=
  { CellSEnv.ofRel (Cert.ofNear hτ 1) h with Ac := Cert.ofRelNear 1 hAc, Ac1 := Cert.ofRelNear 1 hAc1, Ac2 := Cert.ofRelNear 1 hAc2, Ac3 := Cert.ofRelNear 1 hAc3 }

private def cnt1 : CellSEnv Cert.Cnt := { i1 := 0, i2 := 0, i3 := 0, Ac := ⟨1, true, true⟩, Ac1 := ⟨1, true, true⟩, Ac2 := ⟨1, true, true⟩, Ac3 := ⟨1, true, true⟩, E44 := ⟨1, true, false⟩, E45 := ⟨1, true, false⟩, E55 := ⟨1, true, false⟩, a1 := ⟨1, true, false⟩, b1 := ⟨1, true, false⟩, c1 := ⟨1, true, false⟩, d1 := ⟨1, true, false⟩, a2 := ⟨1, true, false⟩, b2 := ⟨1, true, false⟩, c2 := ⟨1, true, false⟩, d2 := ⟨1, true, false⟩, a3 := ⟨1, true, false⟩, b3 := ⟨1, true, false⟩, c3 := ⟨1, true, false⟩, d3 := ⟨1, true, false⟩ }

private theorem cellS_i1_2_n1 {τ : ℝ} {c e : CellSEnv ℝ} (hτ : 0 ≤ τ) (h : CellSEnv.Rel (Near v 1 τ) c e) (hAc : RelNear v 1 c.Ac e.Ac) (hAc1 : RelNear v 1 c.Ac1 e.Ac1) (hAc2 : RelNear v 1 c.Ac2 e.Ac2) (hAc3 : RelNear v 1 c.Ac3 e.Ac3) : (cellS_i1_2 (cert1 (R := R) hτ h hAc hAc1 hAc2 hAc3)).map (fun t => t.2.2.cnt) = (cellS_i1_2 cnt1).map (fun t => t.2.2) := rfl
private theorem cellS_i1_2_b1 : (cellS_i1_2 cnt1).all (fun t => t.2.2.ok && Nat.ble t.2.2.k 31) = true := by decide +kernel
private theorem cellS_i1_3_n1 {τ : ℝ} {c e : CellSEnv ℝ} (hτ : 0 ≤ τ) (h : CellSEnv.Rel (Near v 1 τ) c e) (hAc : RelNear v 1 c.Ac e.Ac) (hAc1 : RelNear v 1 c.Ac1 e.Ac1) (hAc2 : RelNear v 1 c.Ac2 e.Ac2) (hAc3 : RelNear v 1 c.Ac3 e.Ac3) : (cellS_i1_3 (cert1 (R := R) hτ h hAc hAc1 hAc2 hAc3)).map (fun t => t.2.2.cnt) = (cellS_i1_3 cnt1).map (fun t => t.2.2) := rfl
private theorem cellS_i1_3_b1 : (cellS_i1_3 cnt1).all (fun t => t.2.2.ok && Nat.ble t.2.2.k 31) = true := by decide +kernel
private theorem cellS_i1_4_n1 {τ : ℝ} {c e : CellSEnv ℝ} (hτ : 0 ≤ τ) (h : CellSEnv.Rel (Near v 1 τ) c e) (hAc : RelNear v 1 c.Ac e.Ac) (hAc1 : RelNear v 1 c.Ac1 e.Ac1) (hAc2 : RelNear v 1 c.Ac2 e.Ac2) (hAc3 : RelNear v 1 c.Ac3 e.Ac3) : (cellS_i1_4 (cert1 (R := R) hτ h hAc hAc1 hAc2 hAc3)).map (fun t => t.2.2.cnt) = (cellS_i1_4 cnt1).map (fun t => t.2.2) := rfl
private theorem cellS_i1_4_b1 : (cellS_i1_4 cnt1).all (fun t => t.2.2.ok && Nat.ble t.2.2.k 31) = true := by decide +kernel
private theorem cellS_i2_2_n1 {τ : ℝ} {c e : CellSEnv ℝ} (hτ : 0 ≤ τ) (h : CellSEnv.Rel (Near v 1 τ) c e) (hAc : RelNear v 1 c.Ac e.Ac) (hAc1 : RelNear v 1 c.Ac1 e.Ac1) (hAc2 : RelNear v 1 c.Ac2 e.Ac2) (hAc3 : RelNear v 1 c.Ac3 e.Ac3) : (cellS_i2_2 (cert1 (R := R) hτ h hAc hAc1 hAc2 hAc3)).map (fun t => t.2.2.cnt) = (cellS_i2_2 cnt1).map (fun t => t.2.2) := rfl
private theorem cellS_i2_2_b1 : (cellS_i2_2 cnt1).all (fun t => t.2.2.ok && Nat.ble t.2.2.k 31) = true := by decide +kernel
private theorem cellS_i2_3_n1 {τ : ℝ} {c e : CellSEnv ℝ} (hτ : 0 ≤ τ) (h : CellSEnv.Rel (Near v 1 τ) c e) (hAc : RelNear v 1 c.Ac e.Ac) (hAc1 : RelNear v 1 c.Ac1 e.Ac1) (hAc2 : RelNear v 1 c.Ac2 e.Ac2) (hAc3 : RelNear v 1 c.Ac3 e.Ac3) : (cellS_i2_3 (cert1 (R := R) hτ h hAc hAc1 hAc2 hAc3)).map (fun t => t.2.2.cnt) = (cellS_i2_3 cnt1).map (fun t => t.2.2) := rfl
private theorem cellS_i2_3_b1 : (cellS_i2_3 cnt1).all (fun t => t.2.2.ok && Nat.ble t.2.2.k 31) = true := by decide +kernel
private theorem cellS_i2_4_n1 {τ : ℝ} {c e : CellSEnv ℝ} (hτ : 0 ≤ τ) (h : CellSEnv.Rel (Near v 1 τ) c e) (hAc : RelNear v 1 c.Ac e.Ac) (hAc1 : RelNear v 1 c.Ac1 e.Ac1) (hAc2 : RelNear v 1 c.Ac2 e.Ac2) (hAc3 : RelNear v 1 c.Ac3 e.Ac3) : (cellS_i2_4 (cert1 (R := R) hτ h hAc hAc1 hAc2 hAc3)).map (fun t => t.2.2.cnt) = (cellS_i2_4 cnt1).map (fun t => t.2.2) := rfl
private theorem cellS_i2_4_b1 : (cellS_i2_4 cnt1).all (fun t => t.2.2.ok && Nat.ble t.2.2.k 31) = true := by decide +kernel
private theorem cellS_i3_2_n1 {τ : ℝ} {c e : CellSEnv ℝ} (hτ : 0 ≤ τ) (h : CellSEnv.Rel (Near v 1 τ) c e) (hAc : RelNear v 1 c.Ac e.Ac) (hAc1 : RelNear v 1 c.Ac1 e.Ac1) (hAc2 : RelNear v 1 c.Ac2 e.Ac2) (hAc3 : RelNear v 1 c.Ac3 e.Ac3) : (cellS_i3_2 (cert1 (R := R) hτ h hAc hAc1 hAc2 hAc3)).map (fun t => t.2.2.cnt) = (cellS_i3_2 cnt1).map (fun t => t.2.2) := rfl
private theorem cellS_i3_2_b1 : (cellS_i3_2 cnt1).all (fun t => t.2.2.ok && Nat.ble t.2.2.k 31) = true := by decide +kernel
private theorem cellS_i3_3_n1 {τ : ℝ} {c e : CellSEnv ℝ} (hτ : 0 ≤ τ) (h : CellSEnv.Rel (Near v 1 τ) c e) (hAc : RelNear v 1 c.Ac e.Ac) (hAc1 : RelNear v 1 c.Ac1 e.Ac1) (hAc2 : RelNear v 1 c.Ac2 e.Ac2) (hAc3 : RelNear v 1 c.Ac3 e.Ac3) : (cellS_i3_3 (cert1 (R := R) hτ h hAc hAc1 hAc2 hAc3)).map (fun t => t.2.2.cnt) = (cellS_i3_3 cnt1).map (fun t => t.2.2) := rfl
private theorem cellS_i3_3_b1 : (cellS_i3_3 cnt1).all (fun t => t.2.2.ok && Nat.ble t.2.2.k 31) = true := by decide +kernel
private theorem cellS_i3_4_n1 {τ : ℝ} {c e : CellSEnv ℝ} (hτ : 0 ≤ τ) (h : CellSEnv.Rel (Near v 1 τ) c e) (hAc : RelNear v 1 c.Ac e.Ac) (hAc1 : RelNear v 1 c.Ac1 e.Ac1) (hAc2 : RelNear v 1 c.Ac2 e.Ac2) (hAc3 : RelNear v 1 c.Ac3 e.Ac3) : (cellS_i3_4 (cert1 (R := R) hτ h hAc hAc1 hAc2 hAc3)).map (fun t => t.2.2.cnt) = (cellS_i3_4 cnt1).map (fun t => t.2.2) := rfl
private theorem cellS_i3_4_b1 : (cellS_i3_4 cnt1).all (fun t => t.2.2.ok && Nat.ble t.2.2.k 31) = true := by decide +kernel

/-- the increments computed from data with errors of one rounding -/
theorem cellSEntries_cert1 (R : Rounding) [RoundOK R v] {τ : ℝ} {c e : CellSEnv ℝ} (hτ : 0 ≤ τ) (h : CellSEnv.Rel (Near v 1 τ) c e) (hAc : RelNear v 1 c.Ac e.Ac) (hAc1 : RelNear v 1 c.Ac1 e.Ac1) (hAc2 : RelNear v 1 c.Ac2 e.Ac2) (hAc3 : RelNear v 1 c.Ac3 e.Ac3) :
    ∃ L : List (ℤ × ℤ × Cert R v), L.map (fun t => (t.1, t.2.1, (t.2.2.c : Fl R))) = cellSEntries (K := Fl R) c ∧ L.map (fun t => (t.1, t.2.1, t.2.2.e)) = cellSEntries e ∧
      L.map (fun t => (t.1, t.2.1, (t.2.2.M : Mag))) = cellSEntries (K := Mag) (e.mag τ) ∧ ∀ t ∈ L, t.2.2.ok = true ∧ t.2.2.k ≤ 31 := by
  refine ⟨cellSEntries (cert1 (R := R) hτ h hAc hAc1 hAc2 hAc3), ?_, ?_, ?_, ?_⟩
  · rw [cellSEntries_c]; congr 1; obtain ⟨⟩ := c; obtain ⟨⟩ := e
    obtain rfl := h.i1
    obtain rfl := h.i2
    obtain rfl := h.i3
    rfl
  · rw [cellSEntries_e]; rfl
  · rw [cellSEntries_M]; rfl
  · intro t ht
    unfold cellSEntries at ht
    simp only [List.mem_append] at ht
    rcases ht with (((((((h1 | h1) | h1) | h1) | h1) | h1) | h1) | h1) | h1
    · exact Cert.of_cnt (cellS_i1_2_n1 hτ h hAc hAc1 hAc2 hAc3) cellS_i1_2_b1 h1
    · exact Cert.of_cnt (cellS_i1_3_n1 hτ h hAc hAc1 hAc2 hAc3) cellS_i1_3_b1 h1
    · exact Cert.of_cnt (cellS_i1_4_n1 hτ h hAc hAc1 hAc2 hAc3) cellS_i1_4_b1 h1
    · exact Cert.of_cnt (cellS_i2_2_n1 hτ h hAc hAc1 hAc2 hAc3) cellS_i2_2_b1 h1
    · exact Cert.of_cnt (cellS_i2_3_n1 hτ h hAc hAc1 hAc2 hAc3) cellS_i2_3_b1 h1
    · exact Cert.of_cnt (cellS_i2_4_n1 hτ h hAc hAc1 hAc2 hAc3) cellS_i2_4_b1 h1
    · exact Cert.of_cnt (cellS_i3_2_n1 hτ h hAc hAc1 hAc2 hAc3) cellS_i3_2_b1 h1
    · exact Cert.of_cnt (cellS_i3_3_n1 hτ h hAc hAc1 hAc2 hAc3) cellS_i3_3_b1 h1
    · exact Cert.of_cnt (cellS_i3_4_n1 hτ h hAc hAc1 hAc2 hAc3) cellS_i3_4_b1 h1

end Meshless
