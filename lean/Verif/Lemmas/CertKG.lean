import Verif.Model.Gen.Map
import Verif.Lemmas.Cert

/-! GENERATED by /verif/tools/gencert.py: the certified evaluation of the increments of Model/Gen/KG.lean, group by group. -/

set_option autoImplicit false
set_option maxRecDepth 10000

namespace Meshless

variable {R : Rounding} {v : ℝ} [RoundOK R v]

private theorem kG_i1_2_c (e : KGEnv (Cert R v)) : (kG_i1_2 e).map (fun t => (t.1, t.2.1, (t.2.2.c : Fl R))) = kG_i1_2 (K := Fl R) (e.map fun x => (x.c : Fl R)) := rfl
private theorem kG_i1_2_e (e : KGEnv (Cert R v)) : (kG_i1_2 e).map (fun t => (t.1, t.2.1, t.2.2.e)) = kG_i1_2 (e.map fun x => x.e) := rfl
private theorem kG_i1_2_M (e : KGEnv (Cert R v)) : (kG_i1_2 e).map (fun t => (t.1, t.2.1, (t.2.2.M : Mag))) = kG_i1_2 (K := Mag) (e.map fun x => (x.M : Mag)) := rfl
private theorem kG_i2_2_c (e : KGEnv (Cert R v)) : (kG_i2_2 e).map (fun t => (t.1, t.2.1, (t.2.2.c : Fl R))) = kG_i2_2 (K := Fl R) (e.map fun x => (x.c : Fl R)) := rfl
private theorem kG_i2_2_e (e : KGEnv (Cert R v)) : (kG_i2_2 e).map (fun t => (t.1, t.2.1, t.2.2.e)) = kG_i2_2 (e.map fun x => x.e) := rfl
private theorem kG_i2_2_M (e : KGEnv (Cert R v)) : (kG_i2_2 e).map (fun t => (t.1, t.2.1, (t.2.2.M : Mag))) = kG_i2_2 (K := Mag) (e.map fun x => (x.M : Mag)) := rfl
private theorem kG_i3_2_c (e : KGEnv (Cert R v)) : (kG_i3_2 e).map (fun t => (t.1, t.2.1, (t.2.2.c : Fl R))) = kG_i3_2 (K := Fl R) (e.map fun x => (x.c : Fl R)) := rfl
private theorem kG_i3_2_e (e : KGEnv (Cert R v)) : (kG_i3_2 e).map (fun t => (t.1, t.2.1, t.2.2.e)) = kG_i3_2 (e.map fun x => x.e) := rfl
private theorem kG_i3_2_M (e : KGEnv (Cert R v)) : (kG_i3_2 e).map (fun t => (t.1, t.2.1, (t.2.2.M : Mag))) = kG_i3_2 (K := Mag) (e.map fun x => (x.M : Mag)) := rfl
private theorem kG_i4_2_c (e : KGEnv (Cert R v)) : (kG_i4_2 e).map (fun t => (t.1, t.2.1, (t.2.2.c : Fl R))) = kG_i4_2 (K := Fl R) (e.map fun x => (x.c : Fl R)) := rfl
private theorem kG_i4_2_e (e : KGEnv (Cert R v)) : (kG_i4_2 e).map (fun t => (t.1, t.2.1, t.2.2.e)) = kG_i4_2 (e.map fun x => x.e) := rfl
private theorem kG_i4_2_M (e : KGEnv (Cert R v)) : (kG_i4_2 e).map (fun t => (t.1, t.2.1, (t.2.2.M : Mag))) = kG_i4_2 (K := Mag) (e.map fun x => (x.M : Mag)) := rfl

private theorem kGEntries_c (e : KGEnv (Cert R v)) : (kGEntries e).map (fun t => (t.1, t.2.1, (t.2.2.c : Fl R))) = kGEntries (K := Fl R) (e.map fun x => (x.c : Fl R)) := by
  unfold kGEntries
  simp only [List.map_append, kG_i1_2_c, kG_i2_2_c, kG_i3_2_c, kG_i4_2_c]

private theorem kGEntries_e (e : KGEnv (Cert R v)) : (kGEntries e).map (fun t => (t.1, t.2.1, t.2.2.e)) = kGEntries (e.map fun x => x.e) := by
  unfold kGEntries
  simp only [List.map_append, kG_i1_2_e, kG_i2_2_e, kG_i3_2_e, kG_i4_2_e]

private theorem kGEntries_M (e : KGEnv (Cert R v)) : (kGEntries e).map (fun t => (t.1, t.2.1, (t.2.2.M : Mag))) = kGEntries (K := Mag) (e.map fun x => (x.M : Mag)) := by
  unfold kGEntries
  simp only [List.map_append, kG_i1_2_M, kG_i2_2_M, kG_i3_2_M, kG_i4_2_M]

/-- the magnitudes of the data: every number with the absolute tolerance `τ` added to its absolute value, the areas without -/
noncomputable def KGEnv.mag (e : KGEnv ℝ) (τ : ℝ) : KGEnv Mag :=
  { e.map fun x => (show ℝ from |x| + τ) with Ac := (show ℝ from |e.Ac|) }

private noncomputable def cert0 {τ : ℝ} {c e : KGEnv ℝ} (hτ : 0 ≤ τ) (h : KGEnv.Rel (Near v 0 τ) c e) (hAc : RelNear v 0 c.Ac e.Ac) : KGEnv (Cert R v) :=
  { KGEnv.ofRel (Cert.ofNear hτ 0) h with Ac := Cert.ofRelNear 0 hAc }

private def cnt0 : KGEnv Cert.Cnt := { i1 := 0, i2 := 0, i3 := 0, i4 := 0, Ac := ⟨0, true, true⟩, Nxx := ⟨0, true, false⟩, Nxy := ⟨0, true, false⟩, Nyy := ⟨0, true, false⟩, f11 := ⟨0, true, false⟩, f12 := ⟨0, true, false⟩, f13 := ⟨0, true, false⟩, f14 := ⟨0, true, false⟩, f21 := ⟨0, true, false⟩, f22 := ⟨0, true, false⟩, f23 := ⟨0, true, false⟩, f24 := ⟨0, true, false⟩, f31 := ⟨0, true, false⟩, f32 := ⟨0, true, false⟩, f33 := ⟨0, true, false⟩, f34 := ⟨0, true, false⟩, f41 := ⟨0, true, false⟩, f42 := ⟨0, true, false⟩, f43 := ⟨0, true, false⟩, f44 := ⟨0, true, false⟩, le1 := ⟨0, true, false⟩, le2 := ⟨0, true, false⟩, le3 := ⟨0, true, false⟩, le4 := ⟨0, true, false⟩, nx1 := ⟨0, true, false⟩, nx2 := ⟨0, true, false⟩, nx3 := ⟨0, true, false⟩, nx4 := ⟨0, true, false⟩, ny1 := ⟨0, true, false⟩, ny2 := ⟨0, true, false⟩, ny3 := ⟨0, true, false⟩, ny4 := ⟨0, true, false⟩ }

private theorem kG_i1_2_n0 {τ : ℝ} {c e : KGEnv ℝ} (hτ : 0 ≤ τ) (h : KGEnv.Rel (Near v 0 τ) c e) (hAc : RelNear v 0 c.Ac e.Ac) : (kG_i1_2 (cert0 (R := R) hτ h hAc)).map (fun t => t.2.2.cnt) = (kG_i1_2 cnt0).map (fun t => t.2.2) := rfl
private theorem kG_i1_2_b0 : (kG_i1_2 cnt0).all (fun t => t.2.2.ok && Nat.ble t.2.2.k 17) = true := by decide +kernel
private theorem kG_i2_2_n0 {τ : ℝ} {c e : KGEnv ℝ} (hτ : 0 ≤ τ) (h : KGEnv.Rel (Near v 0 τ) c e) (hAc : RelNear v 0 c.Ac e.Ac) : (kG_i2_2 (cert0 (R := R) hτ h hAc)).map (fun t => t.2.2.cnt) = (kG_i2_2 cnt0).map (fun t => t.2.2) := rfl
private theorem kG_i2_2_b0 : (kG_i2_2 cnt0).all (fun t => t.2.2.ok && Nat.ble t.2.2.k 17) = true := by decide +kernel
private theorem kG_i3_2_n0 {τ : ℝ} {c e : KGEnv ℝ} (hτ : 0 ≤ τ) (h : KGEnv.Rel (Near v 0 τ) c e) (hAc : RelNear v 0 c.Ac e.Ac) : (kG_i3_2 (cert0 (R := R) hτ h hAc)).map (fun t => t.2.2.cnt) = (kG_i3_2 cnt0).map (fun t => t.2.2) := rfl
private theorem kG_i3_2_b0 : (kG_i3_2 cnt0).all (fun t => t.2.2.ok && Nat.ble t.2.2.k 17) = true := by decide +kernel
private theorem kG_i4_2_n0 {τ : ℝ} {c e : KGEnv ℝ} (hτ : 0 ≤ τ) (h : KGEnv.Rel (Near v 0 τ) c e) (hAc : RelNear v 0 c.Ac e.Ac) : (kG_i4_2 (cert0 (R := R) hτ h hAc)).map (fun t => t.2.2.cnt) = (kG_i4_2 cnt0).map (fun t => t.2.2) := rfl
private theorem kG_i4_2_b0 : (kG_i4_2 cnt0).all (fun t => t.2.2.ok && Nat.ble t.2.2.k 17) = true := by decide +kernel

/-- the increments computed from data with no error -/
theorem kGEntries_cert0 (R : Rounding) [RoundOK R v] {τ : ℝ} {c e : KGEnv ℝ} (hτ : 0 ≤ τ) (h : KGEnv.Rel (Near v 0 τ) c e) (hAc : RelNear v 0 c.Ac e.Ac) :
    ∃ L : List (ℤ × ℤ × Cert R v), L.map (fun t => (t.1, t.2.1, (t.2.2.c : Fl R))) = kGEntries (K := Fl R) c ∧ L.map (fun t => (t.1, t.2.1, t.2.2.e)) = kGEntries e ∧
      L.map (fun t => (t.1, t.2.1, (t.2.2.M : Mag))) = kGEntries (K := Mag) (e.mag τ) ∧ ∀ t ∈ L, t.2.2.ok = true ∧ t.2.2.k ≤ 17 := by
  refine ⟨kGEntries (cert0 (R := R) hτ h hAc), ?_, ?_, ?_, ?_⟩
  · rw [kGEntries_c]; congr 1; obtain ⟨⟩ := c; obtain ⟨⟩ := e
    obtain rfl := h.i1
    obtain rfl := h.i2
    obtain rfl := h.i3
    obtain rfl := h.i4
    rfl
  · rw [kGEntries_e]; rfl
  · rw [kGEntries_M]; rfl
  · intro t ht
    unfold kGEntries at ht
    simp only [List.mem_append] at ht
    rcases ht with ((h1 | h1) | h1) | h1
    · exact Cert.of_cnt (kG_i1_2_n0 hτ h hAc) kG_i1_2_b0 h1
    · exact Cert.of_cnt (kG_i2_2_n0 hτ h hAc) kG_i2_2_b0 h1
    · exact Cert.of_cnt (kG_i3_2_n0 hτ h hAc) kG_i3_2_b0 h1
    · exact Cert.of_cnt (kG_i4_2_n0 hτ h hAc) kG_i4_2_b0 h1

private noncomputable def cert1 {τ : ℝ} {c e : KGEnv ℝ} (hτ : 0 ≤ τ) (h : KGEnv.Rel (Near v 1 τ) c e) (hAc : RelNear v 1 c.Ac e.Ac) : KGEnv (Cert R v) :=
  { KGEnv.ofRel (Cert.ofNear hτ 1) h with Ac := Cert.ofRelNear 1 hAc }

private def cnt1 : KGEnv Cert.Cnt := { i1 := 0, i2 := 0, i3 := 0, i4 := 0, Ac := ⟨1, true, true⟩, Nxx := ⟨1, true, false⟩, Nxy := ⟨1, true, false⟩, Nyy := ⟨1, true, false⟩, f11 := ⟨1, true, false⟩, f12 := ⟨1, true, false⟩, f13 := ⟨1, true, false⟩, f14 := ⟨1, true, false⟩, f21 := ⟨1, true, false⟩, f22 := ⟨1, true, false⟩, f23 := ⟨1, true, false⟩, f24 := ⟨1, true, false⟩, f31 := ⟨1, true, false⟩, f32 := ⟨1, true, false⟩, f33 := ⟨1, true, false⟩, f34 := ⟨1, true, false⟩, f41 := ⟨1, true, false⟩, f42 := ⟨1, true, false⟩, f43 := ⟨1, true, false⟩, f44 := ⟨1, true, false⟩, le1 := ⟨1, true, false⟩, le2 := ⟨1, true, false⟩, le3 := ⟨1, true, false⟩, le4 := ⟨1, true, false⟩, nx1 := ⟨1, true, false⟩, nx2 := ⟨1, true, false⟩, nx3 := ⟨1, true, false⟩, nx4 := ⟨1, true, false⟩, ny1 := ⟨1, true, false⟩, ny2 := ⟨1, true, false⟩, ny3 := ⟨1, true, false⟩, ny4 := ⟨1, true, false⟩ }

private theorem kG_i1_2_n1 {τ : ℝ} {c e : KGEnv ℝ} (hτ : 0 ≤ τ) (h : KGEnv.Rel (Near v 1 τ) c e) (hAc : RelNear v 1 c.Ac e.Ac) : (kG_i1_2 (cert1 (R := R) hτ h hAc)).map (fun t => t.2.2.cnt) = (kG_i1_2 cnt1).map (fun t => t.2.2) := rfl
private theorem kG_i1_2_b1 : (kG_i1_2 cnt1).all (fun t => t.2.2.ok && Nat.ble t.2.2.k 27) = true := by decide +kernel
private theorem kG_i2_2_n1 {τ : ℝ} {c e : KGEnv ℝ} (hτ : 0 ≤ τ) (h : KGEnv.Rel (Near v 1 τ) c e) (hAc : RelNear v 1 c.Ac e.Ac) : (kG_i2_2 (cert1 (R := R) hτ h hAc)).map (fun t => t.2.2.cnt) = (kG_i2_2 cnt1).map (fun t => t.2.2) := rfl
private theorem kG_i2_2_b1 : (kG_i2_2 cnt1).all (fun t => t.2.2.ok && Nat.ble t.2.2.k 27) = true := by decide +kernel
private theorem kG_i3_2_n1 {τ : ℝ} {c e : KGEnv ℝ} (hτ : 0 ≤ τ) (h : KGEnv.Rel (Near v 1 τ) c e) (hAc : RelNear v 1 c.Ac e.Ac) : (kG_i3_2 (cert1 (R := R) hτ h hAc)).map (fun t => t.2.2.cnt) = (kG_i3_2 cnt1).map (fun t => t.2.2) := rfl
private theorem kG_i3_2_b1 : (kG_i3_2 cnt1).all (fun t => t.2.2.ok && Nat.ble t.2.2.k 27) = true := by decide +kernel
private theorem kG_i4_2_n1 {τ : ℝ} {c e : KGEnv ℝ} (hτ : 0 ≤ τ) (h : KGEnv.Rel (Near v 1 τ) c e) (hAc : RelNear v 1 c.Ac e.Ac) : (kG_i4_2 (cert1 (R := R) hτ h hAc)).map (fun t => t.2.2.cnt) = (kG_i4_2 cnt1).map (fun t => t.2.2) := rfl
private theorem kG_i4_2_b1 : (kG_i4_2 cnt1).all (fun t => t.2.2.ok && Nat.ble t.2.2.k 27) = true := by decide +kernel

/-- the increments computed from data with errors of one rounding -/
theorem kGEntries_cert1 (R : Rounding) [RoundOK R v] {τ : ℝ} {c e : KGEnv ℝ} (hτ : 0 ≤ τ) (h : KGEnv.Rel (Near v 1 τ) c e) (hAc : RelNear v 1 c.Ac e.Ac) :
    ∃ L : List (ℤ × ℤ × Cert R v), L.map (fun t => (t.1, t.2.1, (t.2.2.c : Fl R))) = kGEntries (K := Fl R) c ∧ L.map (fun t => (t.1, t.2.1, t.2.2.e)) = kGEntries e ∧
      L.map (fun t => (t.1, t.2.1, (t.2.2.M : Mag))) = kGEntries (K := Mag) (e.mag τ) ∧ ∀ t ∈ L, t.2.2.ok = true ∧ t.2.2.k ≤ 27 := by
  refine ⟨kGEntries (cert1 (R := R) hτ h hAc), ?_, ?_, ?_, ?_⟩
  · rw [kGEntries_c]; congr 1; obtain ⟨⟩ := c; obtain ⟨⟩ := e
    obtain rfl := h.i1
    obtain rfl := h.i2
    obtain rfl := h.i3
    obtain rfl := h.i4
    rfl
  · rw [kGEntries_e]; rfl
  · rw [kGEntries_M]; rfl
  · intro t ht
    unfold kGEntries at ht
    simp only [List.mem_append] at ht
    rcases ht with ((h1 | h1) | h1) | h1
    · exact Cert.of_cnt (kG_i1_2_n1 hτ h hAc) kG_i1_2_b1 h1
    · exact Cert.of_cnt (kG_i2_2_n1 hτ h hAc) kG_i2_2_b1 h1
    · exact Cert.of_cnt (kG_i3_2_n1 hτ h hAc) kG_i3_2_b1 h1
    · exact Cert.of_cnt (kG_i4_2_n1 hτ h hAc) kG_i4_2_b1 h1

end Meshless
