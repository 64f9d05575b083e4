import Verif.Model.Gen.Map
import Verif.Lemmas.Cert

/-! GENERATED by /verif/tools/gencert.py: the certified evaluation of the increments of Model/Gen/EdgeI.lean, group by group. -/

set_option autoImplicit false
set_option maxRecDepth 10000

namespace Meshless

variable {R : Rounding} {v : ℝ} [RoundOK R v]

private theorem edgeI_i1_2_c (e : EdgeIEnv (Cert R v)) : (edgeI_i1_2 e).map (fun t => (t.1, t.2.1, (t.2.2.c : Fl R))) = edgeI_i1_2 (K := Fl R) (e.map fun x => (x.c : Fl R)) := rfl
private theorem edgeI_i1_2_e (e : EdgeIEnv (Cert R v)) : (edgeI_i1_2 e).map (fun t => (t.1, t.2.1, t.2.2.e)) = edgeI_i1_2 (e.map fun x => x.e) := rfl
private theorem edgeI_i1_2_M (e : EdgeIEnv (Cert R v)) : (edgeI_i1_2 e).map (fun t => (t.1, t.2.1, (t.2.2.M : Mag))) = edgeI_i1_2 (K := Mag) (e.map fun x => (x.M : Mag)) := rfl
private theorem edgeI_i1_3_c (e : EdgeIEnv (Cert R v)) : (edgeI_i1_3 e).map (fun t => (t.1, t.2.1, (t.2.2.c : Fl R))) = edgeI_i1_3 (K := Fl R) (e.map fun x => (x.c : Fl R)) := rfl
private theorem edgeI_i1_3_e (e : EdgeIEnv (Cert R v)) : (edgeI_i1_3 e).map (fun t => (t.1, t.2.1, t.2.2.e)) = edgeI_i1_3 (e.map fun x => x.e) := rfl
private theorem edgeI_i1_3_M (e : EdgeIEnv (Cert R v)) : (edgeI_i1_3 e).map (fun t => (t.1, t.2.1, (t.2.2.M : Mag))) = edgeI_i1_3 (K := Mag) (e.map fun x => (x.M : Mag)) := rfl
private theorem edgeI_i1_4_c (e : EdgeIEnv (Cert R v)) : (edgeI_i1_4 e).map (fun t => (t.1, t.2.1, (t.2.2.c : Fl R))) = edgeI_i1_4 (K := Fl R) (e.map fun x => (x.c : Fl R)) := rfl
private theorem edgeI_i1_4_e (e : EdgeIEnv (Cert R v)) : (edgeI_i1_4 e).map (fun t => (t.1, t.2.1, t.2.2.e)) = edgeI_i1_4 (e.map fun x => x.e) := rfl
private theorem edgeI_i1_4_M (e : EdgeIEnv (Cert R v)) : (edgeI_i1_4 e).map (fun t => (t.1, t.2.1, (t.2.2.M : Mag))) = edgeI_i1_4 (K := Mag) (e.map fun x => (x.M : Mag)) := rfl
private theorem edgeI_i2_2_c (e : EdgeIEnv (Cert R v)) : (edgeI_i2_2 e).map (fun t => (t.1, t.2.1, (t.2.2.c : Fl R))) = edgeI_i2_2 (K := Fl R) (e.map fun x => (x.c : Fl R)) := rfl
private theorem edgeI_i2_2_e (e : EdgeIEnv (Cert R v)) : (edgeI_i2_2 e).map (fun t => (t.1, t.2.1, t.2.2.e)) = edgeI_i2_2 (e.map fun x => x.e) := rfl
private theorem edgeI_i2_2_M (e : EdgeIEnv (Cert R v)) : (edgeI_i2_2 e).map (fun t => (t.1, t.2.1, (t.2.2.M : Mag))) = edgeI_i2_2 (K := Mag) (e.map fun x => (x.M : Mag)) := rfl
private theorem edgeI_i2_3_c (e : EdgeIEnv (Cert R v)) : (edgeI_i2_3 e).map (fun t => (t.1, t.2.1, (t.2.2.c : Fl R))) = edgeI_i2_3 (K := Fl R) (e.map fun x => (x.c : Fl R)) := rfl
private theorem edgeI_i2_3_e (e : EdgeIEnv (Cert R v)) : (edgeI_i2_3 e).map (fun t => (t.1, t.2.1, t.2.2.e)) = edgeI_i2_3 (e.map fun x => x.e) := rfl
private theorem edgeI_i2_3_M (e : EdgeIEnv (Cert R v)) : (edgeI_i2_3 e).map (fun t => (t.1, t.2.1, (t.2.2.M : Mag))) = edgeI_i2_3 (K := Mag) (e.map fun x => (x.M : Mag)) := rfl
private theorem edgeI_i2_4_c (e : EdgeIEnv (Cert R v)) : (edgeI_i2_4 e).map (fun t => (t.1, t.2.1, (t.2.2.c : Fl R))) = edgeI_i2_4 (K := Fl R) (e.map fun x => (x.c : Fl R)) := rfl
private theorem edgeI_i2_4_e (e : EdgeIEnv (Cert R v)) : (edgeI_i2_4 e).map (fun t => (t.1, t.2.1, t.2.2.e)) = edgeI_i2_4 (e.map fun x => x.e) := rfl
private theorem edgeI_i2_4_M (e : EdgeIEnv (Cert R v)) : (edgeI_i2_4 e).map (fun t => (t.1, t.2.1, (t.2.2.M : Mag))) = edgeI_i2_4 (K := Mag) (e.map fun x => (x.M : Mag)) := rfl
private theorem edgeI_i3_2_c (e : EdgeIEnv (Cert R v)) : (edgeI_i3_2 e).map (fun t => (t.1, t.2.1, (t.2.2.c : Fl R))) = edgeI_i3_2 (K := Fl R) (e.map fun x => (x.c : Fl R)) := rfl
private theorem edgeI_i3_2_e (e : EdgeIEnv (Cert R v)) : (edgeI_i3_2 e).map (fun t => (t.1, t.2.1, t.2.2.e)) = edgeI_i3_2 (e.map fun x => x.e) := rfl
private theorem edgeI_i3_2_M (e : EdgeIEnv (Cert R v)) : (edgeI_i3_2 e).map (fun t => (t.1, t.2.1, (t.2.2.M : Mag))) = edgeI_i3_2 (K := Mag) (e.map fun x => (x.M : Mag)) := rfl
private theorem edgeI_i3_3_c (e : EdgeIEnv (Cert R v)) : (edgeI_i3_3 e).map (fun t => (t.1, t.2.1, (t.2.2.c : Fl R))) = edgeI_i3_3 (K := Fl R) (e.map fun x => (x.c : Fl R)) := rfl
private theorem edgeI_i3_3_e (e : EdgeIEnv (Cert R v)) : (edgeI_i3_3 e).map (fun t => (t.1, t.2.1, t.2.2.e)) = edgeI_i3_3 (e.map fun x => x.e) := rfl
private theorem edgeI_i3_3_M (e : EdgeIEnv (Cert R v)) : (edgeI_i3_3 e).map (fun t => (t.1, t.2.1, (t.2.2.M : Mag))) = edgeI_i3_3 (K := Mag) (e.map fun x => (x.M : Mag)) := rfl
private theorem edgeI_i3_4_c (e : EdgeIEnv (Cert R v)) : (edgeI_i3_4 e).map (fun t => (t.1, t.2.1, (t.2.2.c : Fl R))) = edgeI_i3_4 (K := Fl R) (e.map fun x => (x.c : Fl R)) := rfl
private theorem edgeI_i3_4_e (e : EdgeIEnv (Cert R v)) : (edgeI_i3_4 e).map (fun t => (t.1, t.2.1, t.2.2.e)) = edgeI_i3_4 (e.map fun x => x.e) := rfl
private theorem edgeI_i3_4_M (e : EdgeIEnv (Cert R v)) : (edgeI_i3_4 e).map (fun t => (t.1, t.2.1, (t.2.2.M : Mag))) = edgeI_i3_4 (K := Mag) (e.map fun x => (x.M : Mag)) := rfl
private theorem edgeI_i4_2_c (e : EdgeIEnv (Cert R v)) : (edgeI_i4_2 e).map (fun t => (t.1, t.2.1, (t.2.2.c : Fl R))) = edgeI_i4_2 (K := Fl R) (e.map fun x => (x.c : Fl R)) := rfl
private theorem edgeI_i4_2_e (e : EdgeIEnv (Cert R v)) : (edgeI_i4_2 e).map (fun t => (t.1, t.2.1, t.2.2.e)) = edgeI_i4_2 (e.map fun x => x.e) := rfl
private theorem edgeI_i4_2_M (e : EdgeIEnv (Cert R v)) : (edgeI_i4_2 e).map (fun t => (t.1, t.2.1, (t.2.2.M : Mag))) = edgeI_i4_2 (K := Mag) (e.map fun x => (x.M : Mag)) := rfl
private theorem edgeI_i4_3_c (e : EdgeIEnv (Cert R v)) : (edgeI_i4_3 e).map (fun t => (t.1, t.2.1, (t.2.2.c : Fl R))) = edgeI_i4_3 (K := Fl R) (e.map fun x => (x.c : Fl R)) := rfl
private theorem edgeI_i4_3_e (e : EdgeIEnv (Cert R v)) : (edgeI_i4_3 e).map (fun t => (t.1, t.2.1, t.2.2.e)) = edgeI_i4_3 (e.map fun x => x.e) := rfl
private theorem edgeI_i4_3_M (e : EdgeIEnv (Cert R v)) : (edgeI_i4_3 e).map (fun t => (t.1, t.2.1, (t.2.2.M : Mag))) = edgeI_i4_3 (K := Mag) (e.map fun x => (x.M : Mag)) := rfl
private theorem edgeI_i4_4_c (e : EdgeIEnv (Cert R v)) : (edgeI_i4_4 e).map (fun t => (t.1, t.2.1, (t.2.2.c : Fl R))) = edgeI_i4_4 (K := Fl R) (e.map fun x => (x.c : Fl R)) := rfl
private theorem edgeI_i4_4_e (e : EdgeIEnv (Cert R v)) : (edgeI_i4_4 e).map (fun t => (t.1, t.2.1, t.2.2.e)) = edgeI_i4_4 (e.map fun x => x.e) := rfl
private theorem edgeI_i4_4_M (e : EdgeIEnv (Cert R v)) : (edgeI_i4_4 e).map (fun t => (t.1, t.2.1, (t.2.2.M : Mag))) = edgeI_i4_4 (K := Mag) (e.map fun x => (x.M : Mag)) := rfl

private theorem edgeIEntries_c (e : EdgeIEnv (Cert R v)) : (edgeIEntries e).map (fun t => (t.1, t.2.1, (t.2.2.c : Fl R))) = edgeIEntries (K := Fl R) (e.map fun x => (x.c : Fl R)) := by
  unfold edgeIEntries
  simp only [List.map_append, edgeI_i1_2_c, edgeI_i1_3_c, edgeI_i1_4_c, edgeI_i2_2_c, edgeI_i2_3_c, edgeI_i2_4_c, edgeI_i3_2_c, edgeI_i3_3_c, edgeI_i3_4_c, edgeI_i4_2_c, edgeI_i4_3_c, edgeI_i4_4_c]

private theorem edgeIEntries_e (e : EdgeIEnv (Cert R v)) : (edgeIEntries e).map (fun t => (t.1, t.2.1, t.2.2.e)) = edgeIEntries (e.map fun x => x.e) := by
  unfold edgeIEntries
  simp only [List.map_append, edgeI_i1_2_e, edgeI_i1_3_e, edgeI_i1_4_e, edgeI_i2_2_e, edgeI_i2_3_e, edgeI_i2_4_e, edgeI_i3_2_e, edgeI_i3_3_e, edgeI_i3_4_e, edgeI_i4_2_e, edgeI_i4_3_e, edgeI_i4_4_e]

private theorem edgeIEntries_M (e : EdgeIEnv (Cert R v)) : (edgeIEntries e).map (fun t => (t.1, t.2.1, (t.2.2.M : Mag))) = edgeIEntries (K := Mag) (e.map fun x => (x.M : Mag)) := by
  unfold edgeIEntries
  simp only [List.map_append, edgeI_i1_2_M, edgeI_i1_3_M, edgeI_i1_4_M, edgeI_i2_2_M, edgeI_i2_3_M, edgeI_i2_4_M, edgeI_i3_2_M, edgeI_i3_3_M, edgeI_i3_4_M, edgeI_i4_2_M, edgeI_i4_3_M, edgeI_i4_4_M]

/-- the magnitudes of the data: every number with the absolute tolerance `τ` added to its absolute value, the areas without -/
noncomputable def EdgeIEnv.mag (e : EdgeIEnv ℝ) (τ : ℝ) : EdgeIEnv Mag :=
  { e.map fun x => (show ℝ from |x| + τ) with Ac := (show ℝ from |e.Ac|), Ac1 := (show ℝ from |e.Ac1|), Ac2 := (show ℝ from |e.Ac2|) }

private noncomputable def cert0 {τ : ℝ} {c e : EdgeIEnv ℝ} (hτ : 0 ≤ τ) (h : EdgeIEnv.Rel (Near v 0 τ) c e) (hAc : RelNear v 0 c.Ac e.Ac) (hAc1 : RelNear v 0 c.Ac1 e.Ac1) (hAc2 : RelNear v 0 c.Ac2 e.Ac2) : EdgeIEnv (Cert R v) :=
  { EdgeIEnv.ofRel (Cert.ofNear hτ 0) h with Ac := Cert.ofRelNear 0 hAc, Ac1 := Cert.ofRelNear 0 hAc1, Ac2 := Cert.ofRelNear 0 hAc2 }

private def cnt0 : EdgeIEnv Cert.Cnt := { i1 := 0, i2 := 0, i3 := 0, i4 := 0, Ac := ⟨0, true, true⟩, Ac1 := ⟨0, true, true⟩, Ac2 := ⟨0, true, true⟩, E44 := ⟨0, true, false⟩, E45 := ⟨0, true, false⟩, E55 := ⟨0, true, false⟩, a1 := ⟨0, true, false⟩, b1 := ⟨0, true, false⟩, c1 := ⟨0, true, false⟩, d1 := ⟨0, true, false⟩, a2 := ⟨0, true, false⟩, b2 := ⟨0, true, false⟩, c2 := ⟨0, true, false⟩, d2 := ⟨0, true, false⟩ }

private theorem edgeI_i1_2_n0 {τ : ℝ} {c e : EdgeIEnv ℝ} (hτ : 0 ≤ τ) (h : EdgeIEnv.Rel (Near v 0 τ) c e) (hAc : RelNear v 0 c.Ac e.Ac) (hAc1 : RelNear v 0 c.Ac1 e.Ac1) (hAc2 : RelNear v 0 c.Ac2 e.Ac2) : (edgeI_i1_2 (cert0 (R := R) hτ h hAc hAc1 hAc2)).map (fun t => t.2.2.cnt) = (edgeI_i1_2 cnt0).map (fun t => t.2.2) := rfl
private theorem edgeI_i1_2_b0 : (edgeI_i1_2 cnt0).all (fun t => t.2.2.ok && Nat.ble t.2.2.k 19) = true := by decide +kernel
private theorem edgeI_i1_3_n0 {τ : ℝ} {c e : EdgeIEnv ℝ} (hτ : 0 ≤ τ) (h : EdgeIEnv.Rel (Near v 0 τ) c e) (hAc : RelNear v 0 c.Ac e.Ac) (hAc1 : RelNear v 0 c.Ac1 e.Ac1) (hAc2 : RelNear v 0 c.Ac2 e.Ac2) : (edgeI_i1_3 (cert0 (R := R) hτ h hAc hAc1 hAc2)).map (fun t => t.2.2.cnt) = (edgeI_i1_3 cnt0).map (fun t => t.2.2) := rfl
private theorem edgeI_i1_3_b0 : (edgeI_i1_3 cnt0).all (fun t => t.2.2.ok && Nat.ble t.2.2.k 19) = true := by decide +kernel
private theorem edgeI_i1_4_n0 {τ : ℝ} {c e : EdgeIEnv ℝ} (hτ : 0 ≤ τ) (h : EdgeIEnv.Rel (Near v 0 τ) c e) (hAc : RelNear v 0 c.Ac e.Ac) (hAc1 : RelNear v 0 c.Ac1 e.Ac1) (hAc2 : RelNear v 0 c.Ac2 e.Ac2) : (edgeI_i1_4 (cert0 (R := R) hτ h hAc hAc1 hAc2)).map (fun t => t.2.2.cnt) = (edgeI_i1_4 cnt0).map (fun t => t.2.2) := rfl
private theorem edgeI_i1_4_b0 : (edgeI_i1_4 cnt0).all (fun t => t.2.2.ok && Nat.ble t.2.2.k 19) = true := by decide +kernel
private theorem edgeI_i2_2_n0 {τ : ℝ} {c e : EdgeIEnv ℝ} (hτ : 0 ≤ τ) (h : EdgeIEnv.Rel (Near v 0 τ) c e) (hAc : RelNear v 0 c.Ac e.Ac) (hAc1 : RelNear v 0 c.Ac1 e.Ac1) (hAc2 : RelNear v 0 c.Ac2 e.Ac2) : (edgeI_i2_2 (cert0 (R := R) hτ h hAc hAc1 hAc2)).map (fun t => t.2.2.cnt) = (edgeI_i2_2 cnt0).map (fun t => t.2.2) := rfl
private theorem edgeI_i2_2_b0 : (edgeI_i2_2 cnt0).all (fun t => t.2.2.ok && Nat.ble t.2.2.k 19) = true := by decide +kernel
private theorem edgeI_i2_3_n0 {τ : ℝ} {c e : EdgeIEnv ℝ} (hτ : 0 ≤ τ) (h : EdgeIEnv.Rel (Near v 0 τ) c e) (hAc : RelNear v 0 c.Ac e.Ac) (hAc1 : RelNear v 0 c.Ac1 e.Ac1) (hAc2 : RelNear v 0 c.Ac2 e.Ac2) : (edgeI_i2_3 (cert0 (R := R) hτ h hAc hAc1 hAc2)).map (fun t => t.2.2.cnt) = (edgeI_i2_3 cnt0).map (fun t => t.2.2) := rfl
private theorem edgeI_i2_3_b0 : (edgeI_i2_3 cnt0).all (fun t => t.2.2.ok && Nat.ble t.2.2.k 19) = true := by decide +kernel
private theorem edgeI_i2_4_n0 {τ : ℝ} {c e : EdgeIEnv ℝ} (hτ : 0 ≤ τ) (h : EdgeIEnv.Rel (Near v 0 τ) c e) (hAc : RelNear v 0 c.Ac e.Ac) (hAc1 : RelNear v 0 c.Ac1 e.Ac1) (hAc2 : RelNear v 0 c.Ac2 e.Ac2) : (edgeI_i2_4 (cert0 (R := R) hτ h hAc hAc1 hAc2)).map (fun t => t.2.2.cnt) = (edgeI_i2_4 cnt0).map (fun t => t.2.2) := rfl
private theorem edgeI_i2_4_b0 : (edgeI_i2_4 cnt0).all (fun t => t.2.2.ok && Nat.ble t.2.2.k 19) = true := by decide +kernel
private theorem edgeI_i3_2_n0 {τ : ℝ} {c e : EdgeIEnv ℝ} (hτ : 0 ≤ τ) (h : EdgeIEnv.Rel (Near v 0 τ) c e) (hAc : RelNear v 0 c.Ac e.Ac) (hAc1 : RelNear v 0 c.Ac1 e.Ac1) (hAc2 : RelNear v 0 c.Ac2 e.Ac2) : (edgeI_i3_2 (cert0 (R := R) hτ h hAc hAc1 hAc2)).map (fun t => t.2.2.cnt) = (edgeI_i3_2 cnt0).map (fun t => t.2.2) := rfl
private theorem edgeI_i3_2_b0 : (edgeI_i3_2 cnt0).all (fun t => t.2.2.ok && Nat.ble t.2.2.k 19) = true := by decide +kernel
private theorem edgeI_i3_3_n0 {τ : ℝ} {c e : EdgeIEnv ℝ} (hτ : 0 ≤ τ) (h : EdgeIEnv.Rel (Near v 0 τ) c e) (hAc : RelNear v 0 c.Ac e.Ac) (hAc1 : RelNear v 0 c.Ac1 e.Ac1) (hAc2 : RelNear v 0 c.Ac2 e.Ac2) : (edgeI_i3_3 (cert0 (R := R) hτ h hAc hAc1 hAc2)).map (fun t => t.2.2.cnt) = (edgeI_i3_3 cnt0).map (fun t => t.2.2) := rfl
private theorem edgeI_i3_3_b0 : (edgeI_i3_3 cnt0).all (fun t => t.2.2.ok && Nat.ble t.2.2.k 19) = true := by decide +kernel
private theorem edgeI_i3_4_n0 {τ : ℝ} {c e : EdgeIEnv ℝ} (hτ : 0 ≤ τ) (h : EdgeIEnv.Rel (Near v 0 τ) c e) (hAc : RelNear v 0 c.Ac e.Ac) (hAc1 : RelNear v 0 c.Ac1 e.Ac1) (hAc2 : RelNear v 0 c.Ac2 e.Ac2) : (edgeI_i3_4 (cert0 (R := R) hτ h hAc hAc1 hAc2)).map (fun t => t.2.2.cnt) = (edgeI_i3_4 cnt0).map (fun t => t.2.2) := rfl
private theorem edgeI_i3_4_b0 : (edgeI_i3_4 cnt0).all (fun t => t.2.2.ok && Nat.ble t.2.2.k 19) = true := by decide +kernel
private theorem edgeI_i4_2_n0 {τ : ℝ} {c e : EdgeIEnv ℝ} (hτ : 0 ≤ τ) (h : EdgeIEnv.Rel (Near v 0 τ) c e) (hAc : RelNear v 0 c.Ac e.Ac) (hAc1 : RelNear v 0 c.Ac1 e.Ac1) (hAc2 : RelNear v 0 c.Ac2 e.Ac2) : (edgeI_i4_2 (cert0 (R := R) hτ h hAc hAc1 hAc2)).map (fun t => t.2.2.cnt) = (edgeI_i4_2 cnt0).map (fun t => t.2.2) := rfl
private theorem edgeI_i4_2_b0 : (edgeI_i4_2 cnt0).all (fun t => t.2.2.ok && Nat.ble t.2.2.k 19) = true := by decide +kernel
private theorem edgeI_i4_3_n0 {τ : ℝ} {c e : EdgeIEnv ℝ} (hτ : 0 ≤ τ) (h : EdgeIEnv.Rel (Near v 0 τ) c e) (hAc : RelNear v 0 c.Ac e.Ac) (hAc1 : RelNear v 0 c.Ac1 e.Ac1) (hAc2 : RelNear v 0 c.Ac2 e.Ac2) : (edgeI_i4_3 (cert0 (R := R) hτ h hAc hAc1 hAc2)).map (fun t => t.2.2.cnt) = (edgeI_i4_3 cnt0).map (fun t => t.2.2) := rfl
private theorem edgeI_i4_3_b0 : (edgeI_i4_3 cnt0).all (fun t => t.2.2.ok && Nat.ble t.2.2.k 19) = true := by decide +kernel
private theorem edgeI_i4_4_n0 {τ : ℝ} {c e : EdgeIEnv ℝ} (hτ : 0 ≤ τ) (h : EdgeIEnv.Rel (Near v 0 τ) c e) (hAc : RelNear v 0 c.Ac e.Ac) (hAc1 : RelNear v 0 c.Ac1 e.Ac1) (hAc2 : RelNear v 0 c.Ac2 e.Ac2) : (edgeI_i4_4 (cert0 (R := R) hτ h hAc hAc1 hAc2)).map (fun t => t.2.2.cnt) = (edgeI_i4_4 cnt0).map (fun t => t.2.2) := rfl
private theorem edgeI_i4_4_b0 : (edgeI_i4_4 cnt0).all (fun t => t.2.2.ok && Nat.ble t.2.2.k 19) = true := by decide +kernel

/-- the increments computed from data with no error -/
theorem edgeIEntries_cert0 (R : Rounding) [RoundOK R v] {τ : ℝ} {c e : EdgeIEnv ℝ} (hτ : 0 ≤ τ) (h : EdgeIEnv.Rel (Near v 0 τ) c e) (hAc : RelNear v 0 c.Ac e.Ac) (hAc1 : RelNear v 0 c.Ac1 e.Ac1) (hAc2 : RelNear v 0 c.Ac2 e.Ac2) :
    ∃ L : List (ℤ × ℤ × Cert R v), L.map (fun t => (t.1, t.2.1, (t.2.2.c : Fl R))) = edgeIEntries (K := Fl R) c ∧ L.map (fun t => (t.1, t.2.1, t.2.2.e)) = edgeIEntries e ∧
      L.map (fun t => (t.1, t.2.1, (t.2.2.M : Mag))) = edgeIEntries (K := Mag) (e.mag τ) ∧ ∀ t ∈ L, t.2.2.ok = true ∧ t.2.2.k ≤ 19 := by
  refine ⟨edgeIEntries (cert0 (R := R) hτ h hAc hAc1 hAc2), ?_, ?_, ?_, ?_⟩
  · rw [edgeIEntries_c]; congr 1; obtain ⟨⟩ := c; obtain ⟨⟩ := e
    obtain rfl := h.i1
    obtain rfl := h.i2
    obtain rfl := h.i3
    obtain rfl := h.i4
    rfl
  · rw [edgeIEntries_e]; rfl
  · rw [edgeIEntries_M]; rfl
  · intro t ht
    unfold edgeIEntries at ht
    simp only [List.mem_append] at ht
    rcases ht with ((((((((((h1 | h1) | h1) | h1) | h1) | h1) | h1) | h1) | h1) | h1) | h1) | h1
    · exact Cert.of_cnt (edgeI_i1_2_n0 hτ h hAc hAc1 hAc2) edgeI_i1_2_b0 h1
    · exact Cert.of_cnt (edgeI_i1_3_n0 hτ h hAc hAc1 hAc2) edgeI_i1_3_b0 h1
    · exact Cert.of_cnt (edgeI_i1_4_n0 hτ h hAc hAc1 hAc2) edgeI_i1_4_b0 h1
    · exact Cert.of_cnt (edgeI_i2_2_n0 hτ h hAc hAc1 hAc2) edgeI_i2_2_b0 h1
    · exact Cert.of_cnt (edgeI_i2_3_n0 hτ h hAc hAc1 hAc2) edgeI_i2_3_b0 h1
    · exact Cert.of_cnt (edgeI_i2_4_n0 hτ h hAc hAc1 hAc2) edgeI_i2_4_b0 h1
    · exact Cert.of_cnt (edgeI_i3_2_n0 hτ h hAc hAc1 hAc2) edgeI_i3_2_b0 h1
    · exact Cert.of_cnt (edgeI_i3_3_n0 hτ h hAc hAc1 hAc2) edgeI_i3_3_b0 h1
    · exact Cert.of_cnt (edgeI_i3_4_n0 hτ h hAc hAc1 hAc2) edgeI_i3_4_b0 h1
    · exact Cert.of_cnt (edgeI_i4_2_n0 hτ h hAc hAc1 hAc2) edgeI_i4_2_b0 h1
    · exact Cert.of_cnt (edgeI_i4_3_n0 hτ h hAc hAc1 hAc2) edgeI_i4_3_b0 h1
    · exact Cert.of_cnt (edgeI_i4_4_n0 hτ h hAc hAc1 hAc2) edgeI_i4_4_b0 h1

private noncomputable def cert1 {τ : ℝ} {c e : EdgeIEnv ℝ} (hτ : 0 ≤ τ) (h : EdgeIEnv.Rel (Near v 1 τ) c e) (hAc : RelNear v 1 c.Ac e.Ac) (hAc1 : RelNear v 1 c.Ac1 e.Ac1) (hAc2 : RelNear v 1 c.Ac2 e.Ac2) : EdgeIEnv (Cert R v) :=
  { EdgeIEnv.ofRel (Cert.ofNear hτ 1) h with Ac := Cert.ofRelNear 1 hAc, Ac1 := Cert.ofRelNear 1 hAc1, Ac2 := Cert.ofRelNear 1 hAc2 }

private def cnt1 : EdgeIEnv Cert.Cnt := { i1 := 0, i2 := 0, i3 := 0, i4 := 0, Ac := ⟨1, true, true⟩, Ac1 := ⟨1, true, true⟩, Ac2 := ⟨1, true, true⟩, E44 := ⟨1, true, false⟩, E45 := ⟨1, true, false⟩, E55 := ⟨1, true, false⟩, a1 := ⟨1, true, false⟩, b1 := ⟨1, true, false⟩, c1 := ⟨1, true, false⟩, d1 := ⟨1, true, false⟩, a2 := ⟨1, true, false⟩, b2 := ⟨1, true, false⟩, c2 := ⟨1, true, false⟩, d2 := ⟨1, true, false⟩ }

private theorem edgeI_i1_2_n1 {τ : ℝ} {c e : EdgeIEnv ℝ} (hτ : 0 ≤ τ) (h : EdgeIEnv.Rel (Near v 1 τ) c e) (hAc : RelNear v 1 c.Ac e.Ac) (hAc1 : RelNear v 1 c.Ac1 e.Ac1) (hAc2 : RelNear v 1 c.Ac2 e.Ac2) : (edgeI_i1_2 (cert1 (R := R) hτ h hAc hAc1 hAc2)).map (fun t => t.2.2.cnt) = (edgeI_i1_2 cnt1).map (fun t => t.2.2) := rfl
private theorem edgeI_i1_2_b1 : (edgeI_i1_2 cnt1).all (fun t => t.2.2.ok && Nat.ble t.2.2.k 29) = true := by decide +kernel
private theorem edgeI_i1_3_n1 {τ : ℝ} {c e : EdgeIEnv ℝ} (hτ : 0 ≤ τ) (h : EdgeIEnv.Rel (Near v 1 τ) c e) (hAc : RelNear v 1 c.Ac e.Ac) (hAc1 : RelNear v 1 c.Ac1 e.Ac1) (hAc2 : RelNear v 1 c.Ac2 e.Ac2) : (edgeI_i1_3 (cert1 (R := R) hτ h hAc hAc1 hAc2)).map (fun t => t.2.2.cnt) = (edgeI_i1_3 cnt1).map (fun t => t.2.2) := rfl
private theorem edgeI_i1_3_b1 : (edgeI_i1_3 cnt1).all (fun t => t.2.2.ok && Nat.ble t.2.2.k 29) = true := by decide +kernel
private theorem edgeI_i1_4_n1 {τ : ℝ} {c e : EdgeIEnv ℝ} (hτ : 0 ≤ τ) (h : EdgeIEnv.Rel (Near v 1 τ) c e) (hAc : RelNear v 1 c.Ac e.Ac) (hAc1 : RelNear v 1 c.Ac1 e.Ac1) (hAc2 : RelNear v 1 c.Ac2 e.Ac2) : (edgeI_i1_4 (cert1 (R := R) hτ h hAc hAc1 hAc2)).map (fun t => t.2.2.cnt) = (edgeI_i1_4 cnt1).map (fun t => t.2.2) := rfl
private theorem edgeI_i1_4_b1 : (edgeI_i1_4 cnt1).all (fun t => t.2.2.ok && Nat.ble t.2.2.k 29) = true := by decide +kernel
private theorem edgeI_i2_2_n1 {τ : ℝ} {c e : EdgeIEnv ℝ} (hτ : 0 ≤ τ) (h : EdgeIEnv.Rel (Near v 1 τ) c e) (hAc : RelNear v 1 c.Ac e.Ac) (hAc1 : RelNear v 1 c.Ac1 e.Ac1) (hAc2 : RelNear v 1 c.Ac2 e.Ac2) : (edgeI_i2_2 (cert1 (R := R) hτ h hAc hAc1 hAc2)).map (fun t => t.2.2.cnt) = (edgeI_i2_2 cnt1).map (fun t => t.2.2) := rfl
private theorem edgeI_i2_2_b1 : (edgeI_i2_2 cnt1).all (fun t => t.2.2.ok && Nat.ble t.2.2.k 29) = true := by decide +kernel
private theorem edgeI_i2_3_n1 {τ : ℝ} {c e : EdgeIEnv ℝ} (hτ : 0 ≤ τ) (h : EdgeIEnv.Rel (Near v 1 τ) c e) (hAc : RelNear v 1 c.Ac e.Ac) (hAc1 : RelNear v 1 c.Ac1 e.Ac1) (hAc2 : RelNear v 1 c.Ac2 e.Ac2) : (edgeI_i2_3 (cert1 (R := R) hτ h hAc hAc1 hAc2)).map (fun t => t.2.2.cnt) = (edgeI_i2_3 cnt1).map (fun t => t.2.2) := rfl
private theorem edgeI_i2_3_b1 : (edgeI_i2_3 cnt1).all (fun t => t.2.2.ok && Nat.ble t.2.2.k 29) = true := by decide +kernel
private theorem edgeI_i2_4_n1 {τ : ℝ} {c e : EdgeIEnv ℝ} (hτ : 0 ≤ τ) (h : EdgeIEnv.Rel (Near v 1 τ) c e) (hAc : RelNear v 1 c.Ac e.Ac) (hAc1 : RelNear v 1 c.Ac1 e.Ac1) (hAc2 : RelNear v 1 c.Ac2 e.Ac2) : (edgeI_i2_4 (cert1 (R := R) hτ h hAc hAc1 hAc2)).map (fun t => t.2.2.cnt) = (edgeI_i2_4 cnt1).map (fun t => t.2.2) := rfl
private theorem edgeI_i2_4_b1 : (edgeI_i2_4 cnt1).all (fun t => t.2.2.ok && Nat.ble t.2.2.k 29) = true := by decide +kernel
private theorem edgeI_i3_2_n1 {τ : ℝ} {c e : EdgeIEnv ℝ} (hτ : 0 ≤ τ) (h : EdgeIEnv.Rel (Near v 1 τ) c e) (hAc : RelNear v 1 c.Ac e.Ac) (hAc1 : RelNear v 1 c.Ac1 e.Ac1) (hAc2 : RelNear v 1 c.Ac2 e.Ac2) : (edgeI_i3_2 (cert1 (R := R) hτ h hAc hAc1 hAc2)).map (fun t => t.2.2.cnt) = (edgeI_i3_2 cnt1).map (fun t => t.2.2) := rfl
private theorem edgeI_i3_2_b1 : (edgeI_i3_2 cnt1).all (fun t => t.2.2.ok && Nat.ble t.2.2.k 29) = true := by decide +kernel
private theorem edgeI_i3_3_n1 {τ : ℝ} {c e : EdgeIEnv ℝ} (hτ : 0 ≤ τ) (h : EdgeIEnv.Rel (Near v 1 τ) c e) (hAc : RelNear v 1 c.Ac e.Ac) (hAc1 : RelNear v 1 c.Ac1 e.Ac1) (hAc2 : RelNear v 1 c.Ac2 e.Ac2) : (edgeI_i3_3 (cert1 (R := R) hτ h hAc hAc1 hAc2)).map (fun t => t.2.2.cnt) = (edgeI_i3_3 cnt1).map (fun t => t.2.2) := rfl
private theorem edgeI_i3_3_b1 : (edgeI_i3_3 cnt1).all (fun t => t.2.2.ok && Nat.ble t.2.2.k 29) = true := by decide +kernel
private theorem edgeI_i3_4_n1 {τ : ℝ} {c e : EdgeIEnv ℝ} (hτ : 0 ≤ τ) (h : EdgeIEnv.Rel (Near v 1 τ) c e) (hAc : RelNear v 1 c.Ac e.Ac) (hAc1 : RelNear v 1 c.Ac1 e.Ac1) (hAc2 : RelNear v 1 c.Ac2 e.Ac2) : (edgeI_i3_4 (cert1 (R := R) hτ h hAc hAc1 hAc2)).map (fun t => t.2.2.cnt) = (edgeI_i3_4 cnt1).map (fun t => t.2.2) := rfl
private theorem edgeI_i3_4_b1 : (edgeI_i3_4 cnt1).all (fun t => t.2.2.ok && Nat.ble t.2.2.k 29) = true := by decide +kernel
private theorem edgeI_i4_2_n1 {τ : ℝ} {c e : EdgeIEnv ℝ} (hτ : 0 ≤ τ) (h : EdgeIEnv.Rel (Near v 1 τ) c e) (hAc : RelNear v 1 c.Ac e.Ac) (hAc1 : RelNear v 1 c.Ac1 e.Ac1) (hAc2 : RelNear v 1 c.Ac2 e.Ac2) : (edgeI_i4_2 (cert1 (R := R) hτ h hAc hAc1 hAc2)).map (fun t => t.2.2.cnt) = (edgeI_i4_2 cnt1).map (fun t => t.2.2) := rfl
private theorem edgeI_i4_2_b1 : (edgeI_i4_2 cnt1).all (fun t => t.2.2.ok && Nat.ble t.2.2.k 29) = true := by decide +kernel
private theorem edgeI_i4_3_n1 {τ : ℝ} {c e : EdgeIEnv ℝ} (hτ : 0 ≤ τ) (h : EdgeIEnv.Rel (Near v 1 τ) c e) (hAc : RelNear v 1 c.Ac e.Ac) (hAc1 : RelNear v 1 c.Ac1 e.Ac1) (hAc2 : RelNear v 1 c.Ac2 e.Ac2) : (edgeI_i4_3 (cert1 (R := R) hτ h hAc hAc1 hAc2)).map (fun t => t.2.2.cnt) = (edgeI_i4_3 cnt1).map (fun t => t.2.2) := rfl
private theorem edgeI_i4_3_b1 : (edgeI_i4_3 cnt1).all (fun t => t.2.2.ok && Nat.ble t.2.2.k 29) = true := by decide +kernel
private theorem edgeI_i4_4_n1 {τ : ℝ} {c e : EdgeIEnv ℝ} (hτ : 0 ≤ τ) (h : EdgeIEnv.Rel (Near v 1 τ) c e) (hAc : RelNear v 1 c.Ac e.Ac) (hAc1 : RelNear v 1 c.Ac1 e.Ac1) (hAc2 : RelNear v 1 c.Ac2 e.Ac2) : (edgeI_i4_4 (cert1 (R := R) hτ h hAc hAc1 hAc2)).map (fun t => t.2.2.cnt) = (edgeI_i4_4 cnt1).map (fun t => t.2.2) := rfl
private theorem edgeI_i4_4_b1 : (edgeI_i4_4 cnt1).all (fun t => t.2.2.ok && Nat.ble t.2.2.k 29) = true := by decide +kernel

/-- the increments computed from data with errors of one rounding -/
theorem edgeIEntries_cert1 (R : Rounding) [RoundOK R v] {τ : ℝ} {c e : EdgeIEnv ℝ} (hτ : 0 ≤ τ) (h : EdgeIEnv.Rel (Near v 1 τ) c e) (hAc : RelNear v 1 c.Ac e.Ac) (hAc1 : RelNear v 1 c.Ac1 e.Ac1) (hAc2 : RelNear v 1 c.Ac2 e.Ac2) :
    ∃ L : List (ℤ × ℤ × Cert R v), L.map (fun t => (t.1, t.2.1, (t.2.2.c : Fl R))) = edgeIEntries (K := Fl R) c ∧ L.map (fun t => (t.1, t.2.1, t.2.2.e)) = edgeIEntries e ∧
      L.map (fun t => (t.1, t.2.1, (t.2.2.M : Mag))) = edgeIEntries (K := Mag) (e.mag τ) ∧ ∀ t ∈ L, t.2.2.ok = true ∧ t.2.2.k ≤ 29 := by
  refine ⟨edgeIEntries (cert1 (R := R) hτ h hAc hAc1 hAc2), ?_, ?_, ?_, ?_⟩
  · rw [edgeIEntries_c]; congr 1; obtain ⟨⟩ := c; obtain ⟨⟩ := e
    obtain rfl := h.i1
    obtain rfl := h.i2
    obtain rfl := h.i3
    obtain rfl := h.i4
    rfl
  · rw [edgeIEntries_e]; rfl
  · rw [edgeIEntries_M]; rfl
  · intro t ht
    unfold edgeIEntries at ht
    simp only [List.mem_append] at ht
    rcases ht with ((((((((((h1 | h1) | h1) | h1) | h1) | h1) | h1) | h1) | h1) | h1) | h1) | h1
    · exact Cert.of_cnt (edgeI_i1_2_n1 hτ h hAc hAc1 hAc2) edgeI_i1_2_b1 h1
    · exact Cert.of_cnt (edgeI_i1_3_n1 hτ h hAc hAc1 hAc2) edgeI_i1_3_b1 h1
    · exact Cert.of_cnt (edgeI_i1_4_n1 hτ h hAc hAc1 hAc2) edgeI_i1_4_b1 h1
    · exact Cert.of_cnt (edgeI_i2_2_n1 hτ h hAc hAc1 hAc2) edgeI_i2_2_b1 h1
    · exact Cert.of_cnt (edgeI_i2_3_n1 hτ h hAc hAc1 hAc2) edgeI_i2_3_b1 h1
    · exact Cert.of_cnt (edgeI_i2_4_n1 hτ h hAc hAc1 hAc2) edgeI_i2_4_b1 h1
    · exact Cert.of_cnt (edgeI_i3_2_n1 hτ h hAc hAc1 hAc2) edgeI_i3_2_b1 h1
    · exact Cert.of_cnt (edgeI_i3_3_n1 hτ h hAc hAc1 hAc2) edgeI_i3_3_b1 h1
    · exact Cert.of_cnt (edgeI_i3_4_n1 hτ h hAc hAc1 hAc2) edgeI_i3_4_b1 h1
    · exact Cert.of_cnt (edgeI_i4_2_n1 hτ h hAc hAc1 hAc2) edgeI_i4_2_b1 h1
    · exact Cert.of_cnt (edgeI_i4_3_n1 hτ h hAc hAc1 hAc2) edgeI_i4_3_b1 h1
    · exact Cert.of_cnt (edgeI_i4_4_n1 hτ h hAc hAc1 hAc2) edgeI_i4_4_b1 h1

end Meshless
