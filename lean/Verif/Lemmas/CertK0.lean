import Verif.Model.Gen.Map
import Verif.Lemmas.Cert

/-! GENERATED by /verif/tools/gencert.py: the certified evaluation of the increments of Model/Gen/K0.lean, group by group. -/

set_option autoImplicit false
set_option maxRecDepth 10000

namespace Meshless

variable {R : Rounding} {v : ℝ} [RoundOK R v]

private theorem k0_i1_0_c (e : K0Env (Cert R v)) : (k0_i1_0 e).map (fun t => (t.1, t.2.1, (t.2.2.c : Fl R))) = k0_i1_0 (K := Fl R) (e.map fun x => (x.c : Fl R)) := rfl
private theorem k0_i1_0_e (e : K0Env (Cert R v)) : (k0_i1_0 e).map (fun t => (t.1, t.2.1, t.2.2.e)) = k0_i1_0 (e.map fun x => x.e) := rfl
private theorem k0_i1_0_M (e : K0Env (Cert R v)) : (k0_i1_0 e).map (fun t => (t.1, t.2.1, (t.2.2.M : Mag))) = k0_i1_0 (K := Mag) (e.map fun x => (x.M : Mag)) := rfl
private theorem k0_i1_1_c (e : K0Env (Cert R v)) : (k0_i1_1 e).map (fun t => (t.1, t.2.1, (t.2.2.c : Fl R))) = k0_i1_1 (K := Fl R) (e.map fun x => (x.c : Fl R)) := rfl
private theorem k0_i1_1_e (e : K0Env (Cert R v)) : (k0_i1_1 e).map (fun t => (t.1, t.2.1, t.2.2.e)) = k0_i1_1 (e.map fun x => x.e) := rfl
private theorem k0_i1_1_M (e : K0Env (Cert R v)) : (k0_i1_1 e).map (fun t => (t.1, t.2.1, (t.2.2.M : Mag))) = k0_i1_1 (K := Mag) (e.map fun x => (x.M : Mag)) := rfl
private theorem k0_i1_3_c (e : K0Env (Cert R v)) : (k0_i1_3 e).map (fun t => (t.1, t.2.1, (t.2.2.c : Fl R))) = k0_i1_3 (K := Fl R) (e.map fun x => (x.c : Fl R)) := rfl
private theorem k0_i1_3_e (e : K0Env (Cert R v)) : (k0_i1_3 e).map (fun t => (t.1, t.2.1, t.2.2.e)) = k0_i1_3 (e.map fun x => x.e) := rfl
private theorem k0_i1_3_M (e : K0Env (Cert R v)) : (k0_i1_3 e).map (fun t => (t.1, t.2.1, (t.2.2.M : Mag))) = k0_i1_3 (K := Mag) (e.map fun x => (x.M : Mag)) := rfl
private theorem k0_i1_4_c (e : K0Env (Cert R v)) : (k0_i1_4 e).map (fun t => (t.1, t.2.1, (t.2.2.c : Fl R))) = k0_i1_4 (K := Fl R) (e.map fun x => (x.c : Fl R)) := rfl
private theorem k0_i1_4_e (e : K0Env (Cert R v)) : (k0_i1_4 e).map (fun t => (t.1, t.2.1, t.2.2.e)) = k0_i1_4 (e.map fun x => x.e) := rfl
private theorem k0_i1_4_M (e : K0Env (Cert R v)) : (k0_i1_4 e).map (fun t => (t.1, t.2.1, (t.2.2.M : Mag))) = k0_i1_4 (K := Mag) (e.map fun x => (x.M : Mag)) := rfl
private theorem k0_i2_0_c (e : K0Env (Cert R v)) : (k0_i2_0 e).map (fun t => (t.1, t.2.1, (t.2.2.c : Fl R))) = k0_i2_0 (K := Fl R) (e.map fun x => (x.c : Fl R)) := rfl
private theorem k0_i2_0_e (e : K0Env (Cert R v)) : (k0_i2_0 e).map (fun t => (t.1, t.2.1, t.2.2.e)) = k0_i2_0 (e.map fun x => x.e) := rfl
private theorem k0_i2_0_M (e : K0Env (Cert R v)) : (k0_i2_0 e).map (fun t => (t.1, t.2.1, (t.2.2.M : Mag))) = k0_i2_0 (K := Mag) (e.map fun x => (x.M : Mag)) := rfl
private theorem k0_i2_1_c (e : K0Env (Cert R v)) : (k0_i2_1 e).map (fun t => (t.1, t.2.1, (t.2.2.c : Fl R))) = k0_i2_1 (K := Fl R) (e.map fun x => (x.c : Fl R)) := rfl
private theorem k0_i2_1_e (e : K0Env (Cert R v)) : (k0_i2_1 e).map (fun t => (t.1, t.2.1, t.2.2.e)) = k0_i2_1 (e.map fun x => x.e) := rfl
private theorem k0_i2_1_M (e : K0Env (Cert R v)) : (k0_i2_1 e).map (fun t => (t.1, t.2.1, (t.2.2.M : Mag))) = k0_i2_1 (K := Mag) (e.map fun x => (x.M : Mag)) := rfl
private theorem k0_i2_3_c (e : K0Env (Cert R v)) : (k0_i2_3 e).map (fun t => (t.1, t.2.1, (t.2.2.c : Fl R))) = k0_i2_3 (K := Fl R) (e.map fun x => (x.c : Fl R)) := rfl
private theorem k0_i2_3_e (e : K0Env (Cert R v)) : (k0_i2_3 e).map (fun t => (t.1, t.2.1, t.2.2.e)) = k0_i2_3 (e.map fun x => x.e) := rfl
private theorem k0_i2_3_M (e : K0Env (Cert R v)) : (k0_i2_3 e).map (fun t => (t.1, t.2.1, (t.2.2.M : Mag))) = k0_i2_3 (K := Mag) (e.map fun x => (x.M : Mag)) := rfl
private theorem k0_i2_4_c (e : K0Env (Cert R v)) : (k0_i2_4 e).map (fun t => (t.1, t.2.1, (t.2.2.c : Fl R))) = k0_i2_4 (K := Fl R) (e.map fun x => (x.c : Fl R)) := rfl
private theorem k0_i2_4_e (e : K0Env (Cert R v)) : (k0_i2_4 e).map (fun t => (t.1, t.2.1, t.2.2.e)) = k0_i2_4 (e.map fun x => x.e) := rfl
private theorem k0_i2_4_M (e : K0Env (Cert R v)) : (k0_i2_4 e).map (fun t => (t.1, t.2.1, (t.2.2.M : Mag))) = k0_i2_4 (K := Mag) (e.map fun x => (x.M : Mag)) := rfl
private theorem k0_i3_0_c (e : K0Env (Cert R v)) : (k0_i3_0 e).map (fun t => (t.1, t.2.1, (t.2.2.c : Fl R))) = k0_i3_0 (K := Fl R) (e.map fun x => (x.c : Fl R)) := rfl
private theorem k0_i3_0_e (e : K0Env (Cert R v)) : (k0_i3_0 e).map (fun t => (t.1, t.2.1, t.2.2.e)) = k0_i3_0 (e.map fun x => x.e) := rfl
private theorem k0_i3_0_M (e : K0Env (Cert R v)) : (k0_i3_0 e).map (fun t => (t.1, t.2.1, (t.2.2.M : Mag))) = k0_i3_0 (K := Mag) (e.map fun x => (x.M : Mag)) := rfl
private theorem k0_i3_1_c (e : K0Env (Cert R v)) : (k0_i3_1 e).map (fun t => (t.1, t.2.1, (t.2.2.c : Fl R))) = k0_i3_1 (K := Fl R) (e.map fun x => (x.c : Fl R)) := rfl
private theorem k0_i3_1_e (e : K0Env (Cert R v)) : (k0_i3_1 e).map (fun t => (t.1, t.2.1, t.2.2.e)) = k0_i3_1 (e.map fun x => x.e) := rfl
private theorem k0_i3_1_M (e : K0Env (Cert R v)) : (k0_i3_1 e).map (fun t => (t.1, t.2.1, (t.2.2.M : Mag))) = k0_i3_1 (K := Mag) (e.map fun x => (x.M : Mag)) := rfl
private theorem k0_i3_3_c (e : K0Env (Cert R v)) : (k0_i3_3 e).map (fun t => (t.1, t.2.1, (t.2.2.c : Fl R))) = k0_i3_3 (K := Fl R) (e.map fun x => (x.c : Fl R)) := rfl
private theorem k0_i3_3_e (e : K0Env (Cert R v)) : (k0_i3_3 e).map (fun t => (t.1, t.2.1, t.2.2.e)) = k0_i3_3 (e.map fun x => x.e) := rfl
private theorem k0_i3_3_M (e : K0Env (Cert R v)) : (k0_i3_3 e).map (fun t => (t.1, t.2.1, (t.2.2.M : Mag))) = k0_i3_3 (K := Mag) (e.map fun x => (x.M : Mag)) := rfl
private theorem k0_i3_4_c (e : K0Env (Cert R v)) : (k0_i3_4 e).map (fun t => (t.1, t.2.1, (t.2.2.c : Fl R))) = k0_i3_4 (K := Fl R) (e.map fun x => (x.c : Fl R)) := rfl
private theorem k0_i3_4_e (e : K0Env (Cert R v)) : (k0_i3_4 e).map (fun t => (t.1, t.2.1, t.2.2.e)) = k0_i3_4 (e.map fun x => x.e) := rfl
private theorem k0_i3_4_M (e : K0Env (Cert R v)) : (k0_i3_4 e).map (fun t => (t.1, t.2.1, (t.2.2.M : Mag))) = k0_i3_4 (K := Mag) (e.map fun x => (x.M : Mag)) := rfl
private theorem k0_i4_0_c (e : K0Env (Cert R v)) : (k0_i4_0 e).map (fun t => (t.1, t.2.1, (t.2.2.c : Fl R))) = k0_i4_0 (K := Fl R) (e.map fun x => (x.c : Fl R)) := rfl
private theorem k0_i4_0_e (e : K0Env (Cert R v)) : (k0_i4_0 e).map (fun t => (t.1, t.2.1, t.2.2.e)) = k0_i4_0 (e.map fun x => x.e) := rfl
private theorem k0_i4_0_M (e : K0Env (Cert R v)) : (k0_i4_0 e).map (fun t => (t.1, t.2.1, (t.2.2.M : Mag))) = k0_i4_0 (K := Mag) (e.map fun x => (x.M : Mag)) := rfl
private theorem k0_i4_1_c (e : K0Env (Cert R v)) : (k0_i4_1 e).map (fun t => (t.1, t.2.1, (t.2.2.c : Fl R))) = k0_i4_1 (K := Fl R) (e.map fun x => (x.c : Fl R)) := rfl
private theorem k0_i4_1_e (e : K0Env (Cert R v)) : (k0_i4_1 e).map (fun t => (t.1, t.2.1, t.2.2.e)) = k0_i4_1 (e.map fun x => x.e) := rfl
private theorem k0_i4_1_M (e : K0Env (Cert R v)) : (k0_i4_1 e).map (fun t => (t.1, t.2.1, (t.2.2.M : Mag))) = k0_i4_1 (K := Mag) (e.map fun x => (x.M : Mag)) := rfl
private theorem k0_i4_3_c (e : K0Env (Cert R v)) : (k0_i4_3 e).map (fun t => (t.1, t.2.1, (t.2.2.c : Fl R))) = k0_i4_3 (K := Fl R) (e.map fun x => (x.c : Fl R)) := rfl
private theorem k0_i4_3_e (e : K0Env (Cert R v)) : (k0_i4_3 e).map (fun t => (t.1, t.2.1, t.2.2.e)) = k0_i4_3 (e.map fun x => x.e) := rfl
private theorem k0_i4_3_M (e : K0Env (Cert R v)) : (k0_i4_3 e).map (fun t => (t.1, t.2.1, (t.2.2.M : Mag))) = k0_i4_3 (K := Mag) (e.map fun x => (x.M : Mag)) := rfl
private theorem k0_i4_4_c (e : K0Env (Cert R v)) : (k0_i4_4 e).map (fun t => (t.1, t.2.1, (t.2.2.c : Fl R))) = k0_i4_4 (K := Fl R) (e.map fun x => (x.c : Fl R)) := rfl
private theorem k0_i4_4_e (e : K0Env (Cert R v)) : (k0_i4_4 e).map (fun t => (t.1, t.2.1, t.2.2.e)) = k0_i4_4 (e.map fun x => x.e) := rfl
private theorem k0_i4_4_M (e : K0Env (Cert R v)) : (k0_i4_4 e).map (fun t => (t.1, t.2.1, (t.2.2.M : Mag))) = k0_i4_4 (K := Mag) (e.map fun x => (x.M : Mag)) := rfl

private theorem k0Entries_c (e : K0Env (Cert R v)) : (k0Entries e).map (fun t => (t.1, t.2.1, (t.2.2.c : Fl R))) = k0Entries (K := Fl R) (e.map fun x => (x.c : Fl R)) := by
  unfold k0Entries
  simp only [List.map_append, k0_i1_0_c, k0_i1_1_c, k0_i1_3_c, k0_i1_4_c, k0_i2_0_c, k0_i2_1_c, k0_i2_3_c, k0_i2_4_c, k0_i3_0_c, k0_i3_1_c, k0_i3_3_c, k0_i3_4_c, k0_i4_0_c, k0_i4_1_c, k0_i4_3_c, k0_i4_4_c]

private theorem k0Entries_e (e : K0Env (Cert R v)) : (k0Entries e).map (fun t => (t.1, t.2.1, t.2.2.e)) = k0Entries (e.map fun x => x.e) := by
  unfold k0Entries
  simp only [List.map_append, k0_i1_0_e, k0_i1_1_e, k0_i1_3_e, k0_i1_4_e, k0_i2_0_e, k0_i2_1_e, k0_i2_3_e, k0_i2_4_e, k0_i3_0_e, k0_i3_1_e, k0_i3_3_e, k0_i3_4_e, k0_i4_0_e, k0_i4_1_e, k0_i4_3_e, k0_i4_4_e]

private theorem k0Entries_M (e : K0Env (Cert R v)) : (k0Entries e).map (fun t => (t.1, t.2.1, (t.2.2.M : Mag))) = k0Entries (K := Mag) (e.map fun x => (x.M : Mag)) := by
  unfold k0Entries
  simp only [List.map_append, k0_i1_0_M, k0_i1_1_M, k0_i1_3_M, k0_i1_4_M, k0_i2_0_M, k0_i2_1_M, k0_i2_3_M, k0_i2_4_M, k0_i3_0_M, k0_i3_1_M, k0_i3_3_M, k0_i3_4_M, k0_i4_0_M, k0_i4_1_M, k0_i4_3_M, k0_i4_4_M]

/-- the magnitudes of the data: every number with the absolute tolerance `τ` added to its absolute value, the areas without -/
noncomputable def K0Env.mag (e : K0Env ℝ) (τ : ℝ) : K0Env Mag :=
  { e.map fun x => (show ℝ from |x| + τ) with Ac := (show ℝ from |e.Ac|) }

private noncomputable def cert0 {τ : ℝ} {c e : K0Env ℝ} (hτ : 0 ≤ τ) (h : K0Env.Rel (Near v 0 τ) c e) (hAc : RelNear v 0 c.Ac e.Ac) : K0Env (Cert R v) :=
  { K0Env.ofRel (Cert.ofNear hτ 0) h with Ac := Cert.ofRelNear 0 hAc }

private def cnt0 : K0Env Cert.Cnt := { i1 := 0, i2 := 0, i3 := 0, i4 := 0, Ac := ⟨0, true, true⟩, A11 := ⟨0, true, false⟩, A12 := ⟨0, true, false⟩, A16 := ⟨0, true, false⟩, A22 := ⟨0, true, false⟩, A26 := ⟨0, true, false⟩, A66 := ⟨0, true, false⟩, B11 := ⟨0, true, false⟩, B12 := ⟨0, true, false⟩, B16 := ⟨0, true, false⟩, B22 := ⟨0, true, false⟩, B26 := ⟨0, true, false⟩, B66 := ⟨0, true, false⟩, D11 := ⟨0, true, false⟩, D12 := ⟨0, true, false⟩, D16 := ⟨0, true, false⟩, D22 := ⟨0, true, false⟩, D26 := ⟨0, true, false⟩, D66 := ⟨0, true, false⟩, f11 := ⟨0, true, false⟩, f12 := ⟨0, true, false⟩, f13 := ⟨0, true, false⟩, f14 := ⟨0, true, false⟩, f21 := ⟨0, true, false⟩, f22 := ⟨0, true, false⟩, f23 := ⟨0, true, false⟩, f24 := ⟨0, true, false⟩, f31 := ⟨0, true, false⟩, f32 := ⟨0, true, false⟩, f33 := ⟨0, true, false⟩, f34 := ⟨0, true, false⟩, f41 := ⟨0, true, false⟩, f42 := ⟨0, true, false⟩, f43 := ⟨0, true, false⟩, f44 := ⟨0, true, false⟩, le1 := ⟨0, true, false⟩, le2 := ⟨0, true, false⟩, le3 := ⟨0, true, false⟩, le4 := ⟨0, true, false⟩, nx1 := ⟨0, true, false⟩, nx2 := ⟨0, true, false⟩, nx3 := ⟨0, true, false⟩, nx4 := ⟨0, true, false⟩, ny1 := ⟨0, true, false⟩, ny2 := ⟨0, true, false⟩, ny3 := ⟨0, true, false⟩, ny4 := ⟨0, true, false⟩ }

private theorem k0_i1_0_n0 {τ : ℝ} {c e : K0Env ℝ} (hτ : 0 ≤ τ) (h : K0Env.Rel (Near v 0 τ) c e) (hAc : RelNear v 0 c.Ac e.Ac) : (k0_i1_0 (cert0 (R := R) hτ h hAc)).map (fun t => t.2.2.cnt) = (k0_i1_0 cnt0).map (fun t => t.2.2) := rfl
private theorem k0_i1_0_b0 : (k0_i1_0 cnt0).all (fun t => t.2.2.ok && Nat.ble t.2.2.k 17) = true := by decide +kernel
private theorem k0_i1_1_n0 {τ : ℝ} {c e : K0Env ℝ} (hτ : 0 ≤ τ) (h : K0Env.Rel (Near v 0 τ) c e) (hAc : RelNear v 0 c.Ac e.Ac) : (k0_i1_1 (cert0 (R := R) hτ h hAc)).map (fun t => t.2.2.cnt) = (k0_i1_1 cnt0).map (fun t => t.2.2) := rfl
private theorem k0_i1_1_b0 : (k0_i1_1 cnt0).all (fun t => t.2.2.ok && Nat.ble t.2.2.k 17) = true := by decide +kernel
private theorem k0_i1_3_n0 {τ : ℝ} {c e : K0Env ℝ} (hτ : 0 ≤ τ) (h : K0Env.Rel (Near v 0 τ) c e) (hAc : RelNear v 0 c.Ac e.Ac) : (k0_i1_3 (cert0 (R := R) hτ h hAc)).map (fun t => t.2.2.cnt) = (k0_i1_3 cnt0).map (fun t => t.2.2) := rfl
private theorem k0_i1_3_b0 : (k0_i1_3 cnt0).all (fun t => t.2.2.ok && Nat.ble t.2.2.k 17) = true := by decide +kernel
private theorem k0_i1_4_n0 {τ : ℝ} {c e : K0Env ℝ} (hτ : 0 ≤ τ) (h : K0Env.Rel (Near v 0 τ) c e) (hAc : RelNear v 0 c.Ac e.Ac) : (k0_i1_4 (cert0 (R := R) hτ h hAc)).map (fun t => t.2.2.cnt) = (k0_i1_4 cnt0).map (fun t => t.2.2) := rfl
private theorem k0_i1_4_b0 : (k0_i1_4 cnt0).all (fun t => t.2.2.ok && Nat.ble t.2.2.k 17) = true := by decide +kernel
private theorem k0_i2_0_n0 {τ : ℝ} {c e : K0Env ℝ} (hτ : 0 ≤ τ) (h : K0Env.Rel (Near v 0 τ) c e) (hAc : RelNear v 0 c.Ac e.Ac) : (k0_i2_0 (cert0 (R := R) hτ h hAc)).map (fun t => t.2.2.cnt) = (k0_i2_0 cnt0).map (fun t => t.2.2) := rfl
private theorem k0_i2_0_b0 : (k0_i2_0 cnt0).all (fun t => t.2.2.ok && Nat.ble t.2.2.k 17) = true := by decide +kernel
private theorem k0_i2_1_n0 {τ : ℝ} {c e : K0Env ℝ} (hτ : 0 ≤ τ) (h : K0Env.Rel (Near v 0 τ) c e) (hAc : RelNear v 0 c.Ac e.Ac) : (k0_i2_1 (cert0 (R := R) hτ h hAc)).map (fun t => t.2.2.cnt) = (k0_i2_1 cnt0).map (fun t => t.2.2) := rfl
private theorem k0_i2_1_b0 : (k0_i2_1 cnt0).all (fun t => t.2.2.ok && Nat.ble t.2.2.k 17) = true := by decide +kernel
private theorem k0_i2_3_n0 {τ : ℝ} {c e : K0Env ℝ} (hτ : 0 ≤ τ) (h : K0Env.Rel (Near v 0 τ) c e) (hAc : RelNear v 0 c.Ac e.Ac) : (k0_i2_3 (cert0 (R := R) hτ h hAc)).map (fun t => t.2.2.cnt) = (k0_i2_3 cnt0).map (fun t => t.2.2) := rfl
private theorem k0_i2_3_b0 : (k0_i2_3 cnt0).all (fun t => t.2.2.ok && Nat.ble t.2.2.k 17) = true := by decide +kernel
private theorem k0_i2_4_n0 {τ : ℝ} {c e : K0Env ℝ} (hτ : 0 ≤ τ) (h : K0Env.Rel (Near v 0 τ) c e) (hAc : RelNear v 0 c.Ac e.Ac) : (k0_i2_4 (cert0 (R := R) hτ h hAc)).map (fun t => t.2.2.cnt) = (k0_i2_4 cnt0).map (fun t => t.2.2) := rfl
private theorem k0_i2_4_b0 : (k0_i2_4 cnt0).all (fun t => t.2.2.ok && Nat.ble t.2.2.k 17) = true := by decide +kernel
private theorem k0_i3_0_n0 {τ : ℝ} {c e : K0Env ℝ} (hτ : 0 ≤ τ) (h : K0Env.Rel (Near v 0 τ) c e) (hAc : RelNear v 0 c.Ac e.Ac) : (k0_i3_0 (cert0 (R := R) hτ h hAc)).map (fun t => t.2.2.cnt) = (k0_i3_0 cnt0).map (fun t => t.2.2) := rfl
private theorem k0_i3_0_b0 : (k0_i3_0 cnt0).all (fun t => t.2.2.ok && Nat.ble t.2.2.k 17) = true := by decide +kernel
private theorem k0_i3_1_n0 {τ : ℝ} {c e : K0Env ℝ} (hτ : 0 ≤ τ) (h : K0Env.Rel (Near v 0 τ) c e) (hAc : RelNear v 0 c.Ac e.Ac) : (k0_i3_1 (cert0 (R := R) hτ h hAc)).map (fun t => t.2.2.cnt) = (k0_i3_1 cnt0).map (fun t => t.2.2) := rfl
private theorem k0_i3_1_b0 : (k0_i3_1 cnt0).all (fun t => t.2.2.ok && Nat.ble t.2.2.k 17) = true := by decide +kernel
private theorem k0_i3_3_n0 {τ : ℝ} {c e : K0Env ℝ} (hτ : 0 ≤ τ) (h : K0Env.Rel (Near v 0 τ) c e) (hAc : RelNear v 0 c.Ac e.Ac) : (k0_i3_3 (cert0 (R := R) hτ h hAc)).map (fun t => t.2.2.cnt) = (k0_i3_3 cnt0).map (fun t => t.2.2) := rfl
private theorem k0_i3_3_b0 : (k0_i3_3 cnt0).all (fun t => t.2.2.ok && Nat.ble t.2.2.k 17) = true := by decide +kernel
private theorem k0_i3_4_n0 {τ : ℝ} {c e : K0Env ℝ} (hτ : 0 ≤ τ) (h : K0Env.Rel (Near v 0 τ) c e) (hAc : RelNear v 0 c.Ac e.Ac) : (k0_i3_4 (cert0 (R := R) hτ h hAc)).map (fun t => t.2.2.cnt) = (k0_i3_4 cnt0).map (fun t => t.2.2) := rfl
private theorem k0_i3_4_b0 : (k0_i3_4 cnt0).all (fun t => t.2.2.ok && Nat.ble t.2.2.k 17) = true := by decide +kernel
private theorem k0_i4_0_n0 {τ : ℝ} {c e : K0Env ℝ} (hτ : 0 ≤ τ) (h : K0Env.Rel (Near v 0 τ) c e) (hAc : RelNear v 0 c.Ac e.Ac) : (k0_i4_0 (cert0 (R := R) hτ h hAc)).map (fun t => t.2.2.cnt) = (k0_i4_0 cnt0).map (fun t => t.2.2) := rfl
private theorem k0_i4_0_b0 : (k0_i4_0 cnt0).all (fun t => t.2.2.ok && Nat.ble t.2.2.k 17) = true := by decide +kernel
private theorem k0_i4_1_n0 {τ : ℝ} {c e : K0Env ℝ} (hτ : 0 ≤ τ) (h : K0Env.Rel (Near v 0 τ) c e) (hAc : RelNear v 0 c.Ac e.Ac) : (k0_i4_1 (cert0 (R := R) hτ h hAc)).map (fun t => t.2.2.cnt) = (k0_i4_1 cnt0).map (fun t => t.2.2) := rfl
private theorem k0_i4_1_b0 : (k0_i4_1 cnt0).all (fun t => t.2.2.ok && Nat.ble t.2.2.k 17) = true := by decide +kernel
private theorem k0_i4_3_n0 {τ : ℝ} {c e : K0Env ℝ} (hτ : 0 ≤ τ) (h : K0Env.Rel (Near v 0 τ) c e) (hAc : RelNear v 0 c.Ac e.Ac) : (k0_i4_3 (cert0 (R := R) hτ h hAc)).map (fun t => t.2.2.cnt) = (k0_i4_3 cnt0).map (fun t => t.2.2) := rfl
private theorem k0_i4_3_b0 : (k0_i4_3 cnt0).all (fun t => t.2.2.ok && Nat.ble t.2.2.k 17) = true := by decide +kernel
private theorem k0_i4_4_n0 {τ : ℝ} {c e : K0Env ℝ} (hτ : 0 ≤ τ) (h : K0Env.Rel (Near v 0 τ) c e) (hAc : RelNear v 0 c.Ac e.Ac) : (k0_i4_4 (cert0 (R := R) hτ h hAc)).map (fun t => t.2.2.cnt) = (k0_i4_4 cnt0).map (fun t => t.2.2) := rfl
private theorem k0_i4_4_b0 : (k0_i4_4 cnt0).all (fun t => t.2.2.ok && Nat.ble t.2.2.k 17) = true := by decide +kernel

/-- the increments computed from data with no error -/
theorem k0Entries_cert0 (R : Rounding) [RoundOK R v] {τ : ℝ} {c e : K0Env ℝ} (hτ : 0 ≤ τ) (h : K0Env.Rel (Near v 0 τ) c e) (hAc : RelNear v 0 c.Ac e.Ac) :
    ∃ L : List (ℤ × ℤ × Cert R v), L.map (fun t => (t.1, t.2.1, (t.2.2.c : Fl R))) = k0Entries (K := Fl R) c ∧ L.map (fun t => (t.1, t.2.1, t.2.2.e)) = k0Entries e ∧
      L.map (fun t => (t.1, t.2.1, (t.2.2.M : Mag))) = k0Entries (K := Mag) (e.mag τ) ∧ ∀ t ∈ L, t.2.2.ok = true ∧ t.2.2.k ≤ 17 := by
  refine ⟨k0Entries (cert0 (R := R) hτ h hAc), ?_, ?_, ?_, ?_⟩
  · rw [k0Entries_c]; congr 1; obtain ⟨⟩ := c; obtain ⟨⟩ := e
    obtain rfl := h.i1
    obtain rfl := h.i2
    obtain rfl := h.i3
    obtain rfl := h.i4
    rfl
  · rw [k0Entries_e]; rfl
  · rw [k0Entries_M]; rfl
  · intro t ht
    unfold k0Entries at ht
    simp only [List.mem_append] at ht
    rcases ht with ((((((((((((((h1 | h1) | h1) | h1) | h1) | h1) | h1) | h1) | h1) | h1) | h1) | h1) | h1) | h1) | h1) | h1
    · exact Cert.of_cnt (k0_i1_0_n0 hτ h hAc) k0_i1_0_b0 h1
    · exact Cert.of_cnt (k0_i1_1_n0 hτ h hAc) k0_i1_1_b0 h1
    · exact Cert.of_cnt (k0_i1_3_n0 hτ h hAc) k0_i1_3_b0 h1
    · exact Cert.of_cnt (k0_i1_4_n0 hτ h hAc) k0_i1_4_b0 h1
    · exact Cert.of_cnt (k0_i2_0_n0 hτ h hAc) k0_i2_0_b0 h1
    · exact Cert.of_cnt (k0_i2_1_n0 hτ h hAc) k0_i2_1_b0 h1
    · exact Cert.of_cnt (k0_i2_3_n0 hτ h hAc) k0_i2_3_b0 h1
    · exact Cert.of_cnt (k0_i2_4_n0 hτ h hAc) k0_i2_4_b0 h1
    · exact Cert.of_cnt (k0_i3_0_n0 hτ h hAc) k0_i3_0_b0 h1
    · exact Cert.of_cnt (k0_i3_1_n0 hτ h hAc) k0_i3_1_b0 h1
    · exact Cert.of_cnt (k0_i3_3_n0 hτ h hAc) k0_i3_3_b0 h1
    · exact Cert.of_cnt (k0_i3_4_n0 hτ h hAc) k0_i3_4_b0 h1
    · exact Cert.of_cnt (k0_i4_0_n0 hτ h hAc) k0_i4_0_b0 h1
    · exact Cert.of_cnt (k0_i4_1_n0 hτ h hAc) k0_i4_1_b0 h1
    · exact Cert.of_cnt (k0_i4_3_n0 hτ h hAc) k0_i4_3_b0 h1
    · exact Cert.of_cnt (k0_i4_4_n0 hτ h hAc) k0_i4_4_b0 h1

private noncomputable def cert1 {τ : ℝ} {c e : K0Env ℝ} (hτ : 0 ≤ τ) (h : K0Env.Rel (Near v 1 τ) c e) (hAc : RelNear v 1 c.Ac e.Ac) : K0Env (Cert R v) :=
  { K0Env.ofRel (Cert.ofNear hτ 1) h with Ac := Cert.ofRelNear 1 hAc }

private def cnt1 : K0Env Cert.Cnt := { i1 := 0, i2 := 0, i3 := 0, i4 := 0, Ac := ⟨1, true, true⟩, A11 := ⟨1, true, false⟩, A12 := ⟨1, true, false⟩, A16 := ⟨1, true, false⟩, A22 := ⟨1, true, false⟩, A26 := ⟨1, true, false⟩, A66 := ⟨1, true, false⟩, B11 := ⟨1, true, false⟩, B12 := ⟨1, true, false⟩, B16 := ⟨1, true, false⟩, B22 := ⟨1, true, false⟩, B26 := ⟨1, true, false⟩, B66 := ⟨1, true, false⟩, D11 := ⟨1, true, false⟩, D12 := ⟨1, true, false⟩, D16 := ⟨1, true, false⟩, D22 := ⟨1, true, false⟩, D26 := ⟨1, true, false⟩, D66 := ⟨1, true, false⟩, f11 := ⟨1, true, false⟩, f12 := ⟨1, true, false⟩, f13 := ⟨1, true, false⟩, f14 := ⟨1, true, false⟩, f21 := ⟨1, true, false⟩, f22 := ⟨1, true, false⟩, f23 := ⟨1, true, false⟩, f24 := ⟨1, true, false⟩, f31 := ⟨1, true, false⟩, f32 := ⟨1, true, false⟩, f33 := ⟨1, true, false⟩, f34 := ⟨1, true, false⟩, f41 := ⟨1, true, false⟩, f42 := ⟨1, true, false⟩, f43 := ⟨1, true, false⟩, f44 := ⟨1, true, false⟩, le1 := ⟨1, true, false⟩, le2 := ⟨1, true, false⟩, le3 := ⟨1, true, false⟩, le4 := ⟨1, true, false⟩, nx1 := ⟨1, true, false⟩, nx2 := ⟨1, true, false⟩, nx3 := ⟨1, true, false⟩, nx4 := ⟨1, true, false⟩, ny1 := ⟨1, true, false⟩, ny2 := ⟨1, true, false⟩, ny3 := ⟨1, true, false⟩, ny4 := ⟨1, true, false⟩ }

private theorem k0_i1_0_n1 {τ : ℝ} {c e : K0Env ℝ} (hτ : 0 ≤ τ) (h : K0Env.Rel (Near v 1 τ) c e) (hAc : RelNear v 1 c.Ac e.Ac) : (k0_i1_0 (cert1 (R := R) hτ h hAc)).map (fun t => t.2.2.cnt) = (k0_i1_0 cnt1).map (fun t => t.2.2) := rfl
private theorem k0_i1_0_b1 : (k0_i1_0 cnt1).all (fun t => t.2.2.ok && Nat.ble t.2.2.k 27) = true := by decide +kernel
private theorem k0_i1_1_n1 {τ : ℝ} {c e : K0Env ℝ} (hτ : 0 ≤ τ) (h : K0Env.Rel (Near v 1 τ) c e) (hAc : RelNear v 1 c.Ac e.Ac) : (k0_i1_1 (cert1 (R := R) hτ h hAc)).map (fun t => t.2.2.cnt) = (k0_i1_1 cnt1).map (fun t => t.2.2) := rfl
private theorem k0_i1_1_b1 : (k0_i1_1 cnt1).all (fun t => t.2.2.ok && Nat.ble t.2.2.k 27) = true := by decide +kernel
private theorem k0_i1_3_n1 {τ : ℝ} {c e : K0Env ℝ} (hτ : 0 ≤ τ) (h : K0Env.Rel (Near v 1 τ) c e) (hAc : RelNear v 1 c.Ac e.Ac) : (k0_i1_3 (cert1 (R := R) hτ h hAc)).map (fun t => t.2.2.cnt) = (k0_i1_3 cnt1).map (fun t => t.2.2) := rfl
private theorem k0_i1_3_b1 : (k0_i1_3 cnt1).all (fun t => t.2.2.ok && Nat.ble t.2.2.k 27) = true := by decide +kernel
private theorem k0_i1_4_n1 {τ : ℝ} {c e : K0Env ℝ} (hτ : 0 ≤ τ) (h : K0Env.Rel (Near v 1 τ) c e) (hAc : RelNear v 1 c.Ac e.Ac) : (k0_i1_4 (cert1 (R := R) hτ h hAc)).map (fun t => t.2.2.cnt) = (k0_i1_4 cnt1).map (fun t => t.2.2) := rfl
private theorem k0_i1_4_b1 : (k0_i1_4 cnt1).all (fun t => t.2.2.ok && Nat.ble t.2.2.k 27) = true := by decide +kernel
private theorem k0_i2_0_n1 {τ : ℝ} {c e : K0Env ℝ} (hτ : 0 ≤ τ) (h : K0Env.Rel (Near v 1 τ) c e) (hAc : RelNear v 1 c.Ac e.Ac) : (k0_i2_0 (cert1 (R := R) hτ h hAc)).map (fun t => t.2.2.cnt) = (k0_i2_0 cnt1).map (fun t => t.2.2) := rfl
private theorem k0_i2_0_b1 : (k0_i2_0 cnt1).all (fun t => t.2.2.ok && Nat.ble t.2.2.k 27) = true := by decide +kernel
private theorem k0_i2_1_n1 {τ : ℝ} {c e : K0Env ℝ} (hτ : 0 ≤ τ) (h : K0Env.Rel (Near v 1 τ) c e) (hAc : RelNear v 1 c.Ac e.Ac) : (k0_i2_1 (cert1 (R := R) hτ h hAc)).map (fun t => t.2.2.cnt) = (k0_i2_1 cnt1).map (fun t => t.2.2) := rfl
private theorem k0_i2_1_b1 : (k0_i2_1 cnt1).all (fun t => t.2.2.ok && Nat.ble t.2.2.k 27) = true := by decide +kernel
private theorem k0_i2_3_n1 {τ : ℝ} {c e : K0Env ℝ} (hτ : 0 ≤ τ) (h : K0Env.Rel (Near v 1 τ) c e) (hAc : RelNear v 1 c.Ac e.Ac) : (k0_i2_3 (cert1 (R := R) hτ h hAc)).map (fun t => t.2.2.cnt) = (k0_i2_3 cnt1).map (fun t => t.2.2) := rfl
private theorem k0_i2_3_b1 : (k0_i2_3 cnt1).all (fun t => t.2.2.ok && Nat.ble t.2.2.k 27) = true := by decide +kernel
private theorem k0_i2_4_n1 {τ : ℝ} {c e : K0Env ℝ} (hτ : 0 ≤ τ) (h : K0Env.Rel (Near v 1 τ) c e) (hAc : RelNear v 1 c.Ac e.Ac) : (k0_i2_4 (cert1 (R := R) hτ h hAc)).map (fun t => t.2.2.cnt) = (k0_i2_4 cnt1).map (fun t => t.2.2) := rfl
private theorem k0_i2_4_b1 : (k0_i2_4 cnt1).all (fun t => t.2.2.ok && Nat.ble t.2.2.k 27) = true := by decide +kernel
private theorem k0_i3_0_n1 {τ : ℝ} {c e : K0Env ℝ} (hτ : 0 ≤ τ) (h : K0Env.Rel (Near v 1 τ) c e) (hAc : RelNear v 1 c.Ac e.Ac) : (k0_i3_0 (cert1 (R := R) hτ h hAc)).map (fun t => t.2.2.cnt) = (k0_i3_0 cnt1).map (fun t => t.2.2) := rfl
private theorem k0_i3_0_b1 : (k0_i3_0 cnt1).all (fun t => t.2.2.ok && Nat.ble t.2.2.k 27) = true := by decide +kernel
private theorem k0_i3_1_n1 {τ : ℝ} {c e : K0Env ℝ} (hτ : 0 ≤ τ) (h : K0Env.Rel (Near v 1 τ) c e) (hAc : RelNear v 1 c.Ac e.Ac) : (k0_i3_1 (cert1 (R := R) hτ h hAc)).map (fun t => t.2.2.cnt) = (k0_i3_1 cnt1).map (fun t => t.2.2) := rfl
private theorem k0_i3_1_b1 : (k0_i3_1 cnt1).all (fun t => t.2.2.ok && Nat.ble t.2.2.k 27) = true := by decide +kernel
private theorem k0_i3_3_n1 {τ : ℝ} {c e : K0Env ℝ} (hτ : 0 ≤ τ) (h : K0Env.Rel (Near v 1 τ) c e) (hAc : RelNear v 1 c.Ac e.Ac) : (k0_i3_3 (cert1 (R := R) hτ h hAc)).map (fun t => t.2.2.cnt) = (k0_i3_3 cnt1).map (fun t => t.2.2) := rfl
private theorem k0_i3_3_b1 : (k0_i3_3 cnt1).all (fun t => t.2.2.ok && Nat.ble t.2.2.k 27) = true := by decide +kernel
private theorem k0_i3_4_n1 {τ : ℝ} {c e : K0Env ℝ} (hτ : 0 ≤ τ) (h : K0Env.Rel (Near v 1 τ) c e) (hAc : RelNear v 1 c.Ac e.Ac) : (k0_i3_4 (cert1 (R := R) hτ h hAc)).map (fun t => t.2.2.cnt) = (k0_i3_4 cnt1).map (fun t => t.2.2) := rfl
private theorem k0_i3_4_b1 : (k0_i3_4 cnt1).all (fun t => t.2.2.ok && Nat.ble t.2.2.k 27) = true := by decide +kernel
private theorem k0_i4_0_n1 {τ : ℝ} {c e : K0Env ℝ} (hτ : 0 ≤ τ) (h : K0Env.Rel (Near v 1 τ) c e) (hAc : RelNear v 1 c.Ac e.Ac) : (k0_i4_0 (cert1 (R := R) hτ h hAc)).map (fun t => t.2.2.cnt) = (k0_i4_0 cnt1).map (fun t => t.2.2) := rfl
private theorem k0_i4_0_b1 : (k0_i4_0 cnt1).all (fun t => t.2.2.ok && Nat.ble t.2.2.k 27) = true := by decide +kernel
private theorem k0_i4_1_n1 {τ : ℝ} {c e : K0Env ℝ} (hτ : 0 ≤ τ) (h : K0Env.Rel (Near v 1 τ) c e) (hAc : RelNear v 1 c.Ac e.Ac) : (k0_i4_1 (cert1 (R := R) hτ h hAc)).map (fun t => t.2.2.cnt) = (k0_i4_1 cnt1).map (fun t => t.2.2) := rfl
private theorem k0_i4_1_b1 : (k0_i4_1 cnt1).all (fun t => t.2.2.ok && Nat.ble t.2.2.k 27) = true := by decide +kernel
private theorem k0_i4_3_n1 {τ : ℝ} {c e : K0Env ℝ} (hτ : 0 ≤ τ) (h : K0Env.Rel (Near v 1 τ) c e) (hAc : RelNear v 1 c.Ac e.Ac) : (k0_i4_3 (cert1 (R := R) hτ h hAc)).map (fun t => t.2.2.cnt) = (k0_i4_3 cnt1).map (fun t => t.2.2) := rfl
private theorem k0_i4_3_b1 : (k0_i4_3 cnt1).all (fun t => t.2.2.ok && Nat.ble t.2.2.k 27) = true := by decide +kernel
private theorem k0_i4_4_n1 {τ : ℝ} {c e : K0Env ℝ} (hτ : 0 ≤ τ) (h : K0Env.Rel (Near v 1 τ) c e) (hAc : RelNear v 1 c.Ac e.Ac) : (k0_i4_4 (cert1 (R := R) hτ h hAc)).map (fun t => t.2.2.cnt) = (k0_i4_4 cnt1).map (fun t => t.2.2) := rfl
private theorem k0_i4_4_b1 : (k0_i4_4 cnt1).all (fun t => t.2.2.ok && Nat.ble t.2.2.k 27) = true := by decide +kernel

/-- the increments computed from data with errors of one rounding -/
theorem k0Entries_cert1 (R : Rounding) [RoundOK R v] {τ : ℝ} {c e : K0Env ℝ} (hτ : 0 ≤ τ) (h : K0Env.Rel (Near v 1 τ) c e) (hAc : RelNear v 1 c.Ac e.Ac) :
    ∃ L : List (ℤ × ℤ × Cert R v), L.map (fun t => (t.1, t.2.1, (t.2.2.c : Fl R))) = k0Entries (K := Fl R) c ∧ L.map (fun t => (t.1, t.2.1, t.2.2.e)) = k0Entries e ∧
      L.map (fun t => (t.1, t.2.1, (t.2.2.M : Mag))) = k0Entries (K := Mag) (e.mag τ) ∧ ∀ t ∈ L, t.2.2.ok = true ∧ t.2.2.k ≤ 27 := by
  refine ⟨k0Entries (cert1 (R := R) hτ h hAc), ?_, ?_, ?_, ?_⟩
  · rw [k0Entries_c]; congr 1; obtain ⟨⟩ := c; obtain ⟨⟩ := e
    obtain rfl := h.i1
    obtain rfl := h.i2
    obtain rfl := h.i3
    obtain rfl := h.i4
    rfl
  · rw [k0Entries_e]; rfl
  · rw [k0Entries_M]; rfl
  · intro t ht
    unfold k0Entries at ht
    simp only [List.mem_append] at ht
    rcases ht with ((((((((((((((h1 | h1) | h1) | h1) | h1) | h1) | h1) | h1) | h1) | h1) | h1) | h1) | h1) | h1) | h1) | h1
    · exact Cert.of_cnt (k0_i1_0_n1 hτ h hAc) k0_i1_0_b1 h1
    · exact Cert.of_cnt (k0_i1_1_n1 hτ h hAc) k0_i1_1_b1 h1
    · exact Cert.of_cnt (k0_i1_3_n1 hτ h hAc) k0_i1_3_b1 h1
    · exact Cert.of_cnt (k0_i1_4_n1 hτ h hAc) k0_i1_4_b1 h1
    · exact Cert.of_cnt (k0_i2_0_n1 hτ h hAc) k0_i2_0_b1 h1
    · exact Cert.of_cnt (k0_i2_1_n1 hτ h hAc) k0_i2_1_b1 h1
    · exact Cert.of_cnt (k0_i2_3_n1 hτ h hAc) k0_i2_3_b1 h1
    · exact Cert.of_cnt (k0_i2_4_n1 hτ h hAc) k0_i2_4_b1 h1
    · exact Cert.of_cnt (k0_i3_0_n1 hτ h hAc) k0_i3_0_b1 h1
    · exact Cert.of_cnt (k0_i3_1_n1 hτ h hAc) k0_i3_1_b1 h1
    · exact Cert.of_cnt (k0_i3_3_n1 hτ h hAc) k0_i3_3_b1 h1
    · exact Cert.of_cnt (k0_i3_4_n1 hτ h hAc) k0_i3_4_b1 h1
    · exact Cert.of_cnt (k0_i4_0_n1 hτ h hAc) k0_i4_0_b1 h1
    · exact Cert.of_cnt (k0_i4_1_n1 hτ h hAc) k0_i4_1_b1 h1
    · exact Cert.of_cnt (k0_i4_3_n1 hτ h hAc) k0_i4_3_b1 h1
    · exact Cert.of_cnt (k0_i4_4_n1 hτ h hAc) k0_i4_4_b1 h1

end Meshless
