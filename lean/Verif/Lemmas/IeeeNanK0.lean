import Verif.Lemmas.IeeeNan
import Verif.Model.Gen.K0
import Verif.Model.Gen.Map

/-! GENERATED by /verif/tools/geninan.py: the increments of Model/Gen/K0.lean when the area is 0, infinite or NaN, group by group. -/

set_option autoImplicit false
set_option maxRecDepth 10000

namespace Meshless

variable {f : Fmt}

private theorem k0_i1_0_x (e : K0Env (Nt f)) : (k0_i1_0 e).map (fun t => (t.1, t.2.1, (t.2.2.x : Fo f))) = k0_i1_0 (K := Fo f) (e.map fun y => (y.x : Fo f)) := rfl
private theorem k0_i1_1_x (e : K0Env (Nt f)) : (k0_i1_1 e).map (fun t => (t.1, t.2.1, (t.2.2.x : Fo f))) = k0_i1_1 (K := Fo f) (e.map fun y => (y.x : Fo f)) := rfl
private theorem k0_i1_3_x (e : K0Env (Nt f)) : (k0_i1_3 e).map (fun t => (t.1, t.2.1, (t.2.2.x : Fo f))) = k0_i1_3 (K := Fo f) (e.map fun y => (y.x : Fo f)) := rfl
private theorem k0_i1_4_x (e : K0Env (Nt f)) : (k0_i1_4 e).map (fun t => (t.1, t.2.1, (t.2.2.x : Fo f))) = k0_i1_4 (K := Fo f) (e.map fun y => (y.x : Fo f)) := rfl
private theorem k0_i2_0_x (e : K0Env (Nt f)) : (k0_i2_0 e).map (fun t => (t.1, t.2.1, (t.2.2.x : Fo f))) = k0_i2_0 (K := Fo f) (e.map fun y => (y.x : Fo f)) := rfl
private theorem k0_i2_1_x (e : K0Env (Nt f)) : (k0_i2_1 e).map (fun t => (t.1, t.2.1, (t.2.2.x : Fo f))) = k0_i2_1 (K := Fo f) (e.map fun y => (y.x : Fo f)) := rfl
private theorem k0_i2_3_x (e : K0Env (Nt f)) : (k0_i2_3 e).map (fun t => (t.1, t.2.1, (t.2.2.x : Fo f))) = k0_i2_3 (K := Fo f) (e.map fun y => (y.x : Fo f)) := rfl
private theorem k0_i2_4_x (e : K0Env (Nt f)) : (k0_i2_4 e).map (fun t => (t.1, t.2.1, (t.2.2.x : Fo f))) = k0_i2_4 (K := Fo f) (e.map fun y => (y.x : Fo f)) := rfl
private theorem k0_i3_0_x (e : K0Env (Nt f)) : (k0_i3_0 e).map (fun t => (t.1, t.2.1, (t.2.2.x : Fo f))) = k0_i3_0 (K := Fo f) (e.map fun y => (y.x : Fo f)) := rfl
private theorem k0_i3_1_x (e : K0Env (Nt f)) : (k0_i3_1 e).map (fun t => (t.1, t.2.1, (t.2.2.x : Fo f))) = k0_i3_1 (K := Fo f) (e.map fun y => (y.x : Fo f)) := rfl
private theorem k0_i3_3_x (e : K0Env (Nt f)) : (k0_i3_3 e).map (fun t => (t.1, t.2.1, (t.2.2.x : Fo f))) = k0_i3_3 (K := Fo f) (e.map fun y => (y.x : Fo f)) := rfl
private theorem k0_i3_4_x (e : K0Env (Nt f)) : (k0_i3_4 e).map (fun t => (t.1, t.2.1, (t.2.2.x : Fo f))) = k0_i3_4 (K := Fo f) (e.map fun y => (y.x : Fo f)) := rfl
private theorem k0_i4_0_x (e : K0Env (Nt f)) : (k0_i4_0 e).map (fun t => (t.1, t.2.1, (t.2.2.x : Fo f))) = k0_i4_0 (K := Fo f) (e.map fun y => (y.x : Fo f)) := rfl
private theorem k0_i4_1_x (e : K0Env (Nt f)) : (k0_i4_1 e).map (fun t => (t.1, t.2.1, (t.2.2.x : Fo f))) = k0_i4_1 (K := Fo f) (e.map fun y => (y.x : Fo f)) := rfl
private theorem k0_i4_3_x (e : K0Env (Nt f)) : (k0_i4_3 e).map (fun t => (t.1, t.2.1, (t.2.2.x : Fo f))) = k0_i4_3 (K := Fo f) (e.map fun y => (y.x : Fo f)) := rfl
private theorem k0_i4_4_x (e : K0Env (Nt f)) : (k0_i4_4 e).map (fun t => (t.1, t.2.1, (t.2.2.x : Fo f))) = k0_i4_4 (K := Fo f) (e.map fun y => (y.x : Fo f)) := rfl

private theorem k0Entries_x (e : K0Env (Nt f)) : (k0Entries e).map (fun t => (t.1, t.2.1, (t.2.2.x : Fo f))) = k0Entries (K := Fo f) (e.map fun y => (y.x : Fo f)) := by
  unfold k0Entries
  simp only [List.map_append, k0_i1_0_x, k0_i1_1_x, k0_i1_3_x, k0_i1_4_x, k0_i2_0_x, k0_i2_1_x, k0_i2_3_x, k0_i2_4_x, k0_i3_0_x, k0_i3_1_x, k0_i3_3_x, k0_i3_4_x, k0_i4_0_x, k0_i4_1_x, k0_i4_3_x, k0_i4_4_x]

private def tr_zn (e : K0Env Flo) (h : e.Ac.Zn) : K0Env (Nt f) := { e.map (Nt.any f) with Ac := Nt.zn e.Ac h }
private def fl_zn : K0Env Nt.Flag := { i1 := 0, i2 := 0, i3 := 0, i4 := 0, Ac := ⟨true, false, false⟩, A11 := ⟨false, false, false⟩, A12 := ⟨false, false, false⟩, A16 := ⟨false, false, false⟩, A22 := ⟨false, false, false⟩, A26 := ⟨false, false, false⟩, A66 := ⟨false, false, false⟩, B11 := ⟨false, false, false⟩, B12 := ⟨false, false, false⟩, B16 := ⟨false, false, false⟩, B22 := ⟨false, false, false⟩, B26 := ⟨false, false, false⟩, B66 := ⟨false, false, false⟩, D11 := ⟨false, false, false⟩, D12 := ⟨false, false, false⟩, D16 := ⟨false, false, false⟩, D22 := ⟨false, false, false⟩, D26 := ⟨false, false, false⟩, D66 := ⟨false, false, false⟩, f11 := ⟨false, false, false⟩, f12 := ⟨false, false, false⟩, f13 := ⟨false, false, false⟩, f14 := ⟨false, false, false⟩, f21 := ⟨false, false, false⟩, f22 := ⟨false, false, false⟩, f23 := ⟨false, false, false⟩, f24 := ⟨false, false, false⟩, f31 := ⟨false, false, false⟩, f32 := ⟨false, false, false⟩, f33 := ⟨false, false, false⟩, f34 := ⟨false, false, false⟩, f41 := ⟨false, false, false⟩, f42 := ⟨false, false, false⟩, f43 := ⟨false, false, false⟩, f44 := ⟨false, false, false⟩, le1 := ⟨false, false, false⟩, le2 := ⟨false, false, false⟩, le3 := ⟨false, false, false⟩, le4 := ⟨false, false, false⟩, nx1 := ⟨false, false, false⟩, nx2 := ⟨false, false, false⟩, nx3 := ⟨false, false, false⟩, nx4 := ⟨false, false, false⟩, ny1 := ⟨false, false, false⟩, ny2 := ⟨false, false, false⟩, ny3 := ⟨false, false, false⟩, ny4 := ⟨false, false, false⟩ }

private theorem k0_i1_0_zn (e : K0Env Flo) (h : e.Ac.Zn) : (k0_i1_0 (tr_zn (f := f) e h)).map (fun t => t.2.2.flag) = (k0_i1_0 fl_zn).map (fun t => t.2.2) := rfl
private theorem k0_i1_0_znb : (k0_i1_0 fl_zn).all (fun t => t.2.2.n) = true := by decide +kernel
private theorem k0_i1_1_zn (e : K0Env Flo) (h : e.Ac.Zn) : (k0_i1_1 (tr_zn (f := f) e h)).map (fun t => t.2.2.flag) = (k0_i1_1 fl_zn).map (fun t => t.2.2) := rfl
private theorem k0_i1_1_znb : (k0_i1_1 fl_zn).all (fun t => t.2.2.n) = true := by decide +kernel
private theorem k0_i1_3_zn (e : K0Env Flo) (h : e.Ac.Zn) : (k0_i1_3 (tr_zn (f := f) e h)).map (fun t => t.2.2.flag) = (k0_i1_3 fl_zn).map (fun t => t.2.2) := rfl
private theorem k0_i1_3_znb : (k0_i1_3 fl_zn).all (fun t => t.2.2.n) = true := by decide +kernel
private theorem k0_i1_4_zn (e : K0Env Flo) (h : e.Ac.Zn) : (k0_i1_4 (tr_zn (f := f) e h)).map (fun t => t.2.2.flag) = (k0_i1_4 fl_zn).map (fun t => t.2.2) := rfl
private theorem k0_i1_4_znb : (k0_i1_4 fl_zn).all (fun t => t.2.2.n) = true := by decide +kernel
private theorem k0_i2_0_zn (e : K0Env Flo) (h : e.Ac.Zn) : (k0_i2_0 (tr_zn (f := f) e h)).map (fun t => t.2.2.flag) = (k0_i2_0 fl_zn).map (fun t => t.2.2) := rfl
private theorem k0_i2_0_znb : (k0_i2_0 fl_zn).all (fun t => t.2.2.n) = true := by decide +kernel
private theorem k0_i2_1_zn (e : K0Env Flo) (h : e.Ac.Zn) : (k0_i2_1 (tr_zn (f := f) e h)).map (fun t => t.2.2.flag) = (k0_i2_1 fl_zn).map (fun t => t.2.2) := rfl
private theorem k0_i2_1_znb : (k0_i2_1 fl_zn).all (fun t => t.2.2.n) = true := by decide +kernel
private theorem k0_i2_3_zn (e : K0Env Flo) (h : e.Ac.Zn) : (k0_i2_3 (tr_zn (f := f) e h)).map (fun t => t.2.2.flag) = (k0_i2_3 fl_zn).map (fun t => t.2.2) := rfl
private theorem k0_i2_3_znb : (k0_i2_3 fl_zn).all (fun t => t.2.2.n) = true := by decide +kernel
private theorem k0_i2_4_zn (e : K0Env Flo) (h : e.Ac.Zn) : (k0_i2_4 (tr_zn (f := f) e h)).map (fun t => t.2.2.flag) = (k0_i2_4 fl_zn).map (fun t => t.2.2) := rfl
private theorem k0_i2_4_znb : (k0_i2_4 fl_zn).all (fun t => t.2.2.n) = true := by decide +kernel
private theorem k0_i3_0_zn (e : K0Env Flo) (h : e.Ac.Zn) : (k0_i3_0 (tr_zn (f := f) e h)).map (fun t => t.2.2.flag) = (k0_i3_0 fl_zn).map (fun t => t.2.2) := rfl
private theorem k0_i3_0_znb : (k0_i3_0 fl_zn).all (fun t => t.2.2.n) = true := by decide +kernel
private theorem k0_i3_1_zn (e : K0Env Flo) (h : e.Ac.Zn) : (k0_i3_1 (tr_zn (f := f) e h)).map (fun t => t.2.2.flag) = (k0_i3_1 fl_zn).map (fun t => t.2.2) := rfl
private theorem k0_i3_1_znb : (k0_i3_1 fl_zn).all (fun t => t.2.2.n) = true := by decide +kernel
private theorem k0_i3_3_zn (e : K0Env Flo) (h : e.Ac.Zn) : (k0_i3_3 (tr_zn (f := f) e h)).map (fun t => t.2.2.flag) = (k0_i3_3 fl_zn).map (fun t => t.2.2) := rfl
private theorem k0_i3_3_znb : (k0_i3_3 fl_zn).all (fun t => t.2.2.n) = true := by decide +kernel
private theorem k0_i3_4_zn (e : K0Env Flo) (h : e.Ac.Zn) : (k0_i3_4 (tr_zn (f := f) e h)).map (fun t => t.2.2.flag) = (k0_i3_4 fl_zn).map (fun t => t.2.2) := rfl
private theorem k0_i3_4_znb : (k0_i3_4 fl_zn).all (fun t => t.2.2.n) = true := by decide +kernel
private theorem k0_i4_0_zn (e : K0Env Flo) (h : e.Ac.Zn) : (k0_i4_0 (tr_zn (f := f) e h)).map (fun t => t.2.2.flag) = (k0_i4_0 fl_zn).map (fun t => t.2.2) := rfl
private theorem k0_i4_0_znb : (k0_i4_0 fl_zn).all (fun t => t.2.2.n) = true := by decide +kernel
private theorem k0_i4_1_zn (e : K0Env Flo) (h : e.Ac.Zn) : (k0_i4_1 (tr_zn (f := f) e h)).map (fun t => t.2.2.flag) = (k0_i4_1 fl_zn).map (fun t => t.2.2) := rfl
private theorem k0_i4_1_znb : (k0_i4_1 fl_zn).all (fun t => t.2.2.n) = true := by decide +kernel
private theorem k0_i4_3_zn (e : K0Env Flo) (h : e.Ac.Zn) : (k0_i4_3 (tr_zn (f := f) e h)).map (fun t => t.2.2.flag) = (k0_i4_3 fl_zn).map (fun t => t.2.2) := rfl
private theorem k0_i4_3_znb : (k0_i4_3 fl_zn).all (fun t => t.2.2.n) = true := by decide +kernel
private theorem k0_i4_4_zn (e : K0Env Flo) (h : e.Ac.Zn) : (k0_i4_4 (tr_zn (f := f) e h)).map (fun t => t.2.2.flag) = (k0_i4_4 fl_zn).map (fun t => t.2.2) := rfl
private theorem k0_i4_4_znb : (k0_i4_4 fl_zn).all (fun t => t.2.2.n) = true := by decide +kernel

theorem k0Entries_zn (e : K0Env Flo) (h : e.Ac.Zn) : ∀ t ∈ k0Entries (K := Fo f) e, t.2.2 = Flo.nan := by
  have hx := k0Entries_x (tr_zn (f := f) e h)
  rw [show ((tr_zn (f := f) e h).map fun y => (y.x : Fo f)) = e from rfl] at hx
  intro t ht
  rw [← hx] at ht
  obtain ⟨s, hs, rfl⟩ := List.mem_map.1 ht
  refine s.2.2.hn ?_
  show (fun q : Nt.Flag => q.n) s.2.2.flag = true
  unfold k0Entries at hs
  simp only [List.mem_append] at hs
  rcases hs with ((((((((((((((h1 | h1) | h1) | h1) | h1) | h1) | h1) | h1) | h1) | h1) | h1) | h1) | h1) | h1) | h1) | h1
  · exact Nt.of_flag (k0_i1_0_zn e h) (fun q => q.n) k0_i1_0_znb h1
  · exact Nt.of_flag (k0_i1_1_zn e h) (fun q => q.n) k0_i1_1_znb h1
  · exact Nt.of_flag (k0_i1_3_zn e h) (fun q => q.n) k0_i1_3_znb h1
  · exact Nt.of_flag (k0_i1_4_zn e h) (fun q => q.n) k0_i1_4_znb h1
  · exact Nt.of_flag (k0_i2_0_zn e h) (fun q => q.n) k0_i2_0_znb h1
  · exact Nt.of_flag (k0_i2_1_zn e h) (fun q => q.n) k0_i2_1_znb h1
  · exact Nt.of_flag (k0_i2_3_zn e h) (fun q => q.n) k0_i2_3_znb h1
  · exact Nt.of_flag (k0_i2_4_zn e h) (fun q => q.n) k0_i2_4_znb h1
  · exact Nt.of_flag (k0_i3_0_zn e h) (fun q => q.n) k0_i3_0_znb h1
  · exact Nt.of_flag (k0_i3_1_zn e h) (fun q => q.n) k0_i3_1_znb h1
  · exact Nt.of_flag (k0_i3_3_zn e h) (fun q => q.n) k0_i3_3_znb h1
  · exact Nt.of_flag (k0_i3_4_zn e h) (fun q => q.n) k0_i3_4_znb h1
  · exact Nt.of_flag (k0_i4_0_zn e h) (fun q => q.n) k0_i4_0_znb h1
  · exact Nt.of_flag (k0_i4_1_zn e h) (fun q => q.n) k0_i4_1_znb h1
  · exact Nt.of_flag (k0_i4_3_zn e h) (fun q => q.n) k0_i4_3_znb h1
  · exact Nt.of_flag (k0_i4_4_zn e h) (fun q => q.n) k0_i4_4_znb h1

private def tr_bad (e : K0Env Flo) (h : e.Ac.Bad) : K0Env (Nt f) := { e.map (Nt.any f) with Ac := Nt.bad e.Ac h }
private def fl_bad : K0Env Nt.Flag := { i1 := 0, i2 := 0, i3 := 0, i4 := 0, Ac := ⟨false, true, false⟩, A11 := ⟨false, false, false⟩, A12 := ⟨false, false, false⟩, A16 := ⟨false, false, false⟩, A22 := ⟨false, false, false⟩, A26 := ⟨false, false, false⟩, A66 := ⟨false, false, false⟩, B11 := ⟨false, false, false⟩, B12 := ⟨false, false, false⟩, B16 := ⟨false, false, false⟩, B22 := ⟨false, false, false⟩, B26 := ⟨false, false, false⟩, B66 := ⟨false, false, false⟩, D11 := ⟨false, false, false⟩, D12 := ⟨false, false, false⟩, D16 := ⟨false, false, false⟩, D22 := ⟨false, false, false⟩, D26 := ⟨false, false, false⟩, D66 := ⟨false, false, false⟩, f11 := ⟨false, false, false⟩, f12 := ⟨false, false, false⟩, f13 := ⟨false, false, false⟩, f14 := ⟨false, false, false⟩, f21 := ⟨false, false, false⟩, f22 := ⟨false, false, false⟩, f23 := ⟨false, false, false⟩, f24 := ⟨false, false, false⟩, f31 := ⟨false, false, false⟩, f32 := ⟨false, false, false⟩, f33 := ⟨false, false, false⟩, f34 := ⟨false, false, false⟩, f41 := ⟨false, false, false⟩, f42 := ⟨false, false, false⟩, f43 := ⟨false, false, false⟩, f44 := ⟨false, false, false⟩, le1 := ⟨false, false, false⟩, le2 := ⟨false, false, false⟩, le3 := ⟨false, false, false⟩, le4 := ⟨false, false, false⟩, nx1 := ⟨false, false, false⟩, nx2 := ⟨false, false, false⟩, nx3 := ⟨false, false, false⟩, nx4 := ⟨false, false, false⟩, ny1 := ⟨false, false, false⟩, ny2 := ⟨false, false, false⟩, ny3 := ⟨false, false, false⟩, ny4 := ⟨false, false, false⟩ }

private theorem k0_i1_0_bad (e : K0Env Flo) (h : e.Ac.Bad) : (k0_i1_0 (tr_bad (f := f) e h)).map (fun t => t.2.2.flag) = (k0_i1_0 fl_bad).map (fun t => t.2.2) := rfl
private theorem k0_i1_0_badb : (k0_i1_0 fl_bad).all (fun t => t.2.2.n) = true := by decide +kernel
private theorem k0_i1_1_bad (e : K0Env Flo) (h : e.Ac.Bad) : (k0_i1_1 (tr_bad (f := f) e h)).map (fun t => t.2.2.flag) = (k0_i1_1 fl_bad).map (fun t => t.2.2) := rfl
private theorem k0_i1_1_badb : (k0_i1_1 fl_bad).all (fun t => t.2.2.n) = true := by decide +kernel
private theorem k0_i1_3_bad (e : K0Env Flo) (h : e.Ac.Bad) : (k0_i1_3 (tr_bad (f := f) e h)).map (fun t => t.2.2.flag) = (k0_i1_3 fl_bad).map (fun t => t.2.2) := rfl
private theorem k0_i1_3_badb : (k0_i1_3 fl_bad).all (fun t => t.2.2.n) = true := by decide +kernel
private theorem k0_i1_4_bad (e : K0Env Flo) (h : e.Ac.Bad) : (k0_i1_4 (tr_bad (f := f) e h)).map (fun t => t.2.2.flag) = (k0_i1_4 fl_bad).map (fun t => t.2.2) := rfl
private theorem k0_i1_4_badb : (k0_i1_4 fl_bad).all (fun t => t.2.2.n) = true := by decide +kernel
private theorem k0_i2_0_bad (e : K0Env Flo) (h : e.Ac.Bad) : (k0_i2_0 (tr_bad (f := f) e h)).map (fun t => t.2.2.flag) = (k0_i2_0 fl_bad).map (fun t => t.2.2) := rfl
private theorem k0_i2_0_badb : (k0_i2_0 fl_bad).all (fun t => t.2.2.n) = true := by decide +kernel
private theorem k0_i2_1_bad (e : K0Env Flo) (h : e.Ac.Bad) : (k0_i2_1 (tr_bad (f := f) e h)).map (fun t => t.2.2.flag) = (k0_i2_1 fl_bad).map (fun t => t.2.2) := rfl
private theorem k0_i2_1_badb : (k0_i2_1 fl_bad).all (fun t => t.2.2.n) = true := by decide +kernel
private theorem k0_i2_3_bad (e : K0Env Flo) (h : e.Ac.Bad) : (k0_i2_3 (tr_bad (f := f) e h)).map (fun t => t.2.2.flag) = (k0_i2_3 fl_bad).map (fun t => t.2.2) := rfl
private theorem k0_i2_3_badb : (k0_i2_3 fl_bad).all (fun t => t.2.2.n) = true := by decide +kernel
private theorem k0_i2_4_bad (e : K0Env Flo) (h : e.Ac.Bad) : (k0_i2_4 (tr_bad (f := f) e h)).map (fun t => t.2.2.flag) = (k0_i2_4 fl_bad).map (fun t => t.2.2) := rfl
private theorem k0_i2_4_badb : (k0_i2_4 fl_bad).all (fun t => t.2.2.n) = true := by decide +kernel
private theorem k0_i3_0_bad (e : K0Env Flo) (h : e.Ac.Bad) : (k0_i3_0 (tr_bad (f := f) e h)).map (fun t => t.2.2.flag) = (k0_i3_0 fl_bad).map (fun t => t.2.2) := rfl
private theorem k0_i3_0_badb : (k0_i3_0 fl_bad).all (fun t => t.2.2.n) = true := by decide +kernel
private theorem k0_i3_1_bad (e : K0Env Flo) (h : e.Ac.Bad) : (k0_i3_1 (tr_bad (f := f) e h)).map (fun t => t.2.2.flag) = (k0_i3_1 fl_bad).map (fun t => t.2.2) := rfl
private theorem k0_i3_1_badb : (k0_i3_1 fl_bad).all (fun t => t.2.2.n) = true := by decide +kernel
private theorem k0_i3_3_bad (e : K0Env Flo) (h : e.Ac.Bad) : (k0_i3_3 (tr_bad (f := f) e h)).map (fun t => t.2.2.flag) = (k0_i3_3 fl_bad).map (fun t => t.2.2) := rfl
private theorem k0_i3_3_badb : (k0_i3_3 fl_bad).all (fun t => t.2.2.n) = true := by decide +kernel
private theorem k0_i3_4_bad (e : K0Env Flo) (h : e.Ac.Bad) : (k0_i3_4 (tr_bad (f := f) e h)).map (fun t => t.2.2.flag) = (k0_i3_4 fl_bad).map (fun t => t.2.2) := rfl
private theorem k0_i3_4_badb : (k0_i3_4 fl_bad).all (fun t => t.2.2.n) = true := by decide +kernel
private theorem k0_i4_0_bad (e : K0Env Flo) (h : e.Ac.Bad) : (k0_i4_0 (tr_bad (f := f) e h)).map (fun t => t.2.2.flag) = (k0_i4_0 fl_bad).map (fun t => t.2.2) := rfl
private theorem k0_i4_0_badb : (k0_i4_0 fl_bad).all (fun t => t.2.2.n) = true := by decide +kernel
private theorem k0_i4_1_bad (e : K0Env Flo) (h : e.Ac.Bad) : (k0_i4_1 (tr_bad (f := f) e h)).map (fun t => t.2.2.flag) = (k0_i4_1 fl_bad).map (fun t => t.2.2) := rfl
private theorem k0_i4_1_badb : (k0_i4_1 fl_bad).all (fun t => t.2.2.n) = true := by decide +kernel
private theorem k0_i4_3_bad (e : K0Env Flo) (h : e.Ac.Bad) : (k0_i4_3 (tr_bad (f := f) e h)).map (fun t => t.2.2.flag) = (k0_i4_3 fl_bad).map (fun t => t.2.2) := rfl
private theorem k0_i4_3_badb : (k0_i4_3 fl_bad).all (fun t => t.2.2.n) = true := by decide +kernel
private theorem k0_i4_4_bad (e : K0Env Flo) (h : e.Ac.Bad) : (k0_i4_4 (tr_bad (f := f) e h)).map (fun t => t.2.2.flag) = (k0_i4_4 fl_bad).map (fun t => t.2.2) := rfl
private theorem k0_i4_4_badb : (k0_i4_4 fl_bad).all (fun t => t.2.2.n) = true := by decide +kernel

theorem k0Entries_bad (e : K0Env Flo) (h : e.Ac.Bad) : ∀ t ∈ k0Entries (K := Fo f) e, t.2.2 = Flo.nan := by
  have hx := k0Entries_x (tr_bad (f := f) e h)
  rw [show ((tr_bad (f := f) e h).map fun y => (y.x : Fo f)) = e from rfl] at hx
  intro t ht
  rw [← hx] at ht
  obtain ⟨s, hs, rfl⟩ := List.mem_map.1 ht
  refine s.2.2.hn ?_
  show (fun q : Nt.Flag => q.n) s.2.2.flag = true
  unfold k0Entries at hs
  simp only [List.mem_append] at hs
  rcases hs with ((((((((((((((h1 | h1) | h1) | h1) | h1) | h1) | h1) | h1) | h1) | h1) | h1) | h1) | h1) | h1) | h1) | h1
  · exact Nt.of_flag (k0_i1_0_bad e h) (fun q => q.n) k0_i1_0_badb h1
  · exact Nt.of_flag (k0_i1_1_bad e h) (fun q => q.n) k0_i1_1_badb h1
  · exact Nt.of_flag (k0_i1_3_bad e h) (fun q => q.n) k0_i1_3_badb h1
  · exact Nt.of_flag (k0_i1_4_bad e h) (fun q => q.n) k0_i1_4_badb h1
  · exact Nt.of_flag (k0_i2_0_bad e h) (fun q => q.n) k0_i2_0_badb h1
  · exact Nt.of_flag (k0_i2_1_bad e h) (fun q => q.n) k0_i2_1_badb h1
  · exact Nt.of_flag (k0_i2_3_bad e h) (fun q => q.n) k0_i2_3_badb h1
  · exact Nt.of_flag (k0_i2_4_bad e h) (fun q => q.n) k0_i2_4_badb h1
  · exact Nt.of_flag (k0_i3_0_bad e h) (fun q => q.n) k0_i3_0_badb h1
  · exact Nt.of_flag (k0_i3_1_bad e h) (fun q => q.n) k0_i3_1_badb h1
  · exact Nt.of_flag (k0_i3_3_bad e h) (fun q => q.n) k0_i3_3_badb h1
  · exact Nt.of_flag (k0_i3_4_bad e h) (fun q => q.n) k0_i3_4_badb h1
  · exact Nt.of_flag (k0_i4_0_bad e h) (fun q => q.n) k0_i4_0_badb h1
  · exact Nt.of_flag (k0_i4_1_bad e h) (fun q => q.n) k0_i4_1_badb h1
  · exact Nt.of_flag (k0_i4_3_bad e h) (fun q => q.n) k0_i4_3_badb h1
  · exact Nt.of_flag (k0_i4_4_bad e h) (fun q => q.n) k0_i4_4_badb h1

end Meshless
