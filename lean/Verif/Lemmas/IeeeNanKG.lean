import Verif.Lemmas.IeeeNan
import Verif.Model.Gen.KG
import Verif.Model.Gen.Map

/-! GENERATED by /verif/tools/geninan.py: the increments of Model/Gen/KG.lean when the area is 0, infinite or NaN, group by group. -/

set_option autoImplicit false
set_option maxRecDepth 10000

namespace Meshless

variable {f : Fmt}

private theorem kG_i1_2_x (e : KGEnv (Nt f)) : (kG_i1_2 e).map (fun t => (t.1, t.2.1, (t.2.2.x : Fo f))) = kG_i1_2 (K := Fo f) (e.map fun y => (y.x : Fo f)) := rfl
private theorem kG_i2_2_x (e : KGEnv (Nt f)) : (kG_i2_2 e).map (fun t => (t.1, t.2.1, (t.2.2.x : Fo f))) = kG_i2_2 (K := Fo f) (e.map fun y => (y.x : Fo f)) := rfl
private theorem kG_i3_2_x (e : KGEnv (Nt f)) : (kG_i3_2 e).map (fun t => (t.1, t.2.1, (t.2.2.x : Fo f))) = kG_i3_2 (K := Fo f) (e.map fun y => (y.x : Fo f)) := rfl
private theorem kG_i4_2_x (e : KGEnv (Nt f)) : (kG_i4_2 e).map (fun t => (t.1, t.2.1, (t.2.2.x : Fo f))) = kG_i4_2 (K := Fo f) (e.map fun y => (y.x : Fo f)) := rfl

private theorem kGEntries_x (e : KGEnv (Nt f)) : (kGEntries e).map (fun t => (t.1, t.2.1, (t.2.2.x : Fo f))) = kGEntries (K := Fo f) (e.map fun y => (y.x : Fo f)) := by
  unfold kGEntries
  simp only [List.map_append, kG_i1_2_x, kG_i2_2_x, kG_i3_2_x, kG_i4_2_x]

private def tr_zn (e : KGEnv Flo) (h : e.Ac.Zn) : KGEnv (Nt f) := { e.map (Nt.any f) with Ac := Nt.zn e.Ac h }
private def fl_zn : KGEnv Nt.Flag := { i1 := 0, i2 := 0, i3 := 0, i4 := 0, Ac := ⟨true, false, false⟩, Nxx := ⟨false, false, false⟩, Nxy := ⟨false, false, false⟩, Nyy := ⟨false, false, false⟩, f11 := ⟨false, false, false⟩, f12 := ⟨false, false, false⟩, f13 := ⟨false, false, false⟩, f14 := ⟨false, false, false⟩, f21 := ⟨false, false, false⟩, f22 := ⟨false, false, false⟩, f23 := ⟨false, false, false⟩, f24 := ⟨false, false, false⟩, f31 := ⟨false, false, false⟩, f32 := ⟨false, false, false⟩, f33 := ⟨false, false, false⟩, f34 := ⟨false, false, false⟩, f41 := ⟨false, false, false⟩, f42 := ⟨false, false, false⟩, f43 := ⟨false, false, false⟩, f44 := ⟨false, false, false⟩, le1 := ⟨false, false, false⟩, le2 := ⟨false, false, false⟩, le3 := ⟨false, false, false⟩, le4 := ⟨false, false, false⟩, nx1 := ⟨false, false, false⟩, nx2 := ⟨false, false, false⟩, nx3 := ⟨false, false, false⟩, nx4 := ⟨false, false, false⟩, ny1 := ⟨false, false, false⟩, ny2 := ⟨false, false, false⟩, ny3 := ⟨false, false, false⟩, ny4 := ⟨false, false, false⟩ }

private theorem kG_i1_2_zn (e : KGEnv Flo) (h : e.Ac.Zn) : (kG_i1_2 (tr_zn (f := f) e h)).map (fun t => t.2.2.flag) = (kG_i1_2 fl_zn).map (fun t => t.2.2) := rfl
private theorem kG_i1_2_znb : (kG_i1_2 fl_zn).all (fun t => t.2.2.n) = true := by decide +kernel
private theorem kG_i2_2_zn (e : KGEnv Flo) (h : e.Ac.Zn) : (kG_i2_2 (tr_zn (f := f) e h)).map (fun t => t.2.2.flag) = (kG_i2_2 fl_zn).map (fun t => t.2.2) := rfl
private theorem kG_i2_2_znb : (kG_i2_2 fl_zn).all (fun t => t.2.2.n) = true := by decide +kernel
private theorem kG_i3_2_zn (e : KGEnv Flo) (h : e.Ac.Zn) : (kG_i3_2 (tr_zn (f := f) e h)).map (fun t => t.2.2.flag) = (kG_i3_2 fl_zn).map (fun t => t.2.2) := rfl
private theorem kG_i3_2_znb : (kG_i3_2 fl_zn).all (fun t => t.2.2.n) = true := by decide +kernel
private theorem kG_i4_2_zn (e : KGEnv Flo) (h : e.Ac.Zn) : (kG_i4_2 (tr_zn (f := f) e h)).map (fun t => t.2.2.flag) = (kG_i4_2 fl_zn).map (fun t => t.2.2) := rfl
private theorem kG_i4_2_znb : (kG_i4_2 fl_zn).all (fun t => t.2.2.n) = true := by decide +kernel

theorem kGEntries_zn (e : KGEnv Flo) (h : e.Ac.Zn) : ∀ t ∈ kGEntries (K := Fo f) e, t.2.2 = Flo.nan := by
  have hx := kGEntries_x (tr_zn (f := f) e h)
  rw [show ((tr_zn (f := f) e h).map fun y => (y.x : Fo f)) = e from rfl] at hx
  intro t ht
  rw [← hx] at ht
  obtain ⟨s, hs, rfl⟩ := List.mem_map.1 ht
  refine s.2.2.hn ?_
  show (fun q : Nt.Flag => q.n) s.2.2.flag = true
  unfold kGEntries at hs
  simp only [List.mem_append] at hs
  rcases hs with ((h1 | h1) | h1) | h1
  · exact Nt.of_flag (kG_i1_2_zn e h) (fun q => q.n) kG_i1_2_znb h1
  · exact Nt.of_flag (kG_i2_2_zn e h) (fun q => q.n) kG_i2_2_znb h1
  · exact Nt.of_flag (kG_i3_2_zn e h) (fun q => q.n) kG_i3_2_znb h1
  · exact Nt.of_flag (kG_i4_2_zn e h) (fun q => q.n) kG_i4_2_znb h1

private def tr_bad (e : KGEnv Flo) (h : e.Ac.Bad) : KGEnv (Nt f) := { e.map (Nt.any f) with Ac := Nt.bad e.Ac h }
private def fl_bad : KGEnv Nt.Flag := { i1 := 0, i2 := 0, i3 := 0, i4 := 0, Ac := ⟨false, true, false⟩, Nxx := ⟨false, false, false⟩, Nxy := ⟨false, false, false⟩, Nyy := ⟨false, false, false⟩, f11 := ⟨false, false, false⟩, f12 := ⟨false, false, false⟩, f13 := ⟨false, false, false⟩, f14 := ⟨false, false, false⟩, f21 := ⟨false, false, false⟩, f22 := ⟨false, false, false⟩, f23 := ⟨false, false, false⟩, f24 := ⟨false, false, false⟩, f31 := ⟨false, false, false⟩, f32 := ⟨false, false, false⟩, f33 := ⟨false, false, false⟩, f34 := ⟨false, false, false⟩, f41 := ⟨false, false, false⟩, f42 := ⟨false, false, false⟩, f43 := ⟨false, false, false⟩, f44 := ⟨false, false, false⟩, le1 := ⟨false, false, false⟩, le2 := ⟨false, false, false⟩, le3 := ⟨false, false, false⟩, le4 := ⟨false, false, false⟩, nx1 := ⟨false, false, false⟩, nx2 := ⟨false, false, false⟩, nx3 := ⟨false, false, false⟩, nx4 := ⟨false, false, false⟩, ny1 := ⟨false, false, false⟩, ny2 := ⟨false, false, false⟩, ny3 := ⟨false, false, false⟩, ny4 := ⟨false, false, false⟩ }

private theorem kG_i1_2_bad (e : KGEnv Flo) (h : e.Ac.Bad) : (kG_i1_2 (tr_bad (f := f) e h)).map (fun t => t.2.2.flag) = (kG_i1_2 fl_bad).map (fun t => t.2.2) := rfl
private theorem kG_i1_2_badb : (kG_i1_2 fl_bad).all (fun t => t.2.2.n) = true := by decide +kernel
private theorem kG_i2_2_bad (e : KGEnv Flo) (h : e.Ac.Bad) : (kG_i2_2 (tr_bad (f := f) e h)).map (fun t => t.2.2.flag) = (kG_i2_2 fl_bad).map (fun t => t.2.2) := rfl
private theorem kG_i2_2_badb : (kG_i2_2 fl_bad).all (fun t => t.2.2.n) = true := by decide +kernel
private theorem kG_i3_2_bad (e : KGEnv Flo) (h : e.Ac.Bad) : (kG_i3_2 (tr_bad (f := f) e h)).map (fun t => t.2.2.flag) = (kG_i3_2 fl_bad).map (fun t => t.2.2) := rfl
private theorem kG_i3_2_badb : (kG_i3_2 fl_bad).all (fun t => t.2.2.n) = true := by decide +kernel
private theorem kG_i4_2_bad (e : KGEnv Flo) (h : e.Ac.Bad) : (kG_i4_2 (tr_bad (f := f) e h)).map (fun t => t.2.2.flag) = (kG_i4_2 fl_bad).map (fun t => t.2.2) := rfl
private theorem kG_i4_2_badb : (kG_i4_2 fl_bad).all (fun t => t.2.2.n) = true := by decide +kernel

theorem kGEntries_bad (e : KGEnv Flo) (h : e.Ac.Bad) : ∀ t ∈ kGEntries (K := Fo f) e, t.2.2 = Flo.nan := by
  have hx := kGEntries_x (tr_bad (f := f) e h)
  rw [show ((tr_bad (f := f) e h).map fun y => (y.x : Fo f)) = e from rfl] at hx
  intro t ht
  rw [← hx] at ht
  obtain ⟨s, hs, rfl⟩ := List.mem_map.1 ht
  refine s.2.2.hn ?_
  show (fun q : Nt.Flag => q.n) s.2.2.flag = true
  unfold kGEntries at hs
  simp only [List.mem_append] at hs
  rcases hs with ((h1 | h1) | h1) | h1
  · exact Nt.of_flag (kG_i1_2_bad e h) (fun q => q.n) kG_i1_2_badb h1
  · exact Nt.of_flag (kG_i2_2_bad e h) (fun q => q.n) kG_i2_2_badb h1
  · exact Nt.of_flag (kG_i3_2_bad e h) (fun q => q.n) kG_i3_2_badb h1
  · exact Nt.of_flag (kG_i4_2_bad e h) (fun q => q.n) kG_i4_2_badb h1

end Meshless
