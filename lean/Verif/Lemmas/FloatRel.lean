import Verif.Lemmas.FloatMat
import Verif.Lemmas.CertK0
import Verif.Lemmas.CertKG
import Verif.Lemmas.CertCellS
import Verif.Lemmas.CertCellNS
import Verif.Lemmas.CertEdgeB
import Verif.Lemmas.CertEdgeI

/-! GENERATED by /verif/tools/gencert.py: increments computed from accurate data are accurate. -/

set_option autoImplicit false

namespace Meshless
open Filter Topology

variable {ι : Type*} {π : ι → Rounding}

theorem K0Env.Rel.mono {K L : Type*} {P Q : K → L → Prop} (hPQ : ∀ {x y}, P x y → Q x y) {a : K0Env K} {b : K0Env L} (h : K0Env.Rel P a b) : K0Env.Rel Q a b :=
  ⟨h.i1, h.i2, h.i3, h.i4, hPQ h.Ac, hPQ h.A11, hPQ h.A12, hPQ h.A16, hPQ h.A22, hPQ h.A26, hPQ h.A66, hPQ h.B11, hPQ h.B12, hPQ h.B16, hPQ h.B22, hPQ h.B26, hPQ h.B66, hPQ h.D11, hPQ h.D12, hPQ h.D16, hPQ h.D22, hPQ h.D26, hPQ h.D66, hPQ h.f11, hPQ h.f12, hPQ h.f13, hPQ h.f14, hPQ h.f21, hPQ h.f22, hPQ h.f23, hPQ h.f24, hPQ h.f31, hPQ h.f32, hPQ h.f33, hPQ h.f34, hPQ h.f41, hPQ h.f42, hPQ h.f43, hPQ h.f44, hPQ h.le1, hPQ h.le2, hPQ h.le3, hPQ h.le4, hPQ h.nx1, hPQ h.nx2, hPQ h.nx3, hPQ h.nx4, hPQ h.ny1, hPQ h.ny2, hPQ h.ny3, hPQ h.ny4⟩
theorem K0Env.Rel.mapLeft {K L T : Type*} {f : K → L} {P : L → T → Prop} {a : K0Env K} {b : K0Env T} (h : K0Env.Rel (fun x y => P (f x) y) a b) : K0Env.Rel P (a.map f) b :=
  ⟨h.i1, h.i2, h.i3, h.i4, h.Ac, h.A11, h.A12, h.A16, h.A22, h.A26, h.A66, h.B11, h.B12, h.B16, h.B22, h.B26, h.B66, h.D11, h.D12, h.D16, h.D22, h.D26, h.D66, h.f11, h.f12, h.f13, h.f14, h.f21, h.f22, h.f23, h.f24, h.f31, h.f32, h.f33, h.f34, h.f41, h.f42, h.f43, h.f44, h.le1, h.le2, h.le3, h.le4, h.nx1, h.nx2, h.nx3, h.nx4, h.ny1, h.ny2, h.ny3, h.ny4⟩
theorem K0Env.Rel.eventually {κ K L : Type*} {F : Filter κ} {r : κ → K → L → Prop} {a : K0Env K} {b : K0Env L} (h : K0Env.Rel (fun x y => ∀ᶠ c in F, r c x y) a b) : ∀ᶠ c in F, K0Env.Rel (r c) a b := by
  filter_upwards [h.Ac, h.A11, h.A12, h.A16, h.A22, h.A26, h.A66, h.B11, h.B12, h.B16, h.B22, h.B26, h.B66, h.D11, h.D12, h.D16, h.D22, h.D26, h.D66, h.f11, h.f12, h.f13, h.f14, h.f21, h.f22, h.f23, h.f24, h.f31, h.f32, h.f33, h.f34, h.f41, h.f42, h.f43, h.f44, h.le1, h.le2, h.le3, h.le4, h.nx1, h.nx2, h.nx3, h.nx4, h.ny1, h.ny2, h.ny3, h.ny4] with c hAc hA11 hA12 hA16 hA22 hA26 hA66 hB11 hB12 hB16 hB22 hB26 hB66 hD11 hD12 hD16 hD22 hD26 hD66 hf11 hf12 hf13 hf14 hf21 hf22 hf23 hf24 hf31 hf32 hf33 hf34 hf41 hf42 hf43 hf44 hle1 hle2 hle3 hle4 hnx1 hnx2 hnx3 hnx4 hny1 hny2 hny3 hny4 using ⟨h.i1, h.i2, h.i3, h.i4, hAc, hA11, hA12, hA16, hA22, hA26, hA66, hB11, hB12, hB16, hB22, hB26, hB66, hD11, hD12, hD16, hD22, hD26, hD66, hf11, hf12, hf13, hf14, hf21, hf22, hf23, hf24, hf31, hf32, hf33, hf34, hf41, hf42, hf43, hf44, hle1, hle2, hle3, hle4, hnx1, hnx2, hnx3, hnx4, hny1, hny2, hny3, hny4⟩
/-- increments computed from accurate data are accurate -/
theorem k0Entries_acc {E : K0Env (ι → ℝ)} {E0 : K0Env ℝ} (h : K0Env.Rel (Acc π) E E0) (hAc : E0.Ac ≠ 0) :
    AccL π (fun i => k0Entries (K := Fl (π i)) (E.map fun a => a i)) (k0Entries E0) := by
  have h1 := K0Env.Rel.eventually (F := atTop) (r := fun (C : ℝ) (a : ι → ℝ) b => ∀ᶠ i in smallU π, Near (C * (π i).u) 1 1 (a i) b) (h.mono Acc.near)
  obtain ⟨C, c1, c2, gAc⟩ := (h1.and ((roundOK_small (π := π)).and (h.Ac.relNear hAc))).exists
  refine accL_of_cert c2.1 (kmax := 31) (mg := k0Entries (E0.mag 1)) ?_
  filter_upwards [K0Env.Rel.eventually c1, c2.2, gAc] with i g1 ok kAc
  obtain ⟨L, l1, l2, l3, l4⟩ := @k0Entries_cert1 (C * (π i).u) (π i) ok 1 _ _ zero_le_one g1.mapLeft kAc
  exact ⟨L, l1, l2, l3, fun t ht => ⟨(l4 t ht).1, (l4 t ht).2.trans (by norm_num)⟩⟩

theorem KGEnv.Rel.mono {K L : Type*} {P Q : K → L → Prop} (hPQ : ∀ {x y}, P x y → Q x y) {a : KGEnv K} {b : KGEnv L} (h : KGEnv.Rel P a b) : KGEnv.Rel Q a b :=
  ⟨h.i1, h.i2, h.i3, h.i4, hPQ h.Ac, hPQ h.Nxx, hPQ h.Nxy, hPQ h.Nyy, hPQ h.f11, hPQ h.f12, hPQ h.f13, hPQ h.f14, hPQ h.f21, hPQ h.f22, hPQ h.f23, hPQ h.f24, hPQ h.f31, hPQ h.f32, hPQ h.f33, hPQ h.f34, hPQ h.f41, hPQ h.f42, hPQ h.f43, hPQ h.f44, hPQ h.le1, hPQ h.le2, hPQ h.le3, hPQ h.le4, hPQ h.nx1, hPQ h.nx2, hPQ h.nx3, hPQ h.nx4, hPQ h.ny1, hPQ h.ny2, hPQ h.ny3, hPQ h.ny4⟩
theorem KGEnv.Rel.mapLeft {K L T : Type*} {f : K → L} {P : L → T → Prop} {a : KGEnv K} {b : KGEnv T} (h : KGEnv.Rel (fun x y => P (f x) y) a b) : KGEnv.Rel P (a.map f) b :=
  ⟨h.i1, h.i2, h.i3, h.i4, h.Ac, h.Nxx, h.Nxy, h.Nyy, h.f11, h.f12, h.f13, h.f14, h.f21, h.f22, h.f23, h.f24, h.f31, h.f32, h.f33, h.f34, h.f41, h.f42, h.f43, h.f44, h.le1, h.le2, h.le3, h.le4, h.nx1, h.nx2, h.nx3, h.nx4, h.ny1, h.ny2, h.ny3, h.ny4⟩
theorem KGEnv.Rel.eventually {κ K L : Type*} {F : Filter κ} {r : κ → K → L → Prop} {a : KGEnv K} {b : KGEnv L} (h : KGEnv.Rel (fun x y => ∀ᶠ c in F, r c x y) a b) : ∀ᶠ c in F, KGEnv.Rel (r c) a b := by
  filter_upwards [h.Ac, h.Nxx, h.Nxy, h.Nyy, h.f11, h.f12, h.f13, h.f14, h.f21, h.f22, h.f23, h.f24, h.f31, h.f32, h.f33, h.f34, h.f41, h.f42, h.f43, h.f44, h.le1, h.le2, h.le3, h.le4, h.nx1, h.nx2, h.nx3, h.nx4, h.ny1, h.ny2, h.ny3, h.ny4] with c hAc hNxx hNxy hNyy hf11 hf12 hf13 hf14 hf21 hf22 hf23 hf24 hf31 hf32 hf33 hf34 hf41 hf42 hf43 hf44 hle1 hle2 hle3 hle4 hnx1 hnx2 hnx3 hnx4 hny1 hny2 hny3 hny4 using ⟨h.i1, h.i2, h.i3, h.i4, hAc, hNxx, hNxy, hNyy, hf11, hf12, hf13, hf14, hf21, hf22, hf23, hf24, hf31, hf32, hf33, hf34, hf41, hf42, hf43, hf44, hle1, hle2, hle3, hle4, hnx1, hnx2, hnx3, hnx4, hny1, hny2, hny3, hny4⟩
/-- increments computed from accurate data are accurate -/
theorem kGEntries_acc {E : KGEnv (ι → ℝ)} {E0 : KGEnv ℝ} (h : KGEnv.Rel (Acc π) E E0) (hAc : E0.Ac ≠ 0) :
    AccL π (fun i => kGEntries (K := Fl (π i)) (E.map fun a => a i)) (kGEntries E0) := by
  have h1 := KGEnv.Rel.eventually (F := atTop) (r := fun (C : ℝ) (a : ι → ℝ) b => ∀ᶠ i in smallU π, Near (C * (π i).u) 1 1 (a i) b) (h.mono Acc.near)
  obtain ⟨C, c1, c2, gAc⟩ := (h1.and ((roundOK_small (π := π)).and (h.Ac.relNear hAc))).exists
  refine accL_of_cert c2.1 (kmax := 31) (mg := kGEntries (E0.mag 1)) ?_
  filter_upwards [KGEnv.Rel.eventually c1, c2.2, gAc] with i g1 ok kAc
  obtain ⟨L, l1, l2, l3, l4⟩ := @kGEntries_cert1 (C * (π i).u) (π i) ok 1 _ _ zero_le_one g1.mapLeft kAc
  exact ⟨L, l1, l2, l3, fun t ht => ⟨(l4 t ht).1, (l4 t ht).2.trans (by norm_num)⟩⟩

theorem CellSEnv.Rel.mono {K L : Type*} {P Q : K → L → Prop} (hPQ : ∀ {x y}, P x y → Q x y) {a : CellSEnv K} {b : CellSEnv L} (h : CellSEnv.Rel P a b) : CellSEnv.Rel Q a b :=
  ⟨h.i1, h.i2, h.i3, hPQ h.Ac, hPQ h.Ac1, hPQ h.Ac2, hPQ h.Ac3, hPQ h.E44, hPQ h.E45, hPQ h.E55, hPQ h.a1, hPQ h.b1, hPQ h.c1, hPQ h.d1, hPQ h.a2, hPQ h.b2, hPQ h.c2, hPQ h.d2, hPQ h.a3, hPQ h.b3, hPQ h.c3, hPQ h.d3⟩
theorem CellSEnv.Rel.mapLeft {K L T : Type*} {f : K → L} {P : L → T → Prop} {a : CellSEnv K} {b : CellSEnv T} (h : CellSEnv.Rel (fun x y => P (f x) y) a b) : CellSEnv.Rel P (a.map f) b :=
  ⟨h.i1, h.i2, h.i3, h.Ac, h.Ac1, h.Ac2, h.Ac3, h.E44, h.E45, h.E55, h.a1, h.b1, h.c1, h.d1, h.a2, h.b2, h.c2, h.d2, h.a3, h.b3, h.c3, h.d3⟩
theorem CellSEnv.Rel.eventually {κ K L : Type*} {F : Filter κ} {r : κ → K → L → Prop} {a : CellSEnv K} {b : CellSEnv L} (h : CellSEnv.Rel (fun x y => ∀ᶠ c in F, r c x y) a b) : ∀ᶠ c in F, CellSEnv.Rel (r c) a b := by
  filter_upwards [h.Ac, h.Ac1, h.Ac2, h.Ac3, h.E44, h.E45, h.E55, h.a1, h.b1, h.c1, h.d1, h.a2, h.b2, h.c2, h.d2, h.a3, h.b3, h.c3, h.d3] with c hAc hAc1 hAc2 hAc3 hE44 hE45 hE55 ha1 hb1 hc1 hd1 ha2 hb2 hc2 hd2 ha3 hb3 hc3 hd3 using ⟨h.i1, h.i2, h.i3, hAc, hAc1, hAc2, hAc3, hE44, hE45, hE55, ha1, hb1, hc1, hd1, ha2, hb2, hc2, hd2, ha3, hb3, hc3, hd3⟩
/-- increments computed from accurate data are accurate -/
theorem cellSEntries_acc {E : CellSEnv (ι → ℝ)} {E0 : CellSEnv ℝ} (h : CellSEnv.Rel (Acc π) E E0) (hAc : E0.Ac ≠ 0) (hAc1 : E0.Ac1 ≠ 0) (hAc2 : E0.Ac2 ≠ 0) (hAc3 : E0.Ac3 ≠ 0) :
    AccL π (fun i => cellSEntries (K := Fl (π i)) (E.map fun a => a i)) (cellSEntries E0) := by
  have h1 := CellSEnv.Rel.eventually (F := atTop) (r := fun (C : ℝ) (a : ι → ℝ) b => ∀ᶠ i in smallU π, Near (C * (π i).u) 1 1 (a i) b) (h.mono Acc.near)
  obtain ⟨C, c1, c2, gAc, gAc1, gAc2, gAc3⟩ := (h1.and ((roundOK_small (π := π)).and ((h.Ac.relNear hAc).and ((h.Ac1.relNear hAc1).and ((h.Ac2.relNear hAc2).and (h.Ac3.relNear hAc3)))))).exists
  refine accL_of_cert c2.1 (kmax := 31) (mg := cellSEntries (E0.mag 1)) ?_
  filter_upwards [CellSEnv.Rel.eventually c1, c2.2, gAc, gAc1, gAc2, gAc3] with i g1 ok kAc kAc1 kAc2 kAc3
  obtain ⟨L, l1, l2, l3, l4⟩ := @cellSEntries_cert1 (C * (π i).u) (π i) ok 1 _ _ zero_le_one g1.mapLeft kAc kAc1 kAc2 kAc3
  exact ⟨L, l1, l2, l3, fun t ht => ⟨(l4 t ht).1, (l4 t ht).2.trans (by norm_num)⟩⟩

theorem CellNSEnv.Rel.mono {K L : Type*} {P Q : K → L → Prop} (hPQ : ∀ {x y}, P x y → Q x y) {a : CellNSEnv K} {b : CellNSEnv L} (h : CellNSEnv.Rel P a b) : CellNSEnv.Rel Q a b :=
  ⟨h.i1, h.i2, h.i3, hPQ h.Ac, hPQ h.E44, hPQ h.E45, hPQ h.E55, hPQ h.a1, hPQ h.b1, hPQ h.c1, hPQ h.d1⟩
theorem CellNSEnv.Rel.mapLeft {K L T : Type*} {f : K → L} {P : L → T → Prop} {a : CellNSEnv K} {b : CellNSEnv T} (h : CellNSEnv.Rel (fun x y => P (f x) y) a b) : CellNSEnv.Rel P (a.map f) b :=
  ⟨h.i1, h.i2, h.i3, h.Ac, h.E44, h.E45, h.E55, h.a1, h.b1, h.c1, h.d1⟩
theorem CellNSEnv.Rel.eventually {κ K L : Type*} {F : Filter κ} {r : κ → K → L → Prop} {a : CellNSEnv K} {b : CellNSEnv L} (h : CellNSEnv.Rel (fun x y => ∀ᶠ c in F, r c x y) a b) : ∀ᶠ c in F, CellNSEnv.Rel (r c) a b := by
  filter_upwards [h.Ac, h.E44, h.E45, h.E55, h.a1, h.b1, h.c1, h.d1] with c hAc hE44 hE45 hE55 ha1 hb1 hc1 hd1 using ⟨h.i1, h.i2, h.i3, hAc, hE44, hE45, hE55, ha1, hb1, hc1, hd1⟩
/-- increments computed from accurate data are accurate -/
theorem cellNSEntries_acc {E : CellNSEnv (ι → ℝ)} {E0 : CellNSEnv ℝ} (h : CellNSEnv.Rel (Acc π) E E0) (hAc : E0.Ac ≠ 0) :
    AccL π (fun i => cellNSEntries (K := Fl (π i)) (E.map fun a => a i)) (cellNSEntries E0) := by
  have h1 := CellNSEnv.Rel.eventually (F := atTop) (r := fun (C : ℝ) (a : ι → ℝ) b => ∀ᶠ i in smallU π, Near (C * (π i).u) 1 1 (a i) b) (h.mono Acc.near)
  obtain ⟨C, c1, c2, gAc⟩ := (h1.and ((roundOK_small (π := π)).and (h.Ac.relNear hAc))).exists
  refine accL_of_cert c2.1 (kmax := 31) (mg := cellNSEntries (E0.mag 1)) ?_
  filter_upwards [CellNSEnv.Rel.eventually c1, c2.2, gAc] with i g1 ok kAc
  obtain ⟨L, l1, l2, l3, l4⟩ := @cellNSEntries_cert1 (C * (π i).u) (π i) ok 1 _ _ zero_le_one g1.mapLeft kAc
  exact ⟨L, l1, l2, l3, fun t ht => ⟨(l4 t ht).1, (l4 t ht).2.trans (by norm_num)⟩⟩

theorem EdgeBEnv.Rel.mono {K L : Type*} {P Q : K → L → Prop} (hPQ : ∀ {x y}, P x y → Q x y) {a : EdgeBEnv K} {b : EdgeBEnv L} (h : EdgeBEnv.Rel P a b) : EdgeBEnv.Rel Q a b :=
  ⟨h.i1, h.i2, h.i3, hPQ h.Ac, hPQ h.E44, hPQ h.E45, hPQ h.E55, hPQ h.a1, hPQ h.b1, hPQ h.c1, hPQ h.d1⟩
theorem EdgeBEnv.Rel.mapLeft {K L T : Type*} {f : K → L} {P : L → T → Prop} {a : EdgeBEnv K} {b : EdgeBEnv T} (h : EdgeBEnv.Rel (fun x y => P (f x) y) a b) : EdgeBEnv.Rel P (a.map f) b :=
  ⟨h.i1, h.i2, h.i3, h.Ac, h.E44, h.E45, h.E55, h.a1, h.b1, h.c1, h.d1⟩
theorem EdgeBEnv.Rel.eventually {κ K L : Type*} {F : Filter κ} {r : κ → K → L → Prop} {a : EdgeBEnv K} {b : EdgeBEnv L} (h : EdgeBEnv.Rel (fun x y => ∀ᶠ c in F, r c x y) a b) : ∀ᶠ c in F, EdgeBEnv.Rel (r c) a b := by
  filter_upwards [h.Ac, h.E44, h.E45, h.E55, h.a1, h.b1, h.c1, h.d1] with c hAc hE44 hE45 hE55 ha1 hb1 hc1 hd1 using ⟨h.i1, h.i2, h.i3, hAc, hE44, hE45, hE55, ha1, hb1, hc1, hd1⟩
/-- increments computed from accurate data are accurate -/
theorem edgeBEntries_acc {E : EdgeBEnv (ι → ℝ)} {E0 : EdgeBEnv ℝ} (h : EdgeBEnv.Rel (Acc π) E E0) (hAc : E0.Ac ≠ 0) :
    AccL π (fun i => edgeBEntries (K := Fl (π i)) (E.map fun a => a i)) (edgeBEntries E0) := by
  have h1 := EdgeBEnv.Rel.eventually (F := atTop) (r := fun (C : ℝ) (a : ι → ℝ) b => ∀ᶠ i in smallU π, Near (C * (π i).u) 1 1 (a i) b) (h.mono Acc.near)
  obtain ⟨C, c1, c2, gAc⟩ := (h1.and ((roundOK_small (π := π)).and (h.Ac.relNear hAc))).exists
  refine accL_of_cert c2.1 (kmax := 31) (mg := edgeBEntries (E0.mag 1)) ?_
  filter_upwards [EdgeBEnv.Rel.eventually c1, c2.2, gAc] with i g1 ok kAc
  obtain ⟨L, l1, l2, l3, l4⟩ := @edgeBEntries_cert1 (C * (π i).u) (π i) ok 1 _ _ zero_le_one g1.mapLeft kAc
  exact ⟨L, l1, l2, l3, fun t ht => ⟨(l4 t ht).1, (l4 t ht).2.trans (by norm_num)⟩⟩

theorem EdgeIEnv.Rel.mono {K L : Type*} {P Q : K → L → Prop} (hPQ : ∀ {x y}, P x y → Q x y) {a : EdgeIEnv K} {b : EdgeIEnv L} (h : EdgeIEnv.Rel P a b) : EdgeIEnv.Rel Q a b :=
  ⟨h.i1, h.i2, h.i3, h.i4, hPQ h.Ac, hPQ h.Ac1, hPQ h.Ac2, hPQ h.E44, hPQ h.E45, hPQ h.E55, hPQ h.a1, hPQ h.b1, hPQ h.c1, hPQ h.d1, hPQ h.a2, hPQ h.b2, hPQ h.c2, hPQ h.d2⟩
theorem EdgeIEnv.Rel.mapLeft {K L T : Type*} {f : K → L} {P : L → T → Prop} {a : EdgeIEnv K} {b : EdgeIEnv T} (h : EdgeIEnv.Rel (fun x y => P (f x) y) a b) : EdgeIEnv.Rel P (a.map f) b :=
  ⟨h.i1, h.i2, h.i3, h.i4, h.Ac, h.Ac1, h.Ac2, h.E44, h.E45, h.E55, h.a1, h.b1, h.c1, h.d1, h.a2, h.b2, h.c2, h.d2⟩
theorem EdgeIEnv.Rel.eventually {κ K L : Type*} {F : Filter κ} {r : κ → K → L → Prop} {a : EdgeIEnv K} {b : EdgeIEnv L} (h : EdgeIEnv.Rel (fun x y => ∀ᶠ c in F, r c x y) a b) : ∀ᶠ c in F, EdgeIEnv.Rel (r c) a b := by
  filter_upwards [h.Ac, h.Ac1, h.Ac2, h.E44, h.E45, h.E55, h.a1, h.b1, h.c1, h.d1, h.a2, h.b2, h.c2, h.d2] with c hAc hAc1 hAc2 hE44 hE45 hE55 ha1 hb1 hc1 hd1 ha2 hb2 hc2 hd2 using ⟨h.i1, h.i2, h.i3, h.i4, hAc, hAc1, hAc2, hE44, hE45, hE55, ha1, hb1, hc1, hd1, ha2, hb2, hc2, hd2⟩
/-- increments computed from accurate data are accurate -/
theorem edgeIEntries_acc {E : EdgeIEnv (ι → ℝ)} {E0 : EdgeIEnv ℝ} (h : EdgeIEnv.Rel (Acc π) E E0) (hAc : E0.Ac ≠ 0) (hAc1 : E0.Ac1 ≠ 0) (hAc2 : E0.Ac2 ≠ 0) :
    AccL π (fun i => edgeIEntries (K := Fl (π i)) (E.map fun a => a i)) (edgeIEntries E0) := by
  have h1 := EdgeIEnv.Rel.eventually (F := atTop) (r := fun (C : ℝ) (a : ι → ℝ) b => ∀ᶠ i in smallU π, Near (C * (π i).u) 1 1 (a i) b) (h.mono Acc.near)
  obtain ⟨C, c1, c2, gAc, gAc1, gAc2⟩ := (h1.and ((roundOK_small (π := π)).and ((h.Ac.relNear hAc).and ((h.Ac1.relNear hAc1).and (h.Ac2.relNear hAc2))))).exists
  refine accL_of_cert c2.1 (kmax := 31) (mg := edgeIEntries (E0.mag 1)) ?_
  filter_upwards [EdgeIEnv.Rel.eventually c1, c2.2, gAc, gAc1, gAc2] with i g1 ok kAc kAc1 kAc2
  obtain ⟨L, l1, l2, l3, l4⟩ := @edgeIEntries_cert1 (C * (π i).u) (π i) ok 1 _ _ zero_le_one g1.mapLeft kAc kAc1 kAc2
  exact ⟨L, l1, l2, l3, fun t ht => ⟨(l4 t ht).1, (l4 t ht).2.trans (by norm_num)⟩⟩

end Meshless
