import Verif.Lemmas.FloatUnitsRun
import Mathlib.Tactic.FinCases

/-! `calc_kG` and `add_k0s` in rounded arithmetic, run on a mesh and on the same mesh in other units. -/

set_option autoImplicit false

namespace Meshless
open Spec

/-- unit of a displacement component (0 to 4) -/
def dispDg (r : ℕ) : Dg := if r < 2 then .X else if r = 2 then .L else .N

/-- `d'` is `d` in the other units -/
def GDisp (s f ε : ℝ) (d d' : List ℝ) : Prop := d'.length = d.length ∧ ∀ i, Gd s f ε (dispDg (i % 5)) (d.getD i 0) (d'.getD i 0)

theorem dSlice_getD_units (d : List ℝ) (i : ℤ) {r : ℕ} (hr : r < 5) : (dSlice d i).getD r 0 = d.getD (i.toNat * 5 + r) 0 := by
  unfold dSlice
  rw [List.getD_eq_getElem?_getD, List.getD_eq_getElem?_getD, List.getElem?_take_of_lt hr, List.getElem?_drop]

theorem GDisp.slice {s f ε : ℝ} {d d' : List ℝ} (h : GDisp s f ε d d') (i : ℤ) {r : ℕ} (hr : r < 5) :
    Gd s f ε (dispDg r) ((dSlice d i).getD r 0) ((dSlice d' i).getD r 0) := by
  rw [dSlice_getD_units _ _ hr, dSlice_getD_units _ _ hr]
  have := h.2 (i.toNat * 5 + r)
  rwa [show (i.toNat * 5 + r) % 5 = r by omega] at this

theorem GDisp.slice_length {s f ε : ℝ} {d d' : List ℝ} (h : GDisp s f ε d d') (i : ℤ) : (dSlice d' i).length = (dSlice d i).length := by
  unfold dSlice; simp only [List.length_take, List.length_drop, h.1]

namespace Rounding
variable (R : Rounding) {s f ε : ℝ} [G : Grading R s f ε] {m m' : Mesh}

theorem sum4_gd {g : Dg} {a b c d a' b' c' d' : ℝ} (h1 : Gd s f ε g a a') (h2 : Gd s f ε g b b') (h3 : Gd s f ε g c c') (h4 : Gd s f ε g d d') :
    Gd s f ε g (R.sum4 a b c d) (R.sum4 a' b' c' d') := .add' (.add' (.add' h1 h2) h3) h4

theorem kGEnv_unit (h : UnitMesh s f ε m m') {d d' : List ℝ} (hd : GDisp s f ε d d') (pn : Bool) {a b : Edge} (hab : UnitEdge s ε a b) :
    ERel (KGEnv.Graded s f ε) (R.kGEnv m d pn a) (R.kGEnv m' d' pn b) := by
  have hA := R.edgeProp_unit h pn hab (sel := Lam.A) fun p p' hp => hp.gA
  have hB := R.edgeProp_unit h pn hab (sel := Lam.B) fun p p' hp => hp.gB
  unfold kGEnv
  rw [hab.trias, h.indexed hab.ipts, unitPts_indices hab.ipts, hab.ipts.length_eq.symm, h.nodeIdx]
  split
  · exact .error _
  split
  · exact .error _
  split
  · exact .error _
  dsimp only
  generalize (if a.ipts.length = 3 then iptIndices (nodeIdx m) a.ipts ++ [0] else iptIndices (nodeIdx m) a.ipts) = ix
  rcases ix with _ | ⟨i1, _ | ⟨i2, _ | ⟨i3, _ | ⟨i4, _ | ⟨i5, l⟩⟩⟩⟩⟩
  · exact .error _
  · exact .error _
  · exact .error _
  · exact .error _
  · dsimp only
    have hip := hab.ipts
    have hac := hab.Ac
    generalize a.ipts = la at hip ⊢
    generalize b.ipts = lb at hip ⊢
    generalize R.edgeProp m pn a Lam.A = A at hA ⊢
    generalize R.edgeProp m pn a Lam.B = B at hB ⊢
    generalize R.edgeProp m' pn b Lam.A = A' at hA ⊢
    generalize R.edgeProp m' pn b Lam.B = B' at hB ⊢
    generalize a.Ac = xa at hac ⊢
    generalize b.Ac = xb at hac ⊢
    cases hip with
    | nil => exact .error _
    | cons h1 hip =>
    cases hip with
    | nil => exact .error _
    | cons h2 hip =>
    cases hip with
    | nil => exact .error _
    | cons h3 hip =>
    rcases option_rel_cases hac with ⟨rfl, rfl⟩ | ⟨x, y, rfl, rfl, hx⟩
    · cases hA with
      | error e => exact .error _
      | ok hA =>
      cases hB with
      | error e => exact .error _
      | ok hB => exact .error _
    · cases hA with
      | error e => exact .error _
      | ok hA =>
      cases hB with
      | error e => exact .error _
      | ok hB =>
      dsimp only
      rw [hd.slice_length i1, hd.slice_length i2, hd.slice_length i3, hd.slice_length i4]
      split
      · refine .ok ?_
        have hN : ∀ {x y : ℝ}, y = ε * x → Gd s f ε .N x y := gd_N.2
        have hL : ∀ {x y : ℝ}, y = s * x → Gd s f ε .L x y := gd_L.2
        have hAc : Gd s f ε .A x y := gd_A.2 hx
        have hdc : ∀ (l : List ℝ) {r : ℕ}, r < 5 → Gd s f ε (dispDg r) (R.dcAt l (dSlice d i1) (dSlice d i2) (dSlice d i3) (dSlice d i4) r)
            (R.dcAt l (dSlice d' i1) (dSlice d' i2) (dSlice d' i3) (dSlice d' i4) r) := fun l r hr =>
          R.sum4_gd (.mul R (Dg.one_mul' _) (.num _) (hd.slice i1 hr)) (.mul R (Dg.one_mul' _) (.num _) (hd.slice i2 hr))
            (.mul R (Dg.one_mul' _) (.num _) (hd.slice i3 hr)) (.mul R (Dg.one_mul' _) (.num _) (hd.slice i4 hr))
        -- the four points, with the fourth possibly missing
        have key : ∀ {g : Dg} (f1 f2 f3 f4 : List ℝ) {l1 l2 l3 l4 n1 n2 n3 n4 l1' l2' l3' l4' n1' n2' n3' n4' : ℝ} {r : ℕ}, r < 5 →
            Dg.L * Dg.N * dispDg r = g →
            Gd s f ε .L l1 l1' → Gd s f ε .L l2 l2' → Gd s f ε .L l3 l3' → Gd s f ε .L l4 l4' →
            Gd s f ε .N n1 n1' → Gd s f ε .N n2 n2' → Gd s f ε .N n3 n3' → Gd s f ε .N n4 n4' →
            Gd s f ε g (R.sum4 (R.mul (R.mul l1 n1) (R.dcAt f1 (dSlice d i1) (dSlice d i2) (dSlice d i3) (dSlice d i4) r))
                (R.mul (R.mul l2 n2) (R.dcAt f2 (dSlice d i1) (dSlice d i2) (dSlice d i3) (dSlice d i4) r))
                (R.mul (R.mul l3 n3) (R.dcAt f3 (dSlice d i1) (dSlice d i2) (dSlice d i3) (dSlice d i4) r))
                (R.mul (R.mul l4 n4) (R.dcAt f4 (dSlice d i1) (dSlice d i2) (dSlice d i3) (dSlice d i4) r)))
              (R.sum4 (R.mul (R.mul l1' n1') (R.dcAt f1 (dSlice d' i1) (dSlice d' i2) (dSlice d' i3) (dSlice d' i4) r))
                (R.mul (R.mul l2' n2') (R.dcAt f2 (dSlice d' i1) (dSlice d' i2) (dSlice d' i3) (dSlice d' i4) r))
                (R.mul (R.mul l3' n3') (R.dcAt f3 (dSlice d' i1) (dSlice d' i2) (dSlice d' i3) (dSlice d' i4) r))
                (R.mul (R.mul l4' n4') (R.dcAt f4 (dSlice d' i1) (dSlice d' i2) (dSlice d' i3) (dSlice d' i4) r))) := by
          intro g f1 f2 f3 f4 l1 l2 l3 l4 n1 n2 n3 n4 l1' l2' l3' l4' n1' n2' n3' n4' r hr hg a1 a2 a3 a4 b1 b2 b3 b4
          exact R.sum4_gd (.mul R hg (.mul' a1 b1) (hdc _ hr)) (.mul R hg (.mul' a2 b2) (hdc _ hr)) (.mul R hg (.mul' a3 b3) (hdc _ hr))
            (.mul R hg (.mul' a4 b4) (hdc _ hr))
        have key2 : ∀ {g : Dg} (f1 f2 f3 f4 : List ℝ) {l1 l2 l3 l4 n1 n2 n3 n4 l1' l2' l3' l4' n1' n2' n3' n4' o1 o2 o3 o4 o1' o2' o3' o4' : ℝ} {r t : ℕ},
            r < 5 → t < 5 → dispDg r = dispDg t → Dg.L * (Dg.N * dispDg r) = g →
            Gd s f ε .L l1 l1' → Gd s f ε .L l2 l2' → Gd s f ε .L l3 l3' → Gd s f ε .L l4 l4' →
            Gd s f ε .N n1 n1' → Gd s f ε .N n2 n2' → Gd s f ε .N n3 n3' → Gd s f ε .N n4 n4' →
            Gd s f ε .N o1 o1' → Gd s f ε .N o2 o2' → Gd s f ε .N o3 o3' → Gd s f ε .N o4 o4' →
            Gd s f ε g (R.sum4
                (R.mul l1 (R.add (R.mul n1 (R.dcAt f1 (dSlice d i1) (dSlice d i2) (dSlice d i3) (dSlice d i4) r)) (R.mul o1 (R.dcAt f1 (dSlice d i1) (dSlice d i2) (dSlice d i3) (dSlice d i4) t))))
                (R.mul l2 (R.add (R.mul n2 (R.dcAt f2 (dSlice d i1) (dSlice d i2) (dSlice d i3) (dSlice d i4) r)) (R.mul o2 (R.dcAt f2 (dSlice d i1) (dSlice d i2) (dSlice d i3) (dSlice d i4) t))))
                (R.mul l3 (R.add (R.mul n3 (R.dcAt f3 (dSlice d i1) (dSlice d i2) (dSlice d i3) (dSlice d i4) r)) (R.mul o3 (R.dcAt f3 (dSlice d i1) (dSlice d i2) (dSlice d i3) (dSlice d i4) t))))
                (R.mul l4 (R.add (R.mul n4 (R.dcAt f4 (dSlice d i1) (dSlice d i2) (dSlice d i3) (dSlice d i4) r)) (R.mul o4 (R.dcAt f4 (dSlice d i1) (dSlice d i2) (dSlice d i3) (dSlice d i4) t)))))
              (R.sum4
                (R.mul l1' (R.add (R.mul n1' (R.dcAt f1 (dSlice d' i1) (dSlice d' i2) (dSlice d' i3) (dSlice d' i4) r)) (R.mul o1' (R.dcAt f1 (dSlice d' i1) (dSlice d' i2) (dSlice d' i3) (dSlice d' i4) t))))
                (R.mul l2' (R.add (R.mul n2' (R.dcAt f2 (dSlice d' i1) (dSlice d' i2) (dSlice d' i3) (dSlice d' i4) r)) (R.mul o2' (R.dcAt f2 (dSlice d' i1) (dSlice d' i2) (dSlice d' i3) (dSlice d' i4) t))))
                (R.mul l3' (R.add (R.mul n3' (R.dcAt f3 (dSlice d' i1) (dSlice d' i2) (dSlice d' i3) (dSlice d' i4) r)) (R.mul o3' (R.dcAt f3 (dSlice d' i1) (dSlice d' i2) (dSlice d' i3) (dSlice d' i4) t))))
                (R.mul l4' (R.add (R.mul n4' (R.dcAt f4 (dSlice d' i1) (dSlice d' i2) (dSlice d' i3) (dSlice d' i4) r)) (R.mul o4' (R.dcAt f4 (dSlice d' i1) (dSlice d' i2) (dSlice d' i3) (dSlice d' i4) t))))) := by
          intro g f1 f2 f3 f4 l1 l2 l3 l4 n1 n2 n3 n4 l1' l2' l3' l4' n1' n2' n3' n4' o1 o2 o3 o4 o1' o2' o3' o4' r t hr ht hrt hg a1 a2 a3 a4 b1 b2 b3 b4 c1 c2 c3 c4
          have hg' : Dg.N * dispDg t = Dg.N * dispDg r := by rw [hrt]
          exact R.sum4_gd (.mul R hg a1 (.add' (.mul' b1 (hdc _ hr)) (.mul R hg' c1 (hdc _ ht)))) (.mul R hg a2 (.add' (.mul' b2 (hdc _ hr)) (.mul R hg' c2 (hdc _ ht))))
            (.mul R hg a3 (.add' (.mul' b3 (hdc _ hr)) (.mul R hg' c3 (hdc _ ht)))) (.mul R hg a4 (.add' (.mul' b4 (hdc _ hr)) (.mul R hg' c4 (hdc _ ht))))
        have hinv : Gd s f ε ⟨-2, 0, false⟩ (R.div 1 x) (R.div 1 y) := .div R rfl (.num 1) hAc
        rw [h1.row, h2.row, h3.row]
        have dot : ∀ {g k : Dg} {P P' : Fin 3 → Fin 3 → ℝ} {e e' : Fin 3 → ℝ}, g * k = .P → (∀ i j, Gd s f ε g (P i j) (P' i j)) → (∀ i, Gd s f ε k (e i) (e' i)) → ∀ i,
            Gd s f ε .P (R.dot3 P e i) (R.dot3 P' e' i) := fun hg hP he i =>
          .add' (.add' (.mul R hg (hP i 0) (he 0)) (.mul R hg (hP i 1) (he 1))) (.mul R hg (hP i 2) (he 2))
        have vec : ∀ {g : Dg} {x y z x' y' z' : ℝ}, Gd s f ε g x x' → Gd s f ε g y y' → Gd s f ε g z z' → ∀ i, Gd s f ε g ((![x, y, z] : Fin 3 → ℝ) i) ((![x', y', z'] : Fin 3 → ℝ) i) := by
          intro g x y z x' y' z' hx hy hz i
          fin_cases i
          · exact hx
          · exact hy
          · exact hz
        have lt : (0:ℕ) < 5 ∧ (1:ℕ) < 5 ∧ (3:ℕ) < 5 ∧ (4:ℕ) < 5 := by omega
        obtain ⟨t0, t1, t3, t4⟩ := lt
        cases hip with
        | nil =>
          dsimp only
          have a1 := hL h1.le; have a2 := hL h2.le; have a3 := hL h3.le
          have b1 := hN h1.nx; have b2 := hN h2.nx; have b3 := hN h3.nx
          have c1 := hN h1.ny; have c2 := hN h2.ny; have c3 := hN h3.ny
          have z : ∀ g, Gd s f ε g 0 0 := fun g => .zero g
          have hn := fun (f1 f2 f3 f4 : List ℝ) (i : Fin 3) => (dot (g := .P) (k := 1) rfl hA (vec (Gd.mul R rfl hinv (key (g := .A) f1 f2 f3 f4 t0 rfl a1 a2 a3 (z _) b1 b2 b3 (z _)))
            (Gd.mul R rfl hinv (key (g := .A) f1 f2 f3 f4 t1 rfl a1 a2 a3 (z _) c1 c2 c3 (z _)))
            (Gd.mul R rfl hinv (key2 (g := .A) f1 f2 f3 f4 t0 t1 rfl rfl a1 a2 a3 (z _) c1 c2 c3 (z _) b1 b2 b3 (z _)))) i).add' (R := R)
            (dot (g := .F) (k := ⟨-1, 0, false⟩) rfl hB (vec (Gd.mul R rfl hinv (key (g := .L) f1 f2 f3 f4 t3 rfl a1 a2 a3 (z _) b1 b2 b3 (z _)))
            (Gd.mul R rfl hinv (key (g := .L) f1 f2 f3 f4 t4 rfl a1 a2 a3 (z _) c1 c2 c3 (z _)))
            (Gd.mul R rfl hinv (key2 (g := .L) f1 f2 f3 f4 t3 t4 rfl rfl a1 a2 a3 (z _) c1 c2 c3 (z _) b1 b2 b3 (z _)))) i)
          constructor <;> (first | exact rfl | exact Gd.num _ | exact hAc | exact a1 | exact a2 | exact a3 | exact b1 | exact b2 | exact b3 | exact c1 | exact c2 | exact c3 | exact Gd.zero _ | exact hn _ _ _ _ 0 | exact hn _ _ _ _ 1 | exact hn _ _ _ _ 2)
        | cons h4 _ =>
          dsimp only
          rw [h4.row]
          have a1 := hL h1.le; have a2 := hL h2.le; have a3 := hL h3.le; have a4 := hL h4.le
          have b1 := hN h1.nx; have b2 := hN h2.nx; have b3 := hN h3.nx; have b4 := hN h4.nx
          have c1 := hN h1.ny; have c2 := hN h2.ny; have c3 := hN h3.ny; have c4 := hN h4.ny
          have hn := fun (f1 f2 f3 f4 : List ℝ) (i : Fin 3) => (dot (g := .P) (k := 1) rfl hA (vec (Gd.mul R rfl hinv (key (g := .A) f1 f2 f3 f4 t0 rfl a1 a2 a3 a4 b1 b2 b3 b4))
            (Gd.mul R rfl hinv (key (g := .A) f1 f2 f3 f4 t1 rfl a1 a2 a3 a4 c1 c2 c3 c4))
            (Gd.mul R rfl hinv (key2 (g := .A) f1 f2 f3 f4 t0 t1 rfl rfl a1 a2 a3 a4 c1 c2 c3 c4 b1 b2 b3 b4))) i).add' (R := R)
            (dot (g := .F) (k := ⟨-1, 0, false⟩) rfl hB (vec (Gd.mul R rfl hinv (key (g := .L) f1 f2 f3 f4 t3 rfl a1 a2 a3 a4 b1 b2 b3 b4))
            (Gd.mul R rfl hinv (key (g := .L) f1 f2 f3 f4 t4 rfl a1 a2 a3 a4 c1 c2 c3 c4))
            (Gd.mul R rfl hinv (key2 (g := .L) f1 f2 f3 f4 t3 t4 rfl rfl a1 a2 a3 a4 c1 c2 c3 c4 b1 b2 b3 b4))) i)
          constructor <;> (first | exact rfl | exact Gd.num _ | exact hAc | exact a1 | exact a2 | exact a3 | exact a4 | exact b1 | exact b2 | exact b3 | exact b4 | exact c1 | exact c2 | exact c3 | exact c4 | exact hn _ _ _ _ 0 | exact hn _ _ _ _ 1 | exact hn _ _ _ _ 2)
      · split
        · exact .error _
        · exact .error _
  · exact .error _

theorem kGEdge_unit (h : UnitMesh s f ε m m') {d d' : List ℝ} (hd : GDisp s f ε d d') (pn : Bool) (k : Key) {M M' : Mat} (hM : GMat s f ε entryDg M M') :
    (R.kGEdge m' d' pn M' k).2 = (R.kGEdge m d pn M k).2 ∧ GMat s f ε entryDg (R.kGEdge m d pn M k).1 (R.kGEdge m' d' pn M' k).1 := by
  have he := R.kGEnv_unit h hd pn (h.edge k)
  unfold kGEdge
  generalize R.kGEnv m d pn (m.edge k) = a at he ⊢
  generalize R.kGEnv m' d' pn (m'.edge k) = b at he ⊢
  cases he with
  | error e => exact ⟨rfl, hM⟩
  | ok he =>
    dsimp only
    obtain ⟨L, l1, l2, l3⟩ := kGEntries_graded (R := R) he
    rw [← l1, ← l2]
    exact R.addAll_graded L hM l3

theorem calcKG_unit (h : UnitMesh s f ε m m') {d d' : List ℝ} (hd : GDisp s f ε d d') (pn : Bool) :
    ERel (GMat s f ε entryDg) (R.calcKG m d pn) (R.calcKG m' d' pn) := by
  unfold calcKG
  rw [h.ekeys, hd.1]
  obtain ⟨k1, k2⟩ := matLoop_graded (F := R.kGEdge m d pn) (F' := R.kGEdge m' d' pn) (fun k M M' hM => R.kGEdge_unit h hd pn k hM) m.ekeys
    (zeros_graded (s := s) (f := f) (ε := ε) (d.length / 5) entryDg)
  generalize matLoop (R.kGEdge m d pn) _ _ = x at k1 k2 ⊢
  generalize matLoop (R.kGEdge m' d' pn) _ _ = y at k1 k2 ⊢
  obtain ⟨x1, x2⟩ := x
  obtain ⟨y1, y2⟩ := y
  dsimp only at k1 k2
  subst k1
  rcases y2 with _ | e
  · exact .ok k2
  · exact .error _

end Rounding
end Meshless
