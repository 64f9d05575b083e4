import Verif.Model.FloatRun
import Mathlib.Tactic.Ring

/-! With the identity as rounding rule the rounded functions are the exact ones. -/

set_option autoImplicit false

namespace Meshless
namespace Rounding

theorem exact_k0Entries (e : K0Env ℝ) : k0Entries (K := Fl exact) e = k0Entries (K := ℝ) e := rfl
theorem exact_kGEntries (e : KGEnv ℝ) : kGEntries (K := Fl exact) e = kGEntries (K := ℝ) e := rfl
theorem exact_cellSEntries (e : CellSEnv ℝ) : cellSEntries (K := Fl exact) e = cellSEntries (K := ℝ) e := rfl
theorem exact_cellNSEntries (e : CellNSEnv ℝ) : cellNSEntries (K := Fl exact) e = cellNSEntries (K := ℝ) e := rfl
theorem exact_edgeBEntries (e : EdgeBEnv ℝ) : edgeBEntries (K := Fl exact) e = edgeBEntries (K := ℝ) e := rfl
theorem exact_edgeIEntries (e : EdgeIEnv ℝ) : edgeIEntries (K := Fl exact) e = edgeIEntries (K := ℝ) e := rfl

theorem exact_fl (x : ℝ) : exact.fl x = x := rfl
theorem exact_vnorm (a : Vec3) : exact.vnorm a = a.norm := by
  show Real.sqrt _ = Real.sqrt _
  congr 1
  show a.x * a.x + a.y * a.y + a.z * a.z = _
  ring
theorem exact_unit (a : Vec3) : exact.unit a = unitvec a := by unfold unit unitvec; rw [exact_vnorm]; rfl
theorem exact_areaOfPolygon (x y : List ℝ) : exact.areaOfPolygon x y = Meshless.areaOfPolygon x y := rfl
theorem exact_polyArea (p : List Vec3) : exact.polyArea p = Meshless.polyArea p := rfl
theorem exact_mid (m : Mesh) (e : ℕ) : exact.mid m e = m.mid e := rfl
theorem exact_vsub (a b : Vec3) : exact.vsub a b = a.sub b := rfl
theorem exact_segNormal (a : Vec3) : exact.segNormal a = Meshless.segNormal a := by
  unfold segNormal Meshless.segNormal; rw [exact_unit]; rfl
theorem exact_triaArea (m : Mesh) (e : ℕ) : exact.triaArea m e = m.triaArea e := by
  show exact.div (exact.vnorm _) 2 = _; rw [exact_vnorm]; rfl
theorem exact_orient (m : Mesh) (p : Vec3) (a b : ℕ) : exact.orient m p a b = Meshless.orient m p a b := rfl
theorem exact_finishEdge (ed : Edge) (l : List Vec3) (q : List IPt) : exact.finishEdge ed l q = Meshless.finishEdge ed l q := rfl
theorem exact_iptsA (m : Mesh) (t a b c : ℕ) : exact.iptsA m t a b c = Meshless.iptsA m t a b c := by
  simp only [iptsA, Meshless.iptsA, exact_segNormal, exact_vnorm]; rfl
theorem exact_iptsB (m : Mesh) (t a b c : ℕ) : exact.iptsB m t a b c = Meshless.iptsB m t a b c := by
  simp only [iptsB, Meshless.iptsB, exact_segNormal, exact_vnorm]; rfl
theorem exact_iptsI (m : Mesh) (t a b c : ℕ) : exact.iptsI m t a b c = Meshless.iptsI m t a b c := by
  simp only [iptsI, Meshless.iptsI, exact_segNormal, exact_vnorm]; rfl
theorem exact_geomEdge (m : Mesh) (ed : Edge) : exact.geomEdge m ed = Meshless.geomEdge m ed := by
  simp only [geomEdge, Meshless.geomEdge, exact_iptsA, exact_iptsB, exact_iptsI, exact_orient, exact_mid, exact_finishEdge]; rfl
theorem exact_geomPass (m : Mesh) (l : List Key) : exact.geomPass m l = Meshless.geomPass m l := by
  induction l generalizing m with
  | nil => rfl
  | cons k ks ih => simp only [geomPass, Meshless.geomPass, exact_geomEdge, ih]; rfl
theorem exact_edgeProp (m : Mesh) (pn : Bool) (ed : Edge) (sel : Lam → Fin 3 → Fin 3 → ℝ) :
    exact.edgeProp m pn ed sel = Meshless.edgeProp m pn ed sel := rfl
theorem exact_k0Env (m : Mesh) (pn : Bool) (ed : Edge) : exact.k0Env m pn ed = Meshless.k0Env m pn ed := rfl
theorem exact_addAt (M : Mat) (r c : ℤ) (v : ℝ) : exact.addAt M r c v = M.addAt r c v := rfl
theorem exact_addAll (M : Mat) (l : List (ℤ × ℤ × ℝ)) : exact.addAll M l = M.addAll l := by
  induction l generalizing M with
  | nil => rfl
  | cons a l ih =>
    obtain ⟨r, c, v⟩ := a
    show (match exact.addAt M r c v with | .ok M' => exact.addAll M' l | .error e => (M, some e)) = _
    rw [exact_addAt, Mat.addAll]
    rcases M.addAt r c v with e | M'
    · rfl
    · exact ih M'
theorem exact_k0Edge (m : Mesh) (pn : Bool) : exact.k0Edge m pn = Meshless.k0Edge m pn := by
  funext K k
  simp only [k0Edge, Meshless.k0Edge, exact_k0Env]
  rcases Meshless.k0Env m pn (m.edge k) with e | env
  · rfl
  · exact exact_addAll K _
/-- `calc_k0` without rounding is the exact `calc_k0`. -/
theorem exact_calcK0 (m : Mesh) (pn : Bool) : exact.calcK0 m pn = Meshless.calcK0 m pn := by
  simp only [calcK0, Meshless.calcK0, exact_geomPass, exact_k0Edge]; rfl

theorem exact_kGEnv (m : Mesh) (d : List ℝ) (pn : Bool) (ed : Edge) : exact.kGEnv m d pn ed = Meshless.kGEnv m d pn ed := rfl
theorem exact_kGEdge (m : Mesh) (d : List ℝ) (pn : Bool) : exact.kGEdge m d pn = Meshless.kGEdge m d pn := by
  funext K k
  simp only [kGEdge, Meshless.kGEdge, exact_kGEnv]
  rcases Meshless.kGEnv m d pn (m.edge k) with e | env
  · rfl
  · exact exact_addAll K _
/-- `calc_kG` without rounding is the exact `calc_kG`. -/
theorem exact_calcKG (m : Mesh) (d : List ℝ) (pn : Bool) : exact.calcKG m d pn = Meshless.calcKG m d pn := by
  simp only [calcKG, Meshless.calcKG, exact_kGEdge]; rfl

theorem exact_cellShear (m : Mesh) (pn : Bool) (e a b c : ℕ) : exact.cellShear m pn e a b c = Meshless.cellShear m pn e a b c := rfl
theorem exact_edgeLen (m : Mesh) : exact.edgeLen m = Meshless.edgeLen m := by
  funext k; unfold edgeLen Meshless.edgeLen; rw [exact_vnorm]; rfl
theorem exact_cellMaxl (m : Mesh) (e : ℕ) (A : ℝ) (f : Bool) : exact.cellMaxl m e A f = Meshless.cellMaxl m e A f := by
  unfold cellMaxl Meshless.cellMaxl; rw [exact_edgeLen]; rfl
theorem exact_stab (a l h : ℝ) : exact.stab a l h = Meshless.stab a l h := by
  show 1 / (1 + a * (l * l) / (h * h)) = 1 / (1 + a * l ^ 2 / h ^ 2)
  rw [sq, sq]
theorem exact_cellOrient (m : Mesh) (e : ℕ) : exact.cellOrient m e = Meshless.cellOrient m e := rfl
theorem exact_cellNSOrient (m : Mesh) (e : ℕ) : exact.cellNSOrient m e = Meshless.cellNSOrient m e := rfl
theorem exact_cellSEnv (m : Mesh) (pn : Bool) (a : ℝ) (f : Bool) (e : ℕ) : exact.cellSEnv m pn a f e = Meshless.cellSEnv m pn a f e := by
  simp only [cellSEnv, Meshless.cellSEnv, exact_triaArea, exact_cellShear, exact_cellMaxl, exact_stab]; rfl
theorem exact_cellNSEnv (m : Mesh) (pn : Bool) (a : ℝ) (f : Bool) (e : ℕ) : exact.cellNSEnv m pn a f e = Meshless.cellNSEnv m pn a f e := by
  simp only [cellNSEnv, Meshless.cellNSEnv, exact_triaArea, exact_cellShear, exact_cellMaxl, exact_stab]; rfl
theorem exact_cellSTria (m : Mesh) (pn : Bool) (a : ℝ) (f : Bool) : exact.cellSTria m pn a f = Meshless.cellSTria m pn a f := by
  funext K e
  simp only [cellSTria, Meshless.cellSTria, exact_cellSEnv]
  rcases Meshless.cellSEnv m pn a f e with x | env
  · rfl
  · exact exact_addAll K _
theorem exact_cellNSTria (m : Mesh) (pn : Bool) (a : ℝ) (f : Bool) : exact.cellNSTria m pn a f = Meshless.cellNSTria m pn a f := by
  funext K e
  simp only [cellNSTria, Meshless.cellNSTria, exact_cellNSEnv]
  rcases Meshless.cellNSEnv m pn a f e with x | env
  · rfl
  · exact exact_addAll K _
theorem exact_edgeIMaxl (m : Mesh) (ed : Edge) (A : ℝ) (f : Bool) : exact.edgeIMaxl m ed A f = Meshless.edgeIMaxl m ed A f := by
  unfold edgeIMaxl Meshless.edgeIMaxl; rw [exact_vnorm]; rfl
theorem exact_edgeBModuli (sp : ShearProp) (a l : ℝ) : exact.edgeBModuli sp a l = Meshless.edgeBModuli sp a l := by
  unfold edgeBModuli Meshless.edgeBModuli; rw [exact_stab]; rfl
theorem exact_edgeIModuli (sp : ShearProp) (a l : ℝ) : exact.edgeIModuli sp a l = Meshless.edgeIModuli sp a l := by
  simp only [edgeIModuli, Meshless.edgeIModuli, sq]; rfl
theorem exact_edgeBShear (m : Mesh) (pn : Bool) (t a b c : ℕ) : exact.edgeBShear m pn t a b c = Meshless.edgeBShear m pn t a b c := rfl
theorem exact_edgeIShear (m : Mesh) (pn : Bool) (x y z : ℝ) (t s a b c d : ℕ) :
    exact.edgeIShear m pn x y z t s a b c d = Meshless.edgeIShear m pn x y z t s a b c d := rfl
theorem exact_edgeBMaxl (ed : Edge) (A : ℝ) (f : Bool) : exact.edgeBMaxl ed A f = Meshless.edgeBMaxl ed A f := rfl
theorem exact_edgeBEnv (m : Mesh) (pn : Bool) (a : ℝ) (f : Bool) (ed : Edge) (t p q : ℕ) :
    exact.edgeBEnv m pn a f ed t p q = Meshless.edgeBEnv m pn a f ed t p q := by
  simp only [edgeBEnv, Meshless.edgeBEnv, exact_edgeBShear, exact_edgeBMaxl, exact_edgeBModuli]; rfl
theorem exact_edgeIEnv (m : Mesh) (pn : Bool) (a : ℝ) (f : Bool) (ed : Edge) (t s p q : ℕ) :
    exact.edgeIEnv m pn a f ed t s p q = Meshless.edgeIEnv m pn a f ed t s p q := by
  simp only [edgeIEnv, Meshless.edgeIEnv, exact_edgeIShear, exact_edgeIMaxl, exact_edgeIModuli, exact_polyArea]; rfl
theorem exact_edgeOrient (m : Mesh) (ed : Edge) (t : ℕ) : exact.edgeOrient m ed t = Meshless.edgeOrient m ed t := rfl
theorem exact_edgeSEdge (m : Mesh) (pn : Bool) (a : ℝ) (f : Bool) : exact.edgeSEdge m pn a f = Meshless.edgeSEdge m pn a f := by
  funext K k
  simp only [edgeSEdge, Meshless.edgeSEdge, exact_edgeOrient, exact_edgeBEnv, exact_edgeIEnv]
  rcases (m.edge k).trias with _ | ⟨t, _ | ⟨s, _ | ⟨r, l⟩⟩⟩
  · rfl
  · dsimp only
    rcases Meshless.edgeBEnv m pn a f (m.edge k) t _ _ with x | env
    · rfl
    · exact exact_addAll K _
  · dsimp only
    rcases Meshless.edgeIEnv m pn a f (m.edge k) t s _ _ with x | env
    · rfl
    · exact exact_addAll K _
  · rfl
/-- `add_k0s` without rounding is the exact `add_k0s`. -/
theorem exact_addK0s (K : Mat) (m : Mesh) (pn : Bool) (method : String) (a : ℝ) (f : Bool) :
    exact.addK0s K m pn method a f = Meshless.addK0s K m pn method a f := by
  simp only [addK0s, Meshless.addK0s, addK0sCell, addK0sCellNS, addK0sEdge, exact_cellSTria, exact_cellNSTria, exact_edgeSEdge]

theorem exact_lagLoop (x : Val) (m : ℕ) (xm : ℝ) (l : List (ℝ × ℕ)) (fx : Val) :
    exact.lagLoop x m xm l fx = Meshless.lagLoop x m xm l fx := by
  induction l generalizing fx with
  | nil => rfl
  | cons a l ih => simp only [lagLoop, Meshless.lagLoop, ih]; rfl
theorem exact_interp2Inner (y : Val) (ys : List ℝ) (fld : ℕ → ℕ → ℝ) (fx : Val) (m : ℕ) (l : List (ℝ × ℕ)) (f : Val) :
    exact.interp2Inner y ys fld fx m l f = Meshless.interp2Inner y ys fld fx m l f := by
  induction l generalizing f with
  | nil => rfl
  | cons a l ih => simp only [interp2Inner, Meshless.interp2Inner, ih, exact_lagLoop]; rfl
theorem exact_interp2Outer (x y : Val) (xs ys : List ℝ) (fld : ℕ → ℕ → ℝ) (l : List (ℝ × ℕ)) (f : Val) :
    exact.interp2Outer x y xs ys fld l f = Meshless.interp2Outer x y xs ys fld l f := by
  induction l generalizing f with
  | nil => rfl
  | cons a l ih => simp only [interp2Outer, Meshless.interp2Outer, ih, exact_lagLoop, exact_interp2Inner]
/-- The 2-D interpolation without rounding is the exact one. -/
theorem exact_interp2 (x y : Val) (xs ys : List ℝ) (field : Arr) : exact.interp2 x y xs ys field = Meshless.interp2 x y xs ys field := by
  simp only [interp2, Meshless.interp2, exact_interp2Outer]; rfl

end Rounding
end Meshless
