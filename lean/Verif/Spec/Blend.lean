import Verif.Spec.Compare
import Verif.Spec.Modes
import Verif.Spec.Buckling

/-! Vocabulary for laminates between two laminates: stiffnesses that are interpolated linearly, as a laminate optimisation does. Only the data fields of `Mesh` are used. -/

set_option autoImplicit false

namespace Meshless.Spec

/-- the stiffnesses of `r` lie at `t` on the line from those of `p` to those of `q`; thickness and correction factors are the same -/
structure Blend (t : ℝ) (p q r : Lam) : Prop where
  A : ∀ i j, r.A i j = (1 - t) * p.A i j + t * q.A i j
  B : ∀ i j, r.B i j = (1 - t) * p.B i j + t * q.B i j
  D : ∀ i j, r.D i j = (1 - t) * p.D i j + t * q.D i j
  E : ∀ i j, r.E i j = (1 - t) * p.E i j + t * q.E i j
  h : r.h = p.h ∧ q.h = p.h
  k13 : r.k13 = p.k13 ∧ q.k13 = p.k13
  k23 : r.k23 = p.k23 ∧ q.k23 = p.k23

/-- the same for assigned laminates, if any -/
def PropBlend (t : ℝ) (o0 o1 o : Option Lam) : Prop := (o0 = none ∧ o1 = none ∧ o = none) ∨ ∃ p q r, o0 = some p ∧ o1 = some q ∧ o = some r ∧ Blend t p q r

/-- `m'` has the nodes, triangles, edges and coordinates of `m` -/
structure SameMesh (m m' : Mesh) : Prop where
  nids : m'.nids = m.nids
  eids : m'.eids = m.eids
  ekeys : m'.ekeys = m.ekeys
  corner : ∀ e, (m'.tria e).n1 = (m.tria e).n1 ∧ (m'.tria e).n2 = (m.tria e).n2 ∧ (m'.tria e).n3 = (m.tria e).n3
  xyz : ∀ i, (m'.node i).xyz = (m.node i).xyz
  etrias : ∀ k, (m'.edge k).trias = (m.edge k).trias

/-- The three plates `m0`, `m1` and `m` have the same mesh, and the laminates of `m` read with the flag lie at `t` between those of `m0` and `m1`. -/
structure Between (t : ℝ) (pn : Bool) (m0 m1 m : Mesh) : Prop where
  one : SameMesh m0 m1
  mid : SameMesh m0 m
  nprop : pn = true → ∀ i ∈ m0.nids, PropBlend t (m0.node i).prop (m1.node i).prop (m.node i).prop
  tprop : pn = false → ∀ e ∈ m0.eids, PropBlend t (m0.tria e).prop (m1.tria e).prop (m.tria e).prop

end Meshless.Spec
