import Verif.Spec.Turn

/-! Vocabulary for comparing two plates on the same mesh. Only the data fields of `Mesh` are used. -/

set_option autoImplicit false

namespace Meshless.Spec

/-- `p'` is at least as stiff as `p`: it stores at least as much energy in every strain, and thickness, transverse shear moduli and correction factors are at
least as large -/
structure LamLe (p p' : Lam) : Prop where
  abd : ∀ e, lamProd p e e ≤ lamProd p' e e
  h : p.h ≤ p'.h
  k13 : p.k13 ≤ p'.k13
  k23 : p.k23 ≤ p'.k23
  e00 : p.E 0 0 ≤ p'.E 0 0
  e11 : p.E 1 1 ≤ p'.E 1 1

/-- `m'` is the mesh `m` with laminates that are at least as stiff -/
structure Stiffened (m m' : Mesh) : Prop extends LamRel LamLe id id m m' where
  nids : m'.nids = m.nids
  eids : m'.eids = m.eids
  ekeys : m'.ekeys = m.ekeys
  corner : ∀ e, (m'.tria e).n1 = (m.tria e).n1 ∧ (m'.tria e).n2 = (m.tria e).n2 ∧ (m'.tria e).n3 = (m.tria e).n3
  xyz : ∀ i, (m'.node i).xyz = (m.node i).xyz
  etrias : ∀ k, (m'.edge k).trias = (m.edge k).trias

end Meshless.Spec
