import Verif.Spec.Ieee

/-! Vocabulary for the explicit error bound of `calc_k0` in double precision (C153). -/

set_option autoImplicit false

namespace Meshless.Spec

/-- a number format at least as fine and as wide as float64: relative error at most 2^-53, absolute error at most 2^-1074, finite up to 2^1023 -/
class Double (f : Fmt) : Prop where
  u : f.u ≤ (2:ℝ) ^ (-53 : ℤ)
  eta : f.eta ≤ (2:ℝ) ^ (-1074 : ℤ)
  big : (2:ℝ) ^ (1023 : ℤ) ≤ f.big

/-- a number between 2^-100 and 2^100 -/
def Medium (x : ℝ) : Prop := (2:ℝ) ^ (-100 : ℤ) ≤ x ∧ x ≤ 2 ^ (100 : ℤ)

/-- the triangle `t` has a diameter of at most `l` in both coordinates, an area of at least `σ l²` and coordinates up to `G l` -/
structure FitsAt (m : Mesh) (σ G l : ℝ) (t : ℕ) : Prop where
  near : ∀ i j, IsCorner m t i → IsCorner m t j → |nx m i - nx m j| ≤ l ∧ |ny m i - ny m j| ≤ l
  area : σ * l ^ 2 ≤ triArea m t
  coord : ∀ i, IsCorner m t i → |nx m i| ≤ G * l ∧ |ny m i| ≤ G * l ∧ |(m.node i).xyz.z| ≤ G * l

/-- around every edge there is a length of medium size that its triangles fit -/
def Fits (m : Mesh) (σ G : ℝ) : Prop := ∀ k ∈ m.ekeys, ∃ l, Medium l ∧ ∀ t ∈ (m.edge k).trias, FitsAt m σ G l t

/-- the entries of a laminate are at most `a` (matrix A), `b` (matrix B), `d` (matrix D) -/
def Lam.UpTo (p : Lam) (a b d : ℝ) : Prop := ∀ i j, |p.A i j| ≤ a ∧ |p.B i j| ≤ b ∧ |p.D i j| ≤ d

/-- the laminates `calc_k0` uses have entries up to `a`, `b`, `d` -/
def LamsUpTo (m : Mesh) (pn : Bool) (a b d : ℝ) : Prop :=
  if pn then ∀ e ∈ m.eids, ∀ i, IsCorner m e i → ∀ p, (m.node i).prop = some p → Lam.UpTo p a b d
  else ∀ e ∈ m.eids, ∀ p, (m.tria e).prop = some p → Lam.UpTo p a b d

/-- the laminate matrix behind an entry of k0, from the freedoms of its row and column (0: u, 1: v; 3: phix, 4: phiy): A, B or D -/
def behind (a b d : ℝ) (r s : ℕ) : ℝ := if r < 2 then (if s < 2 then a else b) else (if s < 2 then b else d)

open Classical in
/-- the number of edges that contribute to the entries of k0 for the nodes `i` and `j` -/
noncomputable def contributions (m : Mesh) (i j : ℕ) : ℕ := m.ekeys.countP fun k => WritesK0 m k i ∧ WritesK0 m k j

/-- In the format `f`, `calc_k0` returns a matrix of finite numbers. Where `n` edges contribute to an entry and `p` bounds the laminate matrix behind it, the
entry is within `p * 8n(E + 4nM + 1) / 2^53` of the exact one. -/
def K0Within (f : Fmt) (m : Mesh) (pn : Bool) (a b d E M : ℝ) : Prop :=
  ∃ K F, (calcK0 m pn).2 = .ok K ∧ (f.calcK0 m pn).2.2 = .ok F ∧ F.dim = K.dim ∧
    ∀ i ∈ m.nids, ∀ j ∈ m.nids, ∀ r < 5, ∀ s < 5, ∃ x, F.get (5 * m.nids.idxOf i + r) (5 * m.nids.idxOf j + s) = .fin x ∧
      |x - K.get (5 * m.nids.idxOf i + r) (5 * m.nids.idxOf j + s)| ≤
        behind a b d r s * (8 * contributions m i j * (E + 4 * contributions m i j * M + 1)) / 2 ^ 53

/-- the distance allowed in `K0Within`, from the positions in the matrix -/
noncomputable def k0Err (m : Mesh) (a b d E M : ℝ) (p q : ℕ) : ℝ :=
  behind a b d (p % 5) (q % 5) * (8 * contributions m (m.nids.getD (p / 5) 0) (m.nids.getD (q / 5) 0) *
    (E + 4 * contributions m (m.nids.getD (p / 5) 0) (m.nids.getD (q / 5) 0) * M + 1)) / 2 ^ 53

/-- the entries of `F` are the finite numbers `X` -/
def HasEntries (F : FMat) (X : ℕ → ℕ → ℝ) : Prop := ∀ i < F.dim, ∀ j < F.dim, F.get i j = .fin (X i j)

end Meshless.Spec
