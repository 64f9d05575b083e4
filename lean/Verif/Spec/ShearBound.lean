import Verif.Spec.Bound
import Verif.Spec.FloatRun

/-! Vocabulary for the explicit error bound of `add_k0s` in double precision (C156, C157). -/

set_option autoImplicit false

namespace Meshless.Spec

/-- shear correction factors up to 1, transverse shear moduli up to `g`, a thickness between 2^-100 and 2^100 -/
structure Lam.ShearUpTo (p : Lam) (g : ℝ) : Prop where
  k13 : |p.k13| ≤ 1
  k23 : |p.k23| ≤ 1
  E0 : |p.E 0 0| ≤ g
  E1 : |p.E 1 1| ≤ g
  h : Medium p.h

/-- the laminates `add_k0s` uses have shear moduli up to `g` -/
def ShearsUpTo (m : Mesh) (pn : Bool) (g : ℝ) : Prop :=
  if pn then ∀ e ∈ m.eids, ∀ i, IsCorner m e i → ∀ p, (m.node i).prop = some p → Lam.ShearUpTo p g
  else ∀ e ∈ m.eids, ∀ p, (m.tria e).prop = some p → Lam.ShearUpTo p g

/-- the triangle `t` has a diameter of at most `l` in both coordinates and an area of at least `σ l²` -/
structure SizedAt (m : Mesh) (σ l : ℝ) (t : ℕ) : Prop where
  near : ∀ i j, IsCorner m t i → IsCorner m t j → |nx m i - nx m j| ≤ l ∧ |ny m i - ny m j| ≤ l
  area : σ * l ^ 2 ≤ triArea m t

/-- every triangle has a length of medium size, at most `L`, that it fits -/
def Sized (m : Mesh) (σ L : ℝ) : Prop := ∀ t ∈ m.eids, ∃ l, Medium l ∧ l ≤ L ∧ SizedAt m σ l t

/-- as `Sized`, with coordinates up to `G l` as well -/
def FitsIn (m : Mesh) (σ G L : ℝ) : Prop := ∀ t ∈ m.eids, ∃ l, Medium l ∧ l ≤ L ∧ FitsAt m σ G l t

/-- a number between 2^-400 and 2^400 -/
def Wide (x : ℝ) : Prop := (2:ℝ) ^ (-400 : ℤ) ≤ x ∧ x ≤ 2 ^ (400 : ℤ)

/-- the size of the increments of `add_k0s` for the freedoms of a row and a column (2: w; 3: phix, 4: phiy): shear moduli up to `g`, triangles of diameter up to `L`,
one length for each rotation -/
def shearUnit (g L : ℝ) (r s : ℕ) : ℝ := g * (if r = 2 then 1 else L) * (if s = 2 then 1 else L)

open Classical in
/-- the number of triangles that contribute to the entry for the freedoms `r` and `s` of the nodes `i` and `j`: those with both nodes as corners, none for the
freedoms u and v -/
noncomputable def shearCount (m : Mesh) (i j r s : ℕ) : ℕ := if r < 2 ∨ s < 2 then 0 else m.eids.countP fun e => IsCorner m e i ∧ IsCorner m e j

/-- the entries of the exact matrix `K` are up to `P k` and those of the computed matrix `F` are numbers within `P e / 2^53` of them; `P`, `k` and `e` depend on the
freedoms and the nodes of the row and the column -/
def MatWithin (m : Mesh) (K : Mat) (F : FMat) (P : ℕ → ℕ → ℝ) (k e : ℕ → ℕ → ℕ → ℕ → ℝ) : Prop :=
  K.dim = m.nids.length * 5 ∧ F.dim = m.nids.length * 5 ∧ ∀ i ∈ m.nids, ∀ j ∈ m.nids, ∀ r < 5, ∀ s < 5,
    ∃ x, F.get (5 * m.nids.idxOf i + r) (5 * m.nids.idxOf j + s) = .fin x ∧ |K.get (5 * m.nids.idxOf i + r) (5 * m.nids.idxOf j + s)| ≤ P r s * k i j r s ∧
      |x - K.get (5 * m.nids.idxOf i + r) (5 * m.nids.idxOf j + s)| ≤ P r s * e i j r s / 2 ^ 53

/-- Both exactly and in the format `f`, `add_k0s` succeeds on the matrices `K` and `F`. Where the entries before are up to `P k` with errors up to `P e / 2^53` and `n`
triangles contribute, those after are up to `P (k + nM)` with errors up to `P (2e + 2n(E + k + nM + 1)) / 2^53`. -/
def ShearWithin (f : Fmt) (m : Mesh) (G : Key → Geo) (pn : Bool) (method : String) (al : ℝ) (fa : Bool) (P : ℕ → ℕ → ℝ) (E M : ℝ) : Prop :=
  ∀ K F k e, MatWithin m K F P k e → (∀ i j r s, 0 ≤ k i j r s ∧ k i j r s ≤ 2 ^ 200 ∧ 0 ≤ e i j r s ∧ e i j r s ≤ 2 ^ 200) →
    ∃ K' F', addK0s K m pn method al fa = (K', none) ∧ f.addK0s F m G pn method al fa = (F', none) ∧
      MatWithin m K' F' P (fun i j r s => k i j r s + shearCount m i j r s * M)
        (fun i j r s => 2 * e i j r s + 2 * shearCount m i j r s * (E + k i j r s + shearCount m i j r s * M + 1))

/-- Both exactly and in the format `f`, `calc_k0` followed by `add_k0s` succeeds. The entries of the results are bounded as in `K0Within` and `ShearWithin`: where `n0`
edges and `n` triangles contribute, the exact entry is up to `P (4 n0 M0 + nM)` and the error up to `P (16 n0 (E0 + 4 n0 M0 + 1) + 2n(E + 4 n0 M0 + nM + 1)) / 2^53`. -/
def StiffWithin (f : Fmt) (m : Mesh) (pn : Bool) (method : String) (al : ℝ) (fa : Bool) (P : ℕ → ℕ → ℝ) (E0 M0 E M : ℝ) : Prop :=
  ∃ K F, Assembled m pn method al fa K ∧ FmtAssembled f m pn method al fa F ∧
    MatWithin m K F P (fun i j r s => 4 * contributions m i j * M0 + shearCount m i j r s * M)
      (fun i j r s => 16 * contributions m i j * (E0 + 4 * contributions m i j * M0 + 1) +
        2 * shearCount m i j r s * (E + 4 * contributions m i j * M0 + shearCount m i j r s * M + 1))

end Meshless.Spec
