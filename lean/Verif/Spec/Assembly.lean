import Verif.Spec.MeshInit
import Verif.Spec.Frames
import Verif.Model.Coo
import Mathlib.Algebra.BigOperators.Group.Finset.Basic

/-! # Specification of the assembled matrices

Displacements: component `2 i` is the vertical displacement of node `i`, component `2 i + 1` its rotation. -/

namespace Fibermat.Spec
variable {K : Type} [Field K] [LinearOrder K]

/-- `M` is the table of the entries of a matrix, which are all finite. -/
def Entries (Km : Coo (Cell K)) (M : ℕ → ℕ → K) : Prop := ∀ r c, Km.get r c = .fin (M r c)

/-- The quadratic form `u . M . u` over the first `N` indices. -/
def energy (N : ℕ) (M : ℕ → ℕ → K) (u : ℕ → K) : K :=
  ∑ r ∈ Finset.range N, ∑ c ∈ Finset.range N, u r * M r c * u c

/-- All tensile moduli are finite. -/
def FiniteTensile (mat : Mat K) : Prop := ∀ f ∈ mat.fibers, f.E ≠ ⊤

/-- Each node of the mesh is on a fiber of the mat. -/
def OverFibers (mat : Mat K) (rows : List (MeshRow K)) : Prop :=
  ∀ r ∈ rows, 0 ≤ r.fiber ∧ r.fiber < mat.fibers.length

/-- Node `i` starts a beam. -/
def StartsBeam (rows : List (MeshRow K)) (i : ℕ) : Prop := ∃ r, rows[i]? = some r ∧ (i : Int) < r.beam

/-- The beams have positive lengths: bounds `lmin`, `lmax` when given are positive; without `lmin`, the distances between
successive nodes of the mesh are positive; without `lmax`, at least one of them is. -/
structure PositiveLengths (rows : List (MeshRow K)) (lmin lmax : Option K) : Prop where
  lo : ∀ a, lmin = some a → 0 < a
  hi : ∀ a, lmax = some a → 0 < a
  raw : lmin = none → ∀ i, StartsBeam rows i → 0 < beamLength rows i
  top : lmax = none → (∃ i, StartsBeam rows i) → ∃ i, StartsBeam rows i ∧ 0 < beamLength rows i

/-- Two nodes are on the same fiber. -/
def SameFiber (rows : List (MeshRow K)) (i j : ℕ) : Prop :=
  ∃ r p, rows[i]? = some r ∧ rows[j]? = some p ∧ r.fiber = p.fiber

/-- Node `i` is an end of some beam. -/
def OnBeam (rows : List (MeshRow K)) (i : ℕ) : Prop :=
  StartsBeam rows i ∨ ∃ k, StartsBeam rows k ∧ succNode rows k = i

end Fibermat.Spec

namespace Fibermat.Spec
variable {K : Type} [Field K] [LinearOrder K]

/-- Thickness of the fiber of node `i`. -/
def nodeThick (mat : Mat K) (rows : List (MeshRow K)) (i : ℕ) : K :=
  ((rows[i]?).bind (fun r => (mat.fibers[r.fiber.toNat]?).map (·.h))).getD 0

/-- Initial height of node `i`. -/
def nodeHeight (rows : List (MeshRow K)) (i : ℕ) : K := ((rows[i]?).map (·.z)).getD 0

/-- `Z` is the height of the top of the highest node. -/
def IsTop (mat : Mat K) (rows : List (MeshRow K)) (Z : K) : Prop :=
  (∃ i, i < rows.length ∧ Z = nodeHeight rows i + nodeThick mat rows i / 2) ∧
    ∀ i, i < rows.length → nodeHeight rows i + nodeThick mat rows i / 2 ≤ Z

/-- Nodes displaced vertically by `u (2 i)` between two plates at heights `0` and `Z`: each node is at least half a
thickness away from the plates, and two connected nodes (the one listed first below) at least half the sum of their
thicknesses apart. -/
structure NonPenetrating (mat : Mat K) (rows : List (MeshRow K)) (Z : K) (u : ℕ → K) : Prop where
  floor : ∀ i, i < rows.length → nodeThick mat rows i / 2 ≤ nodeHeight rows i + u (2 * i)
  roof : ∀ i, i < rows.length → nodeHeight rows i + u (2 * i) ≤ Z - nodeThick mat rows i / 2
  pair : ∀ (i j : ℕ) (r : MeshRow K), rows[i]? = some r → r.constraint = (j : Int) → i < j →
    (nodeThick mat rows i + nodeThick mat rows j) / 2 ≤
      (nodeHeight rows j + u (2 * j)) - (nodeHeight rows i + u (2 * i))

/-- Product of row `k` of a matrix with a vector. -/
def rowDot (C : Coo K) (k : ℕ) (u : ℕ → K) : K := ∑ s ∈ Finset.range C.ncols, C.get k s * u s

end Fibermat.Spec
