import Verif.Spec.Checks
import Mathlib.Algebra.BigOperators.Group.Finset.Basic
import Mathlib.Data.Finset.Card

/-! # Specification of the mesh of a net -/

namespace Fibermat.Spec
variable {K : Type}

/-- A mesh node carrying the A end of a net row. -/
structure IsEndA (r : NetRow K) (a : MeshRow K) : Prop where
  fiber : a.fiber = r.A
  s : a.s = r.sA
  x : a.x = r.xA
  y : a.y = r.yA
  z : a.z = r.zA

/-- A mesh node carrying the B end of a net row. -/
structure IsEndB (r : NetRow K) (a : MeshRow K) : Prop where
  fiber : a.fiber = r.B
  s : a.s = r.sB
  x : a.x = r.xB
  y : a.y = r.yB
  z : a.z = r.zB

/-- `place` tells where the two ends of each net row are in the mesh: end A of row `k` is node
`place (2 k)`, end B is node `place (2 k + 1)`; all nodes are obtained, each once; ends of the same
row are constrained to each other, except that on one fiber each is constrained to itself. -/
structure Placement (net : List (NetRow K)) (rows : List (MeshRow K)) (place : Nat → Nat) : Prop where
  count : rows.length = 2 * net.length
  inRange : ∀ q, q < 2 * net.length → place q < rows.length
  inj : ∀ p q, p < 2 * net.length → q < 2 * net.length → place p = place q → p = q
  endA : ∀ k r, net[k]? = some r → ∃ a, rows[place (2 * k)]? = some a ∧ IsEndA r a ∧
    a.constraint = ((if r.A = r.B then place (2 * k) else place (2 * k + 1) : Nat) : Int)
  endB : ∀ k r, net[k]? = some r → ∃ b, rows[place (2 * k + 1)]? = some b ∧ IsEndB r b ∧
    b.constraint = ((if r.A = r.B then place (2 * k + 1) else place (2 * k) : Nat) : Int)

end Fibermat.Spec

namespace Fibermat.Spec
variable {K : Type}

/-- Labels of the nodes of fiber `k`. -/
noncomputable def nodesOf (rows : List (MeshRow K)) (k : Int) : Finset ℕ :=
  open Classical in (Finset.range rows.length).filter (fun i => ∃ r, rows[i]? = some r ∧ r.fiber = k)

/-- Labels of the beam elements of fiber `k`: those nodes whose successor has a larger label. -/
noncomputable def beamsOf (rows : List (MeshRow K)) (k : Int) : Finset ℕ :=
  open Classical in (nodesOf rows k).filter (fun i => ∃ r, rows[i]? = some r ∧ (i : Int) < r.beam)

/-- Abscissa of node `i`. -/
def abscissa [Zero K] (rows : List (MeshRow K)) (i : ℕ) : K := ((rows[i]?).map (·.s)).getD 0

/-- Successor of node `i`. -/
def succNode (rows : List (MeshRow K)) (i : ℕ) : ℕ := ((rows[i]?).map (·.beam.toNat)).getD 0

/-- Length of the beam starting at node `i`. -/
def beamLength [Zero K] [Sub K] (rows : List (MeshRow K)) (i : ℕ) : K := abscissa rows (succNode rows i) - abscissa rows i

end Fibermat.Spec
