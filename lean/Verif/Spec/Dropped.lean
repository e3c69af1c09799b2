import Verif.Spec.Solver

/-! # Points of the fibers of a mesh (C116) -/

namespace Fibermat.Spec
variable {K : Type} [Field K] [LinearOrder K]

/-- Node `i` is on fiber `k`. -/
def OnFiber (rows : List (MeshRow K)) (k : Int) (i : ℕ) : Prop := ∃ r, rows[i]? = some r ∧ r.fiber = k

/-- Value at the fraction `c` of the way from node `i` to node `j`. -/
def between (y : ℕ → K) (i j : ℕ) (c : K) : K := (1 - c) * y i + c * y j

end Fibermat.Spec
