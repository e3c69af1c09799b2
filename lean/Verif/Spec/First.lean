import Verif.Spec.Solver

/-! # Specification of the end of a step: the first open gap to close (C137) -/

namespace Fibermat.Spec
variable {K : Type} [Field K] [LinearOrder K]

/-- Some gap is open (wider than `tol`) when the plate is at `Z` and the displacements are `u`, and exactly closed when the plate is
at `Z'` and the displacements are `u'`. -/
def NewlyClosed (mat : Mat K) (rows : List (MeshRow K)) (tol Z : K) (u : ℕ → K) (Z' : K) (u' : ℕ → K) : Prop :=
  ∃ i j, IsPair rows i j ∧ ((tol < floorGap mat rows u i ∧ floorGap mat rows u' i = 0) ∨
    (i ≠ j ∧ tol < pairGap mat rows u i j ∧ pairGap mat rows u' i j = 0) ∨
    (tol < roofGap mat rows Z u j ∧ roofGap mat rows Z' u' j = 0))

/-- All the gaps which are open in the first state are still wider than 0 in the second one. -/
def StillOpen (mat : Mat K) (rows : List (MeshRow K)) (tol Z : K) (u : ℕ → K) (Z' : K) (u' : ℕ → K) : Prop :=
  ∀ i j, IsPair rows i j → (tol < floorGap mat rows u i → 0 < floorGap mat rows u' i) ∧
    (i ≠ j → tol < pairGap mat rows u i j → 0 < pairGap mat rows u' i j) ∧
    (tol < roofGap mat rows Z u j → 0 < roofGap mat rows Z' u' j)

end Fibermat.Spec
