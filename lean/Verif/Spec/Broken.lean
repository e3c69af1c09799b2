import Verif.Spec.Energy
import Verif.Spec.Solver

/-! # Slopes of the fibers

Nodes are numbered along the fibers: the beams join nodes `i` and `i + 1` of the same fiber. -/

namespace Fibermat.Spec
variable {K : Type} [Field K] [LinearOrder K]

open Classical in
/-- Slope of the displacement `u` of the fiber just after node `i`, for beams of lengths `L`; zero beyond its last node. -/
noncomputable def slopeAfter (rows : List (MeshRow K)) (L u : ℕ → K) (i : ℕ) : K :=
  if SameFiber rows i (i + 1) then (u (2 * (i + 1)) - u (2 * i)) / L i else 0

/-- Slope just before node `i`; zero before the first node of the fiber. -/
noncomputable def slopeBefore (rows : List (MeshRow K)) (L u : ℕ → K) : ℕ → K
  | 0 => 0
  | i + 1 => slopeAfter rows L u i

/-- Node `m` touches nothing: neither a plate nor the node it is paired with is within `tol`, in the displacement `u` with the plate at height `Z`. -/
def Untouched (mat : Mat K) (rows : List (MeshRow K)) (tol Z : K) (u : ℕ → K) (m : ℕ) : Prop :=
  ∀ i j, IsPair rows i j →
    (m = i → tol < floorGap mat rows u i) ∧ (m = j → tol < roofGap mat rows Z u j) ∧
      (m = i ∨ m = j → i ≠ j → tol < pairGap mat rows u i j)

end Fibermat.Spec
