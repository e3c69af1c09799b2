import Mathlib.Algebra.BigOperators.Group.Finset.Basic
import Mathlib.Algebra.Field.Defs

/-! # Specification of the load shown at a node -/

namespace Fibermat.Spec
variable {K : Type} [Field K]

/-- Load on node `i`, counted positive downwards. Connection `k` joins the lower node `(pairs k).1` and the upper node
`(pairs k).2`; its forces are `f (3 k)` between the floor and the lower node, `f (3 k + 1)` between the two nodes and
`f (3 k + 2)` between the upper node and the plate. A node is pushed down by what lies above it and up by what lies below. -/
def netLoad (pairs : List (ℕ × ℕ)) (f : ℕ → K) (i : ℕ) : K :=
  ∑ k ∈ Finset.range pairs.length,
    ((if (pairs.getD k (0, 0)).1 = i then f (3 * k + 1) - f (3 * k) else 0) +
     (if (pairs.getD k (0, 0)).2 = i then f (3 * k + 2) - f (3 * k + 1) else 0))

end Fibermat.Spec
