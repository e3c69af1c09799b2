import Verif.Spec.Energy

/-! # Specification of the forces of one contact -/

namespace Fibermat.Spec
variable {K : Type} [Field K] [LinearOrder K]

/-- Rows `3 q`, `3 q + 1`, `3 q + 2` of the constraint matrix are those of the floor under node `i`, of the contact between node `i` and node `j` above it, and of the
plate over node `j`. -/
def ContactRows (C : Coo K) (q i j : ℕ) : Prop :=
  ∀ u : ℕ → K, rowDot C (3 * q) u = -u (2 * i) ∧ rowDot C (3 * q + 1) u = u (2 * i) - u (2 * j) ∧ rowDot C (3 * q + 2) u = u (2 * j)

end Fibermat.Spec
