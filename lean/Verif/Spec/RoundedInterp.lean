import Verif.Spec.Rounded

/-! # Specification for interpolated results -/

namespace Fibermat.Spec
variable {K : Type} [Field K] [LinearOrder K]

/-- A node that takes part in a connection. -/
def Connected (rows : List (MeshRow K)) (i : ℕ) : Prop := ∃ j, IsPair rows i j ∨ IsPair rows j i

end Fibermat.Spec
