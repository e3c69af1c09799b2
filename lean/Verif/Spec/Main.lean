import Verif.Spec.Solver
import Verif.Spec.Random

/-! # Specification of the whole program -/

namespace Fibermat.Spec
variable {K : Type}

/-- A numbering of the unknowns: every index of the system once. -/
def Numbers (order : Sys K → List ℕ) : Prop := ∀ S, (order S).Perm (List.range S.n)

end Fibermat.Spec
