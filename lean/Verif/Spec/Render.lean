import Verif.Model.Base

/-! # Specification of node coordinates and of the cubic field along a beam -/

namespace Fibermat.Spec
variable {K : Type} [Field K] [LinearOrder K]

/-- Index `k` is a nearest neighbour of `x` among `s`. -/
def Nearest (s : List K) (x : K) (k : ℕ) : Prop :=
  k < s.length ∧ ∀ j, j < s.length → |s.getD k 0 - x| ≤ |s.getD j 0 - x|

/-- The cubic with end values `y0`, `y1` and end slopes `d0`, `d1`, in the Hermite basis. -/
def cubic (y0 y1 d0 d1 r : K) : K :=
  (1 - r) ^ 2 * (1 + 2 * r) * y0 + r ^ 2 * (3 - 2 * r) * y1 + r * (1 - r) ^ 2 * d0 - r ^ 2 * (1 - r) * d1

end Fibermat.Spec
