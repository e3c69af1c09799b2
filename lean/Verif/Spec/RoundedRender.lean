import Verif.Spec.Vtk

/-! # Specification of node coordinates with rounded arithmetic -/

namespace Fibermat.Spec
variable {K : Type} [Field K] [LinearOrder K]

/-- Index `k` is a nearest neighbour of `x` among `s` up to the fraction `ε` of the distances. -/
def NearlyNearest (ε : K) (s : List K) (x : K) (k : ℕ) : Prop :=
  k < s.length ∧ ∀ j, j < s.length → |s.getD k 0 - x| ≤ (1 + ε) * |s.getD j 0 - x|

/-- Increasing abscissae, at distances from each other of more than the fraction `ε` of the whole length. -/
def Spaced (ε : K) (s : List K) : Prop :=
  ∀ j, j + 1 < s.length → s.getD j 0 < s.getD (j + 1) 0 ∧ ε * (s.getD (s.length - 1) 0 - s.getD 0 0) < s.getD (j + 1) 0 - s.getD j 0

end Fibermat.Spec
