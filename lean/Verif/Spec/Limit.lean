import Verif.Spec.Stack
import Verif.Spec.Solver

/-! # How far a mat can be compressed -/

namespace Fibermat.Spec
variable {K : Type} [Field K] [LinearOrder K]

/-- Height of the solid material along a connection: both thicknesses, or the thickness of a fiber alone at its ends. -/
def solid (m : Mat K) (r : NetRow K) : K :=
  if r.A = r.B then thick m r.A.toNat else thick m r.A.toNat + thick m r.B.toNat

/-- `H` is the greatest height of solid material along a connection. -/
def SolidHeight (m : Mat K) (rows : List (NetRow K)) (H : K) : Prop := (∃ r ∈ rows, solid m r = H) ∧ ∀ r ∈ rows, solid m r ≤ H

end Fibermat.Spec
