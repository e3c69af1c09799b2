import Verif.Model.Solver

/-! # Specification: the options of a run that continues another one -/

namespace Fibermat.Spec
variable {K : Type} [Field K] [LinearOrder K]

/-- The options `o'` of a run that continues a run with options `o` from its record number `k`: the iterations that are left, the
packing that is left when the thickness has gone from `Z0` to `Z` (the packing is counted from the new thickness), everything else
the same. -/
structure Continues (o o' : Opts K) (k : ℕ) (Z0 Z : K) : Prop where
  tol : o'.tol = o.tol
  errtol : o'.errtol = o.errtol
  lin : o'.lin = o.lin
  itermax : o'.itermax + k = o.itermax
  packing : (o.packing = .pinf ∧ o'.packing = .pinf) ∨ ∃ p, o.packing = .fin p ∧ o'.packing = .fin (p * (Z / Z0))

end Fibermat.Spec
