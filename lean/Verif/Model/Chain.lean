import Verif.Model.Stack
import Verif.Model.Solver

/-! # Model of the chain of calls in `/repo/main.py` -/

namespace Fibermat
variable {K : Type} [Field K] [LinearOrder K]

/-- `Net`, `Stack`, `Mesh` and `solve` one after the other (`main.py:72-97`, `scripts/square.py:75-90`).  `Stack` changes the
mat in place, so the later calls use the stacked one. -/
def chain (lp : Linprog K) (periodic : Bool) (threshold : Option K) (lmin lmax : Option K) (coupling : K) (o : Opts K)
    (perm : Option (List Nat)) (mat : Mat K) : Except Err (Sys K × List (Rec K) × Stop) := do
  let net ← netNew mat periodic                                           -- 74
  let (mat, stack) ← stackNew lp mat net threshold                        -- 76
  let mesh ← meshNew stack                                                -- 78
  solve mat mesh lmin lmax coupling o perm                                -- 92-97

end Fibermat
