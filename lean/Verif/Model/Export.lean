import Verif.Model.Solver
import Verif.Model.Interp
import Verif.Model.Render

/-! # Model of the fields handed to `vtk_mesh` in `/repo/main.py:104-107` (the same lines are in `render.py:312-315`) -/

namespace Fibermat
variable {K : Type} [Field K] [LinearOrder K]

/-- The four arrays handed to `vtk_mesh`, by node. -/
structure Fields (K : Type) where
  displacement : Nat → K
  rotation : Nat → K
  force : Nat → Cell K
  moment : Nat → Cell K

/-- Component `c` of `f @ C`; the block `C` of the system is made of the rows `nK …` and the columns before `nK`. -/
def Sys.nodeLoad (S : Sys K) (f : Nat → K) (c : Nat) : Cell K :=
  cellSum ((List.range S.nC).map (fun k => .fin (f k) * S.P (S.nK + k) c))

/-- `*u(t).reshape(-1, 2).T, *(f(t) @ C).reshape(-1, 2).T` (`main.py:105-107` with `t = 1`), where `u` and `f` are
`Interpolate(…, size=interp_size)` of the recorded values (`solver.py:195-196`). -/
def exportFields (S : Sys K) (recs : List (Rec K)) (size : Option Nat) (t : K) : Fields K :=
  let x := fun c => interpolate .linear (recs.map (fun a => a.x c)) size t
  { displacement := fun i => x (2 * i)
    rotation := fun i => x (2 * i + 1)
    force := fun i => S.nodeLoad (fun k => x (S.nK + k)) (2 * i)
    moment := fun i => S.nodeLoad (fun k => x (S.nK + k)) (2 * i + 1) }

/-- `msh["force"]` at a point of node coordinate `x` (`render.py:253-257`), the arrays having `m` entries. -/
def forceAt (force moment : Nat → K) (m : Nat) (x : K) : K :=
  hermite ((List.range m).map force) ((List.range m).map moment) x

end Fibermat
