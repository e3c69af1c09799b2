import Verif.Model.Stack
import Verif.Model.RoundedInterp

/-! # Model of the main block of `/repo/src/fibermat/net.py` (lines 783-840): loads on the stacked fibers

The same computation is in `jupyter-notebook.ipynb` (cell "Stack"). Colours, axes and progress bars are left out. -/

namespace Fibermat
variable {K : Type} [Field K] [LinearOrder K]

/-- The fields of the answer of `scipy.optimize.linprog` that are used: `x` and `ineqlin.marginals`. -/
structure LinSol (K : Type) where
  x : List K
  marginals : List K

/-- `scipy.optimize.linprog` as an oracle (`none`: no optimum). -/
abbrev LinprogSol (K : Type) := LP K → Option (LinSol K)

/-- `Stack.solve` (`net.py:658-705`), the whole answer: `ok none` = returns None (empty mat). -/
def stackSolution (linprog : LinprogSol K) (mat : Mat K) (net : Net K) : Except Err (Option (Option (LinSol K))) := do
  matCheck mat.frame                                                      -- 691
  netCheck net.frame                                                      -- 692
  let s ← stackConstraint mat net                                         -- 695
  if mat.fibers.length ≠ 0 then return some (linprog s.lp)                -- 697-701
  else return none                                                        -- 702-703

/-- `0.5 * force @ np.abs(C) + 0.5 * force @ C` (`net.py:800`). -/
def loadsOf (C : Coo K) (force : List K) : List K :=
  (List.range C.ncols).map (fun i =>
    ((List.range C.nrows).map (fun k => 1 / 2 * force.getD k 0 * |C.get k i|)).sum
      + ((List.range C.nrows).map (fun k => 1 / 2 * force.getD k 0 * C.get k i)).sum)

/-- `interp1d([lo, hi], [0, 1])(v)` (`net.py:813,827`), which goes through `np.interp` and raises ValueError outside. -/
def colorOf (lo hi v : K) : Except Err (Cell K) :=
  if v < lo ∨ hi < v then .error Err.valueError else .ok (npInterpR id [lo, hi] [.fin 0, .fin 1] v)

/-- What is drawn: the fibers (end points and position in the colour scale) and the loaded contacts. -/
structure LoadPicture (K : Type) where
  mat : Mat K
  stack : Net K
  force : List K
  load : List K
  fibers : List ((K × K × K) × (K × K × K) × Cell K)
  contacts : List (NetRow K)

/-- End point of a drawn fiber (`net.py:825-826`); `s` is `-1` or `1`. -/
def drawnEnd (f : Fiber K) (s : K) : K × K × K :=
  (f.x + s * (1 / 2 * f.l * f.u), f.y + s * (1 / 2 * f.l * f.v), f.z + s * (1 / 2 * f.l * f.w))

/-- The main block for an arbitrary mat instead of `Mat(10)` (`net.py:790-831`). An unsolvable program is `unmodelled`. -/
def loadPicture (linprog : LinprogSol K) (mat : Mat K) (periodic : Bool) : Except Err (LoadPicture K) := do
  let net ← netNew mat periodic                                                    -- 790
  let (mat, stack) ← stackNew (fun p => (linprog p).map (·.x)) mat net none        -- 792
  let s ← stackConstraint mat net                                                  -- 795
  match ← stackSolution linprog mat net with                                       -- 796
  | none => throw Err.attributeError                                               -- 798: linsol is None
  | some none => throw Err.unmodelled
  | some (some sol) =>
    let force := sol.marginals                                                     -- 798
    if force.length ≠ s.C.nrows then throw Err.valueError                          -- 800
    netCheck stack.frame                                                           -- 803
    let unit := npPi / 4 * ((mat.fibers.map (fun g => g.l * g.b * g.h)).sum / (mat.fibers.length : K))
    let load := (loadsOf s.C force).map (· / unit)                                 -- 807
    let points := innerRows stack.rows                                             -- 809-810
    match load.min?, load.max? with                                                -- 813
    | some lo, some hi =>
      let colors ← load.mapM (colorOf lo hi)                                       -- 827
      if points.length ≠ 0 ∧ points.length ≠ force.length then throw Err.indexError -- 830
      return { mat := mat, stack := stack, force := force, load := load
               fibers := (mat.fibers.zip colors).map (fun p => (drawnEnd p.1 (-1), drawnEnd p.1 1, p.2))
               contacts := ((points.zip force).filter (fun p => ¬ |p.2| ≤ 1 / 100000000)).map (·.1) }   -- 830-831
    | _, _ => throw Err.valueError

end Fibermat
