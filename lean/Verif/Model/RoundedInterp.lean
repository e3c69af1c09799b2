import Verif.Model.Rounded
import Verif.Model.Interp

/-! # Model of `Interpolate` in `/repo/src/fibermat/interpolation.py` with rounded arithmetic and special values

One component of the data, which may be infinite or NaN, with any number of points. The formulas are those of
`scipy.interpolate.interp1d` (`_call_linear`, `_call_linear_np`, `_call_previousnext`) and `np.interp`, as called by the code. Not modelled:
`size = 0` (empty abscissae). -/

namespace Fibermat
variable {K : Type} [Field K] [LinearOrder K]

/-- `np.linspace(0, 1, n)` (`interpolation.py:60,64`): multiples of the step, the last one being set to 1; `[0]` for `n = 1`. -/
def linspaceR (fl : K → K) (n : Nat) : List K :=
  (List.range n).map (fun k => if n ≤ 1 then 0 else if k + 1 = n then 1 else fl ((k : K) * fl (1 / ((n : K) - 1))))

/-- `(yh - yl) / (xh - xl) * (t - xl) + yl` as computed. -/
def segmentR (fl : K → K) (xl xh : K) (yl yh : Cell K) (t x0 : K) (y0 : Cell K) : Cell K :=
  let slope := (((yh - yl).round fl) / .fin (fl (xh - xl))).round fl
  ((slope * .fin (fl (t - x0))).round fl + y0).round fl

/-- `interp1d._call_linear`, used for arrays of rows (`u_`, `f_`, `F_`, `H_`): `hi = clip(searchsorted(x, t), 1, n-1)`, `lo = hi - 1`; the index
`-1` is the last one. -/
def callLinearR (fl : K → K) (x : List K) (y : List (Cell K)) (t : K) : Cell K :=
  let hi := min (max (x.countP (· < t)) 1) (x.length - 1)
  let lo := if hi = 0 then x.length - 1 else hi - 1
  segmentR fl (x.getD lo 0) (x.getD hi 0) (y.getD lo .nan) (y.getD hi .nan) t (x.getD lo 0) (y.getD lo .nan)

/-- `np.interp`, used for vectors (`Z_`, `rlambda_`): exact at the abscissae; a NaN is computed again from the other side. -/
def npInterpR (fl : K → K) (x : List K) (y : List (Cell K)) (t : K) : Cell K :=
  let j := x.countP (· ≤ t) - 1
  let xl := x.getD j 0
  let xh := x.getD (j + 1) 0
  let yl := y.getD j .nan
  let yh := y.getD (j + 1) .nan
  if j + 1 = x.length ∨ xl = t then yl
  else match segmentR fl xl xh yl yh t xl yl with
    | .nan => match segmentR fl xl xh yl yh t xh yh with
      | .nan => if yl = yh then yl else .nan
      | c => c
    | c => c

/-- `interp1d(x, y, kind, bounds_error=False, fill_value=fill)(t)`; `rows` tells whether the data are rows of numbers or numbers. -/
def interp1dR (fl : K → K) (rows : Bool) (kind : Kind) (x : List K) (y : List (Cell K)) (fill : Cell K) (t : K) : Cell K :=
  if t < x.headD 0 ∨ x.getLastD 0 < t then fill
  else match kind with
    | .linear => if rows then callLinearR fl x y t else npInterpR fl x y t
    | .previous => y.getD (max 1 (x.countP (· ≤ t)) - 1) .nan

/-- `Interpolate(y, size, kind)(t)` (`interpolation.py:43-89`). Simplification: data are floating numbers or truth values stored as 0 and 1,
so the final `astype(self.dtype)` (line 89) does nothing. -/
def interpolateR (fl : K → K) (rows : Bool) (kind : Kind) (y : List (Cell K)) (size : Option Nat) (t : K) : Cell K :=
  let last := y.getLastD .nan
  let t0 : List K := linspaceR fl y.length                                -- 60
  let f := interp1dR fl rows kind t0 y last                               -- 61-62
  let t1 : List K := match size with                                      -- 63-64
    | some n => linspaceR fl n
    | none => t0
  interp1dR fl rows kind t1 (t1.map f) last t                             -- 66-67, 89

/-- Component `c` of `np.r_[u(t), f(t)]` as returned by `solve` (`solver.py:195-196`). -/
def resultX (fl : K → K) (recs : List (Rec K)) (size : Option Nat) (t : K) (c : Nat) : Cell K :=
  interpolateR fl true .linear (recs.map (fun a => .fin (a.x c))) size t

/-- Row `r` of `np.r_[F(t), H(t)]` as returned by `solve` (`solver.py:197-198`). -/
def resultQ (fl : K → K) (recs : List (Rec K)) (size : Option Nat) (t : K) (r : Nat) : Cell K :=
  interpolateR fl true .linear (recs.map (fun a => a.q r)) size t

/-- `Z(t)` as returned by `solve` (`solver.py:199`). -/
def resultZ (fl : K → K) (recs : List (Rec K)) (size : Option Nat) (t : K) : Cell K :=
  interpolateR fl false .linear (recs.map (fun a => .fin a.Z)) size t

/-- `mesh.z += u[::2]` (`solver.py:231-232`) with rounding. -/
def Mesh.deformR (fl : K → K) (m : Mesh K) (u : Nat → K) : Mesh K :=
  { m with rows := m.rows.mapIdx (fun i r => { r with z := fl (r.z + u (2 * i)) }) }

end Fibermat
