import Verif.Model.Base

/-! # Model of `Interpolate` in `/repo/src/fibermat/interpolation.py`

One component of the data is modelled (the interpolation acts on each component separately, `axis=0`); data are finite
and there are at least two of them (`interp1d` on a single point is not modelled). -/

namespace Fibermat
variable {K : Type} [Field K] [LinearOrder K]

/-- `np.linspace(0, 1, n)[k]` for `n ≥ 2`. -/
def knot (n k : Nat) : K := (k : K) / ((n : K) - 1)

/-- `np.linspace(0, 1, n)` (`interpolation.py:60,64`). -/
def linspace (n : Nat) : List K := (List.range n).map (knot n)

/-- The two kinds used by the code (`solver.py:195-202`). -/
inductive Kind where
  | linear | previous
deriving DecidableEq, Repr

/-- `interp1d(x, y, kind, bounds_error=False, fill_value=fill)(t)` for increasing `x`, at least two points.
linear: `i = clip(searchsorted(x, t), 1, n-1)`, then the segment `i-1, i`; previous: the last knot not after `t`
(scipy searches the knots shifted down by one ulp). -/
def interp1d (kind : Kind) (x y : List K) (fill t : K) : K :=
  if t < x.headD 0 ∨ x.getLastD 0 < t then fill
  else match kind with
    | .linear =>
      let i := max 1 (min (x.countP (· < t)) (x.length - 1))
      let xl := x.getD (i - 1) 0
      let xh := x.getD i 0
      let yl := y.getD (i - 1) 0
      let yh := y.getD i 0
      (yh - yl) / (xh - xl) * (t - xl) + yl
    | .previous => y.getD (max 1 (x.countP (· ≤ t)) - 1) 0

/-- `Interpolate(y, size, kind)(t)` (`interpolation.py:43-89`). Simplification: floating data, so the final
`astype(self.dtype)` (line 89) does nothing. -/
def interpolate (kind : Kind) (y : List K) (size : Option Nat) (t : K) : K :=
  let last := y.getLastD 0
  let t0 : List K := linspace y.length                                    -- 60
  let f := interp1d kind t0 y last                                        -- 61-62
  let t1 : List K := match size with                                      -- 63-64
    | some n => linspace n
    | none => t0
  interp1d kind t1 (t1.map f) last t                                      -- 66-67, 89

end Fibermat
