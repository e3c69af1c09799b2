import Verif.Model.Interp

/-! # Model of `Interpolate(y, size, kind='cubic')` (`/repo/src/fibermat/interpolation.py`)

`interp1d(kind='cubic')` is scipy's `make_interp_spline(x, y, k=3)`: the spline of third order without knots at the
second and last but one points ("not a knot"). Scipy finds its coefficients on B-splines by LU factors of a banded matrix;
here the second derivatives at the points are found by elimination in the tridiagonal system (equally spaced points only:
`Interpolate` uses no other). `C110_unique` shows there is only one such spline. Data are finite, arithmetic is exact. -/

namespace Fibermat
variable {K : Type} [Field K] [LinearOrder K]

/-- Second difference of the data at point `i ≥ 1`. -/
def secondDiff (y : List K) (i : ℕ) : K := y.getD (i - 1) 0 - 2 * y.getD i 0 + y.getD (i + 1) 0

/-- Elimination: `(p, q)` such that the curvature at point `k + 1` is `p` minus `q` times the curvature at the next point. -/
def sweep (y : List K) : ℕ → K × K
  | 0 => (secondDiff y 1, 0)
  | k + 1 => ((6 * secondDiff y (k + 2) - (sweep y k).1) / (4 - (sweep y k).2), 1 / (4 - (sweep y k).2))

/-- Substitution: curvature at the point `k` before the last but one. -/
def backward (y : List K) : ℕ → K
  | 0 => secondDiff y (y.length - 2)
  | k + 1 => (sweep y (y.length - 2 - (k + 1) - 1)).1 - (sweep y (y.length - 2 - (k + 1) - 1)).2 * backward y k

/-- Second derivatives of the spline at the points (unit distance between points); at both ends the third derivative is
the one of the next segment. -/
def curvature (y : List K) (i : ℕ) : K :=
  if i = 0 then 2 * backward y (y.length - 2 - 1) - backward y (y.length - 2 - 2)
  else if i = y.length - 1 then 2 * backward y 0 - backward y 1
  else backward y (y.length - 2 - i)

/-- Spline on the segment after point `i`, at the fraction `θ` of the segment. -/
def segmentValue (y : List K) (i : ℕ) (θ : K) : K :=
  (1 - θ) * y.getD i 0 + θ * y.getD (i + 1) 0 +
    ((1 - θ) ^ 3 - (1 - θ)) / 6 * curvature y i + (θ ^ 3 - θ) / 6 * curvature y (i + 1)

/-- `interp1d(np.linspace(0, 1, len(y)), y, kind='cubic', bounds_error=False, fill_value=fill)(t)`, four points or more. -/
def cubic1d (y : List K) (fill t : K) : K :=
  if t < 0 ∨ 1 < t then fill
  else
    let x : List K := linspace y.length
    let i := max 1 (min (x.countP (· < t)) (y.length - 1)) - 1
    segmentValue y i ((t - x.getD i 0) / (x.getD (i + 1) 0 - x.getD i 0))

/-- `Interpolate(y, size, kind='cubic')(t)` (`interpolation.py:43-89`), floating data. `y[-1]` fails on an empty list
(line 62); `interp1d` refuses fewer than four points (lines 61 and 66). -/
def interpolateCubic (y : List K) (size : Option ℕ) (t : K) : Except Err K :=
  if y = [] then .error .indexError
  else
    let last := y.getLastD 0
    let n := size.getD y.length                                           -- 60, 63-64
    if y.length < 4 then .error .valueError                               -- 61
    else if n < 4 then .error .valueError                                 -- 66
    else .ok (cubic1d ((linspace n).map (cubic1d y last)) last t)         -- 66-67, 89

end Fibermat
