import Verif.Model.Render
import Verif.Model.Rounded

/-! # Model of the node location and field interpolation of `vtk_mesh` in `/repo/src/fibermat/render.py` with rounded arithmetic

The same lines as in `Verif/Model/Render.lean`, every operation on numbers being followed by the rounding `fl`.  The formulas of
`scipy.interpolate.CubicHermiteSpline` (coefficients) and of `scipy.interpolate.PPoly` (sum of increasing powers) are those of the published source of scipy;
divisions by the distance 1 of the knots and products by 1 are left out, since they are exact.  Overflow and underflow are not modelled. -/

namespace Fibermat
variable {K : Type} [Field K] [LinearOrder K]

/-- `x = msh["xyz"][:, [0]] * 0.9999` (`render.py:223`) with `msh["xyz"] = msh.points * np.array([[l, b, h]])` (`render.py:83`): `p` is the abscissa of a
point of the cylinder of length 1. -/
def shrinkR (fl : K → K) (l p : K) : K := fl (fl (p * l) * fl (9999 / 10000))

/-- `inteprolation_field` for one point (`render.py:221-235`), see `nodeCoord`. -/
def nodeCoordR (fl : K → K) (s : List K) (first : Nat) (x : K) (k : Nat) : Except Err (Cell K) := do
  let sk ← pyGet s k
  let k' := correctIndex x sk k                                           -- 227
  let a ← pyGet s k'
  let b ← pyGet s (k' + 1)
  let j : Cell K := (.fin (fl (x - a)) / .fin (fl (b - a)) : Cell K).round fl  -- 229
  let j : Cell K := if j = .pinf then .fin 0 else j                       -- 232
  let idx ← pyGet ((List.range s.length).map (fun m => first + m)) k'     -- 234: fiber.index[k]
  return (j + .fin (idx : K)).round fl

/-- The coefficients of `CubicHermiteSpline` between two knots at distance 1 (`render.py:247,256`), highest power first. -/
def hermiteCoeffsR (fl : K → K) (y0 y1 d0 d1 : K) : K × K × K × K :=
  let slope := fl (y1 - y0)
  let t := fl (fl (d0 + d1) - fl (2 * slope))
  (t, fl (fl (slope - d0) - t), d0, y0)

/-- Value of a polynomial at the distance `r` of the knot, as summed by `PPoly`. -/
def polyR (fl : K → K) (c : K × K × K × K) (r : K) : K :=
  let z := fl (r * r)
  fl (fl (fl (c.2.2.2 + fl (c.2.2.1 * r)) + fl (c.2.1 * z)) + fl (c.1 * fl (z * r)))

/-- The derivative, whose coefficients are computed by `PPoly.derivative`. -/
def polyDerivR (fl : K → K) (c : K × K × K × K) (r : K) : K :=
  fl (fl (c.2.2.1 + fl (fl (2 * c.2.1) * r)) + fl (fl (3 * c.1) * fl (r * r)))

/-- `CubicHermiteSpline(np.arange(m), y, d)(t)` (`render.py:247,249,256-257`), see `hermite`. -/
def hermiteR (fl : K → K) (y d : List K) (t : K) : K :=
  let k := interval y.length t
  polyR fl (hermiteCoeffsR fl (y.getD k 0) (y.getD (k + 1) 0) (d.getD k 0) (d.getD (k + 1) 0)) (fl (t - k))

/-- `displacement.derivative()(t)` (`render.py:250`), see `hermiteDeriv`. -/
def hermiteDerivR (fl : K → K) (y d : List K) (t : K) : K :=
  let k := interval y.length t
  polyDerivR fl (hermiteCoeffsR fl (y.getD k 0) (y.getD (k + 1) 0) (d.getD k 0) (d.getD (k + 1) 0)) (fl (t - k))

/-- The square of a distance, as computed by `KDTree(s).query(x)` (`render.py:224`). -/
def distR (fl : K → K) (a x : K) : K := fl (fl (a - x) * fl (a - x))

end Fibermat
