import Verif.Model.Base

/-! # Model of the node location and field interpolation of `vtk_mesh` in `/repo/src/fibermat/render.py`

Not modelled: the pyvista geometry of a fiber (`render.py:73-96`). -/

namespace Fibermat
variable {K : Type} [Field K] [LinearOrder K]

/-- Python indexing of an array by a possibly negative integer: `a[i]` with `-len ≤ i < len`. -/
def pyGet {α : Type} (a : List α) (i : Int) : Except Err α :=
  if i < -(a.length : Int) then .error .indexError
  else match a[(if i < 0 then i + a.length else i).toNat]? with
    | some v => .ok v
    | none => .error .indexError

/-- `x = msh["xyz"][:, [0]] * 0.9999` (`render.py:223`): the local abscissa of a VTK point, slightly shrunk. -/
def shrink (x : K) : K := x * (9999 / 10000)

/-- The correction `k * (x > s[k]) + (k - 1) * (x <= s[k])` (`render.py:227`), `sk` being `s[k]`. -/
def correctIndex (x sk : K) (k : Nat) : Int := if sk < x then k else (k : Int) - 1

/-- `inteprolation_field` for one point (`render.py:221-235`): `s` are the node abscissae of the fiber, `first` the label of its
first node (labels are consecutive), `x` the shrunk abscissa and `k` the index returned by `KDTree.query`.
The result is the value of `msh["node"]`. -/
def nodeCoord (s : List K) (first : Nat) (x : K) (k : Nat) : Except Err (Cell K) := do
  let sk ← pyGet s k
  let k' := correctIndex x sk k                                           -- 227
  let a ← pyGet s k'
  let b ← pyGet s (k' + 1)
  let j : Cell K := .fin (x - a) / .fin (b - a)                           -- 229
  let j : Cell K := if j = .pinf then .fin 0 else j                       -- 232
  let idx ← pyGet ((List.range s.length).map (fun m => first + m)) k'     -- 234: fiber.index[k]
  return j + .fin (idx : K)

/-- Interval used by scipy's piecewise polynomials on the knots `0, 1, …, m-1`: the last knot not after `t`, clipped to
`0 … m-2`. -/
def interval (m : Nat) (t : K) : Nat :=
  min (m - 2) ((List.range m).countP (fun (k : Nat) => decide ((k : K) ≤ t)) - 1)

/-- `CubicHermiteSpline(np.arange(m), y, d)(t)` (`render.py:242,247,249,256-257`), `m ≥ 2`. -/
def hermite (y d : List K) (t : K) : K :=
  let k := interval y.length t
  let r := t - k
  let y0 := y.getD k 0
  let y1 := y.getD (k + 1) 0
  let d0 := d.getD k 0
  let d1 := d.getD (k + 1) 0
  let dy := y1 - y0
  ((d0 + d1 - 2 * dy) * r + (3 * dy - 2 * d0 - d1)) * r * r + d0 * r + y0

/-- `displacement.derivative()(t)` (`render.py:250`). -/
def hermiteDeriv (y d : List K) (t : K) : K :=
  let k := interval y.length t
  let r := t - k
  let y0 := y.getD k 0
  let y1 := y.getD (k + 1) 0
  let d0 := d.getD k 0
  let d1 := d.getD (k + 1) 0
  let dy := y1 - y0
  (3 * (d0 + d1 - 2 * dy) * r + 2 * (3 * dy - 2 * d0 - d1)) * r + d0

/-- `displacement.derivative(2)(t)` (`render.py:251`). -/
def hermiteDeriv2 (y d : List K) (t : K) : K :=
  let k := interval y.length t
  let r := t - k
  let y0 := y.getD k 0
  let y1 := y.getD (k + 1) 0
  let d0 := d.getD k 0
  let d1 := d.getD (k + 1) 0
  let dy := y1 - y0
  6 * (d0 + d1 - 2 * dy) * r + 2 * (3 * dy - 2 * d0 - d1)

/-! ### Periodic copies (`render.py:259-274`)

The VTK mesh is reduced to its points; a cell cut by the clipping box is replaced by its part inside the box, which adds points on the
sides of the box (not modelled). -/

/-- `np.min(msh.points)`: the least of all the coordinates (not only of the heights). -/
def minCoord : List (K × K × K) → K
  | [] => 0
  | [p] => min p.1 (min p.2.1 p.2.2)
  | p :: l => min (min p.1 (min p.2.1 p.2.2)) (minCoord l)

/-- `np.max(msh.points)`. -/
def maxCoord : List (K × K × K) → K
  | [] => 0
  | [p] => max p.1 (max p.2.1 p.2.2)
  | p :: l => max (max p.1 (max p.2.1 p.2.2)) (maxCoord l)

/-- `msh.copy().translate([dx, dy, 0])`. -/
def translatePoints (dx dy : K) (pts : List (K × K × K)) : List (K × K × K) := pts.map (fun p => (p.1 + dx, p.2.1 + dy, p.2.2))

/-- The nine copies (`render.py:264-274`). -/
def copies (size : K) (pts : List (K × K × K)) : List (K × K × K) :=
  [pts, translatePoints (-size) 0 pts, translatePoints size 0 pts, translatePoints 0 (-size) pts, translatePoints 0 size pts,
    translatePoints (-size) (-size) pts, translatePoints (-size) size pts, translatePoints size (-size) pts,
    translatePoints size size pts].flatten

/-- `clip_box([-X, X, -Y, Y, Z1, Z2], invert=False)` (`render.py:274`): what is inside the box, with `X = Y = size`. -/
def clipBox (size z1 z2 : K) (pts : List (K × K × K)) : List (K × K × K) :=
  pts.filter (fun p => -size ≤ p.1 ∧ p.1 ≤ size ∧ -size ≤ p.2.1 ∧ p.2.1 ≤ size ∧ z1 ≤ p.2.2 ∧ p.2.2 ≤ z2)

/-- The periodic picture (`render.py:259-274`). -/
def periodicPicture (size : K) (pts : List (K × K × K)) : List (K × K × K) :=
  clipBox size (minCoord pts) (maxCoord pts) (copies size pts)

end Fibermat
