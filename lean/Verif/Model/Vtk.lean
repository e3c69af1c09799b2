import Verif.Model.Mesh
import Verif.Model.Render

/-! # Model of `vtk_fiber`, `vtk_mat` and `vtk_mesh` in `/repo/src/fibermat/render.py`

Only the points of the VTK meshes and the values attached to them; the cells joining the points are left out.  The functions of
`pyvista` are modelled from its documentation and published source: `pv.CylinderStructured` is a parameter `cyl` (the points of the
cylinder of length 1 and diameter 1 along the x axis), `pv.translate` is `pvTranslate`. -/

namespace Fibermat
variable {K : Type} [Field K] [LinearOrder K]

/-- A point or a vector of space. -/
abbrev V3 (K : Type) := K × K × K

/-- Sum of two vectors. -/
def vadd (a b : V3 K) : V3 K := (a.1 + b.1, a.2.1 + b.2.1, a.2.2 + b.2.2)

/-- Product of a vector and a number. -/
def vscale (k : K) (a : V3 K) : V3 K := (k * a.1, k * a.2.1, k * a.2.2)

/-- `np.cross(a, b)`. -/
def cross (a b : V3 K) : V3 K := (a.2.1 * b.2.2 - a.2.2 * b.2.1, a.2.2 * b.1 - a.1 * b.2.2, a.1 * b.2.1 - a.2.1 * b.1)

/-- `a / np.linalg.norm(a)`, `root` being the square root.  (A zero vector gives NaN in the code and zero here; it does not occur,
see `frame_planar` and `frame_orthonormal`.) -/
def unit (root : K → K) (a : V3 K) : V3 K :=
  let n := root (a.1 * a.1 + a.2.1 * a.2.1 + a.2.2 * a.2.2)
  (a.1 / n, a.2.1 / n, a.2.2 / n)

/-- `np.isclose(a, b)`: `|a - b| <= 1e-8 + 1e-5 * |b|`. -/
def near (a b : K) : Bool := decide (|a - b| ≤ 1 / 10 ^ 8 + 1 / 10 ^ 5 * |b|)

/-- `np.allclose(a, b)` of two vectors. -/
def vclose (a b : V3 K) : Bool := near a.1 b.1 && near a.2.1 b.2.1 && near a.2.2 b.2.2

/-- The three columns of the matrix of `pv.translate`: the images of the axes for the direction `d`. -/
def pvFrame (root : K → K) (d : V3 K) : V3 K × V3 K × V3 K :=
  let nx := unit root d
  let tmp : V3 K := if vclose nx (0, 1, 0) then (-1, 0, 0) else if vclose nx (0, -1, 0) then (1, 0, 0) else (0, 1, 0)
  let nz := unit root (cross nx tmp)
  (nx, cross nz nx, nz)

/-- `pv.translate(surf, center, direction)` on a point (`render.py:91-93`): the point is rotated, and moved to the centre unless
`np.allclose(center, [0, 0, 0])`. -/
def pvTranslate (root : K → K) (center direction : V3 K) (p : V3 K) : V3 K :=
  let e := pvFrame root direction
  let q := vadd (vscale p.1 e.1) (vadd (vscale p.2.1 e.2.1) (vscale p.2.2 e.2.2))
  if vclose center (0, 0, 0) then q else vadd q center

/-- A point of the VTK mesh of a fiber with the values attached to it (`render.py:80-86`). -/
structure VtkPoint (K : Type) where
  pos : V3 K
  fiber : Nat
  lbh : V3 K
  xyz : V3 K
  uvw : V3 K
  G : K
  E : WithTop K

/-- `vtk_fiber` (`render.py:14-96`) with an `index`. -/
def vtkFiber (root : K → K) (cyl : List (V3 K)) (length width thickness x y z u v w shear : K) (tensile : WithTop K)
    (index : Nat) : List (VtkPoint K) :=
  cyl.map (fun p =>
    { fiber := index                                                      -- 81
      lbh := (length, width, thickness)                                   -- 82
      xyz := (p.1 * length, p.2.1 * width, p.2.2 * thickness)             -- 83
      uvw := (u, v, w)                                                    -- 84
      G := shear                                                          -- 85
      E := tensile                                                        -- 86
      pos := pvTranslate root (x, y, z) (u, v, w)                         -- 89-93
        (p.1 * length, p.2.1 * width, p.2.2 * thickness) })

/-- A function applied to all the elements of a list, the first exception ending the computation. -/
def mapE {α β : Type} (f : α → Except Err β) : List α → Except Err (List β)
  | [] => .ok []
  | a :: l => match f a with
    | .error e => .error e
    | .ok b => match mapE f l with
      | .error e => .error e
      | .ok bs => .ok (b :: bs)

/-- `vtk_mat` (`render.py:99-155`); `func` computes the additional values of a point of a fiber. -/
def vtkMat {α : Type} (root : K → K) (cyl : List (V3 K)) (func : Nat → VtkPoint K → Except Err α) (mat : Mat K) :
    Except Err (List α) := do
  matCheck mat.frame                                                      -- 134
  let fibers ← mapE (fun p : Fiber K × Nat =>                             -- 138-152
    mapE (func p.2) (vtkFiber root cyl p.1.l p.1.b p.1.h p.1.x p.1.y p.1.z p.1.u p.1.v p.1.w p.1.G p.1.E p.2)) mat.fibers.zipIdx
  return fibers.flatten                                                   -- 155

/-- A point of the picture of a mesh (`render.py:158-277`): the point of the undeformed fiber, its node coordinate, and the values
interpolated from the nodes, when they are given. -/
structure MeshPoint (K : Type) where
  point : VtkPoint K
  node : Cell K
  displacement : Option (Cell K)
  rotation : Option (Cell K)
  curvature : Option (Cell K)
  force : Option (Cell K)

/-- `inteprolation_field` at one point (`render.py:219-235`); as `nodeCoord`, the nodes of the fiber having any labels.  `nearest`
is `KDTree(s).query`. -/
def nodeField (nearest : List K → K → Nat) (mesh : Mesh K) (i : Nat) (p : VtkPoint K) : Except Err (Cell K) := do
  let rows := mesh.rows.zipIdx.filter (fun q => q.1.fiber = (i : Int))    -- 216
  if rows = [] then throw .keyError                                       -- 221: get_group
  let s := rows.map (fun q => q.1.s)                                      -- 222
  let x := shrink p.xyz.1                                                 -- 223
  let k := nearest s x                                                    -- 224
  let sk ← pyGet s k
  let k' := correctIndex x sk k                                           -- 227
  let a ← pyGet s k'
  let b ← pyGet s (k' + 1)
  let j : Cell K := .fin (x - a) / .fin (b - a)                           -- 229
  let j : Cell K := if j = .pinf then .fin 0 else j                       -- 232
  let idx ← pyGet (rows.map (fun q => q.2)) k'                            -- 234
  return j + .fin (idx : K)

/-- A spline at a node coordinate; a coordinate that is not a number gives NaN (for an infinite one, a simplification). -/
def atNode (f : K → K) : Cell K → Cell K
  | .fin t => .fin (f t)
  | _ => .nan

/-- `CubicHermiteSpline(np.arange(m), y, d)` (`render.py:247,256`): both arrays must have `m ≥ 2` entries. -/
def spline (m : Nat) (y d : List K) : Except Err Unit :=
  if m < 2 ∨ y.length ≠ m ∨ d.length ≠ m then .error .valueError else .ok ()

/-- The values interpolated at a point of node coordinate `q.2` (`render.py:244-257`); missing slopes are zero. -/
def addFields (displacement rotation force moment : Option (List K)) (q : VtkPoint K × Cell K) : MeshPoint K :=
  let r := fun y : List K => rotation.getD (y.map (fun a => 0 * a))       -- 245-246
  let m := fun y : List K => moment.getD (y.map (fun a => 0 * a))         -- 254-255
  { point := q.1
    node := q.2
    displacement := displacement.map (fun y => atNode (hermite y (r y)) q.2)      -- 249
    rotation := displacement.map (fun y => atNode (hermiteDeriv y (r y)) q.2)     -- 250
    curvature := displacement.map (fun y => atNode (hermiteDeriv2 y (r y)) q.2)   -- 251
    force := force.map (fun y => atNode (hermite y (m y)) q.2) }                  -- 257

/-- `vtk_mesh` (`render.py:158-257`) before the periodic copies. -/
def vtkMesh (root : K → K) (cyl : List (V3 K)) (nearest : List K → K → Nat) (mat : Mat K) (mesh : Mesh K)
    (displacement rotation force moment : Option (List K)) : Except Err (List (MeshPoint K)) := do
  matCheck mat.frame                                                      -- 212
  meshCheck mesh.frame                                                    -- 213
  let pts ← vtkMat root cyl (fun i p => do return (p, ← nodeField nearest mesh i p)) mat  -- 238
  if mat.fibers = [] then return []                                       -- 240
  let m := mesh.rows.length
  match displacement with                                                 -- 244-248
    | none => pure ()
    | some y => spline m y (rotation.getD (y.map (fun a => 0 * a)))
  match force with                                                        -- 253-256
    | none => pure ()
    | some y => spline m y (moment.getD (y.map (fun a => 0 * a)))
  return pts.map (addFields displacement rotation force moment)           -- 249-251, 257

/-- The final place of a point: `msh.points += msh["displacement"]` (`render.py:248-252`), only the height changes. -/
def MeshPoint.pos (p : MeshPoint K) : K × K × Cell K :=
  (p.point.pos.1, p.point.pos.2.1, match p.displacement with
    | none => .fin p.point.pos.2.2
    | some d => .fin p.point.pos.2.2 + d)

end Fibermat
