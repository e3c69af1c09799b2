import Verif.Spec.Frames
import Verif.Spec.Net
import Verif.Spec.Render
import Verif.Model.Vtk

/-! # Specification of the picture of a mat

Vectors are written by their coordinates, independently of the vector operations of the model. -/

namespace Fibermat.Spec
variable {K : Type} [Field K] [LinearOrder K]

/-- `root` is the square root, as far as it exists in `K`. -/
def SquareRoot (root : K → K) : Prop := ∀ b, root (b * b) = |b|

/-- A point of the cube of side 1 around the origin. -/
def InUnitBox (t : K × K × K) : Prop := |t.1| ≤ 1 / 2 ∧ |t.2.1| ≤ 1 / 2 ∧ |t.2.2| ≤ 1 / 2

/-- Scalar product. -/
def dot3 (a b : K × K × K) : K := a.1 * b.1 + a.2.1 * b.2.1 + a.2.2 * b.2.2

/-- The centre of the picture of a fiber: the centre of the fiber, or the origin when the fiber is there up to `1e-8`. -/
def Centre (f : Fiber K) (o : K × K × K) : Prop :=
  o = (f.x, f.y, f.z) ∨ (o = (0, 0, 0) ∧ |f.x| ≤ 1 / 10 ^ 8 ∧ |f.y| ≤ 1 / 10 ^ 8 ∧ |f.z| ≤ 1 / 10 ^ 8)

/-- The values attached to the point of local coordinates `t` of fiber `i` (in units of the length, the width and the thickness). -/
structure Describes (f : Fiber K) (i : ℕ) (t : K × K × K) (p : VtkPoint K) : Prop where
  fiber : p.fiber = i
  lbh : p.lbh = (f.l, f.b, f.h)
  xyz : p.xyz = (f.l * t.1, f.b * t.2.1, f.h * t.2.2)
  uvw : p.uvw = (f.u, f.v, f.w)
  G : p.G = f.G
  E : p.E = f.E

/-- The place of the point of local coordinates `t` of a horizontal fiber of centre `o`, the norm of its direction being `n`: along
the axis, sideways, and up or down; `e = 1` or `-1` according to the side from which the fiber is looked at. -/
def PlacedFlat (f : Fiber K) (n e : K) (o t p : K × K × K) : Prop :=
  p.1 = o.1 + f.l * t.1 * (f.u / n) - e * (f.b * t.2.1) * (f.v / n) ∧
    p.2.1 = o.2.1 + f.l * t.1 * (f.v / n) + e * (f.b * t.2.1) * (f.u / n) ∧ p.2.2 = o.2.2 + e * (f.h * t.2.2)

/-- Every fiber has nodes at both of its ends. -/
def Spans (mat : Mat K) (rows : List (MeshRow K)) : Prop :=
  ∀ (i : ℕ) (f : Fiber K), mat.fibers[i]? = some f →
    (∃ a ∈ rows, a.fiber = (i : Int) ∧ a.s = -(f.l / 2)) ∧ (∃ a ∈ rows, a.fiber = (i : Int) ∧ a.s = f.l / 2)

/-- No two nodes of a fiber at the same place. -/
def Apart (rows : List (MeshRow K)) : Prop :=
  ∀ (i j : ℕ) (a b : MeshRow K), rows[i]? = some a → rows[j]? = some b → a.fiber = b.fiber → a.s = b.s → i = j

/-- The nodes are at the height of their fiber. -/
def Level (mat : Mat K) (rows : List (MeshRow K)) : Prop :=
  ∀ a ∈ rows, ∀ f, mat.fibers[a.fiber.toNat]? = some f → a.z = f.z

/-- First derivative of `cubic` in `r`. -/
def cubicSlope (y0 y1 d0 d1 r : K) : K := 6 * r * (1 - r) * (y1 - y0) + (1 - r) * (1 - 3 * r) * d0 - r * (2 - 3 * r) * d1

/-- Second derivative of `cubic` in `r`. -/
def cubicBend (y0 y1 d0 d1 r : K) : K := 6 * (1 - 2 * r) * (y1 - y0) - (4 - 6 * r) * d0 - (2 - 6 * r) * d1

/-- Value at node `j` of an optional array, zero when it is not given. -/
def nodeValue (a : Option (List K)) (j : ℕ) : K := (a.map (fun l => l.getD j 0)).getD 0

end Fibermat.Spec
