import Verif.Model.Solver

/-! # Specification of a change of units

Lengths are multiplied by `α` and moduli by `μ` (e.g. `α = 1000` from metres to millimetres). -/

namespace Fibermat.Spec
variable {K : Type} [Field K] [LinearOrder K]

/-- A fiber in other units: dimensions, place and height are lengths, the direction has no unit. -/
def fiberIn (α μ : K) (f : Fiber K) : Fiber K :=
  { l := α * f.l, b := α * f.b, h := α * f.h, x := α * f.x, y := α * f.y, z := α * f.z
    u := f.u, v := f.v, w := f.w, G := μ * f.G, E := f.E.map (fun e => μ * e) }

/-- A mat in other units; the size of the box is a length. -/
def matIn (α μ : K) (m : Mat K) : Mat K :=
  { fibers := m.fibers.map (fiberIn α μ), attrs := { m.attrs with size := m.attrs.size.map (fun s => α * s) } }

/-- A net (or stack) in other units. -/
def netIn (α : K) (n : Net K) : Net K :=
  { rows := n.rows.map (fun r => { r with sA := α * r.sA, sB := α * r.sB, xA := α * r.xA, yA := α * r.yA, zA := α * r.zA,
                                          xB := α * r.xB, yB := α * r.yB, zB := α * r.zB })
    attrs := { n.attrs with size := n.attrs.size.map (fun s => α * s) } }

/-- A mesh in other units. -/
def meshIn (α : K) (m : Mesh K) : Mesh K :=
  { rows := m.rows.map (fun r => { r with s := α * r.s, x := α * r.x, y := α * r.y, z := α * r.z })
    attrs := { m.attrs with size := m.attrs.size.map (fun s => α * s) }
    h := m.h.map (fun l => l.map (fun t => α * t)) }

/-- A record of the solver in other units, for a mesh with `n` nodes: displacements, bounds and plate height are lengths, rotations
have no unit, contact forces are moduli times areas, the packing and the set of active rows do not change. -/
structure RecIn (α μ : K) (n : ℕ) (a a' : Rec K) : Prop where
  displacement : ∀ i, i < n → a'.x (2 * i) = α * a.x (2 * i)
  rotation : ∀ i, i < n → a'.x (2 * i + 1) = a.x (2 * i + 1)
  force : ∀ j, a'.x (2 * n + j) = μ * α ^ 2 * a.x (2 * n + j)
  load : ∀ r, r < 2 * n → a.q r = .fin 0 → a'.q r = .fin 0
  bound : ∀ j b, a.q (2 * n + j) = .fin b → a'.q (2 * n + j) = .fin (α * b)
  unbounded : ∀ j, a.q (2 * n + j) = .pinf → a'.q (2 * n + j) = .pinf
  Z : a'.Z = α * a.Z
  rlambda : a'.rlambda = a.rlambda
  mask : ∀ r, a'.mask r = a.mask r
  errSq : a'.errSq = a.errSq

end Fibermat.Spec
