import Verif.Spec.Net
import Verif.Model.Mesh

/-! # Specification of the symmetries of a mat -/

namespace Fibermat.Spec
variable {K : Type} [Field K] [LinearOrder K]

/-- The matrix `[[a, b], [c, d]]` is orthogonal. -/
def Orthogonal (a b c d : K) : Prop := a ^ 2 + c ^ 2 = 1 ∧ b ^ 2 + d ^ 2 = 1 ∧ a * b + c * d = 0

/-- Fibers of the same dimensions, height and moduli, lengths being in a unit `α` times smaller and moduli in a unit `μ` times
smaller for the second one.  (Places and directions in the plane are not compared.) -/
structure SameIn (α μ : K) (f f' : Fiber K) : Prop where
  l : f'.l = α * f.l
  b : f'.b = α * f.b
  h : f'.h = α * f.h
  z : f'.z = α * f.z
  w : f'.w = f.w
  G : f'.G = μ * f.G
  E : f'.E = f.E.map (fun e => μ * e)

/-- Fibers that differ only by their place and direction in the plane. -/
structure SameButPlace (f f' : Fiber K) : Prop where
  l : f'.l = f.l
  b : f'.b = f.b
  h : f'.h = f.h
  z : f'.z = f.z
  w : f'.w = f.w
  G : f'.G = f.G
  E : f'.E = f.E

/-- `f'` is the fiber `f` turned or mirrored by the matrix `[[a, b], [c, d]]` and then moved by `(p, q)`. -/
def Turned (a b c d p q : K) (f f' : Fiber K) : Prop :=
  SameButPlace f f' ∧ f'.x = a * f.x + b * f.y + p ∧ f'.y = c * f.x + d * f.y + q ∧
    f'.u = a * f.u + b * f.v ∧ f'.v = c * f.u + d * f.v

/-- The same, up to a whole number of boxes. -/
def TurnedInBox (size a b c d p q : K) (f f' : Fiber K) : Prop :=
  ∃ i j : ℤ, Turned a b c d (p + i * size) (q + j * size) f f'

/-- Two lists of nodes that differ only by their places in the plane. -/
def SameNodes (rows rows' : List (MeshRow K)) : Prop :=
  rows.map (fun r => (r.fiber, r.s, r.z, r.beam, r.constraint)) =
    rows'.map (fun r => (r.fiber, r.s, r.z, r.beam, r.constraint))

/-- Two lists of connections that differ only by their places in the plane. -/
def SameConnections (rows rows' : List (NetRow K)) : Prop :=
  rows.map (fun r => (r.A, r.B, r.sA, r.sB, r.zA, r.zB)) = rows'.map (fun r => (r.A, r.B, r.sA, r.sB, r.zA, r.zB))

end Fibermat.Spec
