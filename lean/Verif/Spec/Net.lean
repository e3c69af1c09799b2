import Verif.Model.Net
import Verif.Spec.Frames

/-! # Specification of the network of a mat -/

namespace Fibermat.Spec
variable {K : Type} [Field K] [LinearOrder K]

/-- The point of abscissa `s` on the line of a fiber. -/
def pointAt (f : Fiber K) (s : K) : K × K × K := (f.x + s * f.u, f.y + s * f.v, f.z + s * f.w)

/-- Squared distance of two points. -/
def dist2 (p q : K × K × K) : K := (p.1 - q.1) ^ 2 + (p.2.1 - q.2.1) ^ 2 + (p.2.2 - q.2.2) ^ 2

/-- A point moved by `i` boxes in x and `j` boxes in y. -/
def moved (size : K) (i j : ℤ) (p : K × K × K) : K × K × K := (p.1 + i * size, p.2.1 + j * size, p.2.2)

/-- Rows strictly increasing in (A, B). -/
def IncreasingAB (rows : List (NetRow K)) : Prop :=
  rows.Pairwise (fun r q => r.A < q.A ∨ (r.A = q.A ∧ r.B < q.B))

/-- `A`, `B` are the labels of the fibers `f`, `g` of the mat. -/
def Joins (m : Mat K) (r : NetRow K) (f g : Fiber K) : Prop :=
  ∃ a b : Nat, r.A = (a : Int) ∧ r.B = (b : Int) ∧ m.fibers[a]? = some f ∧ m.fibers[b]? = some g

/-- Horizontal fiber of unit direction. -/
def Planar (f : Fiber K) : Prop := f.w = 0 ∧ f.u ^ 2 + f.v ^ 2 = 1

/-- Directions of horizontal fibers that are not parallel. -/
def NotParallel (f g : Fiber K) : Prop := f.u * g.v - f.v * g.u ≠ 0

/-- Seen from above, the fibers cross at interior points of abscissae `s`, `t`, the second one being moved by
`(i, j)` boxes. -/
def CrossAt (size : K) (i j : ℤ) (f g : Fiber K) (s t : K) : Prop :=
  |s| < f.l / 2 ∧ |t| < g.l / 2 ∧
    f.x + s * f.u = g.x + i * size + t * g.u ∧ f.y + s * f.v = g.y + j * size + t * g.v

/-- Two mats with the same data but for heights. -/
def SameExceptZ (m m' : Mat K) : Prop :=
  m.attrs = m'.attrs ∧ m.fibers.map (fun f => { f with z := 0 }) = m'.fibers.map (fun f => { f with z := 0 })

/-- Pairs of valid (numpy) indices of fibers. -/
def PairsInRange (m : Mat K) (ps : List (Int × Int)) : Prop :=
  ∀ p ∈ ps, -(m.fibers.length : Int) ≤ p.1 ∧ p.1 < m.fibers.length ∧ -(m.fibers.length : Int) ≤ p.2 ∧ p.2 < m.fibers.length

/-- The same unordered pairs. -/
def SamePairs (ps ps' : List (Int × Int)) : Prop :=
  ∀ i j, ((i, j) ∈ ps ∨ (j, i) ∈ ps) ↔ ((i, j) ∈ ps' ∨ (j, i) ∈ ps')

end Fibermat.Spec
