import Verif.Model.Base

/-! # Specification of the matrices of one beam

Matrices of a beam of length `l` whose ends are displaced by `u₁`, `u₂` and rotated by `t₁`, `t₂`, for the components
`u₁, t₁, u₂, t₂`. -/

namespace Fibermat.Spec
variable {K : Type} [Field K]

/-- A beam of transverse stiffness `k` that bends: `a` is the moment at an end rotated by one, `b` the moment at the other end. -/
def beamMatrix {V : Type} [Neg V] (k m a b : V) : List (List V) :=
  [[k, m, -k, m], [m, a, -m, b], [-k, -m, k, -m], [m, b, -m, a]]

/-- Beam that only shears: the shear stiffness is `k`, rotations are blocked by infinite moments. -/
def shearMatrix (k l : K) : List (List (Cell K)) := beamMatrix (.fin k) (.fin (k * l / 2)) .pinf .ninf

/-- Euler-Bernoulli beam of bending stiffness `B` (textbook form). -/
def eulerMatrix (B l : K) : List (List K) := beamMatrix (12 * B / l ^ 3) (6 * B / l ^ 2) (4 * B / l) (2 * B / l)

/-- The number `Ψ² = E / G * (h / l)²` (`model.py:141`). -/
def psi2 (G E h l : K) : K := E / G * (h / l) ^ 2

/-- Beam that shears and bends, the transverse compliances adding up: shear stiffness `k`, `p = Ψ²`. -/
def timoshenkoMatrix (k p l : K) : List (List K) :=
  let t := k * p / (1 + p)
  beamMatrix t (t * l / 2) (t * l ^ 2 * (1 / 3 + p)) (t * l ^ 2 * (1 / 6 - p))

/-- Entry of a matrix of cells that is at distance at most `δ` of a number. -/
def NearEntry [LinearOrder K] (δ : K) (c : Cell K) (x : K) : Prop := ∃ y, c = .fin y ∧ |y - x| ≤ δ

end Fibermat.Spec
