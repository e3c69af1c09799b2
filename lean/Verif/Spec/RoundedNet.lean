import Verif.Spec.Rounded
import Verif.Spec.Net
import Verif.Model.Stack
import Verif.Model.RoundedNet

/-! # Specification of the network with rounded arithmetic -/

namespace Fibermat.Spec
variable {K : Type} [Field K] [LinearOrder K]

/-- What is used of the arithmetic of `Net`. -/
structure SoundArith (N : NetArith K) (u : K) : Prop where
  rounds : Rounds N.fl u
  lt : u < 1
  closer : ∀ d, 0 < d → N.closer 0 0 d = true

/-- The same direction. -/
def SameDir (f g : Fiber K) : Prop := f.u = g.u ∧ f.v = g.v ∧ f.w = g.w

/-- The determinant of the normal equations of a fiber with itself, or with its periodic copies, is found to be zero. -/
def FindsEnds (N : NetArith K) (m : Mat K) : Prop :=
  ∀ e ∈ m.fibers, ∀ f g : Fiber K, SameDir f e → SameDir g e → N.sol f g = none

/-- The linear solver is not disturbed by the heights of horizontal fibers (they are multiplied by zero). -/
def IgnoresHeights (N : NetArith K) : Prop :=
  ∀ f g : Fiber K, f.w = 0 → g.w = 0 → ∀ z z' : K, N.sol { f with z := z } { g with z := z' } = N.sol f g

/-- Arithmetic with which the network of a mat is reliable. -/
structure SafeNet (N : NetArith K) (u : K) (m : Mat K) : Prop where
  sound : SoundArith N u
  ends : FindsEnds N m
  heights : IgnoresHeights N

/-- The answers of the linear programming solver are numbers of the format. -/
def InFormat (fl : K → K) (lp : Linprog K) : Prop := ∀ p z, lp p = some z → ∀ c ∈ z, fl c = c

/-- A point and the number `a + s * b` from which it was computed with two roundings. -/
def NearPoint (u : K) (p a s b : K) : Prop := |p - (a + s * b)| ≤ u * (|a| + 3 * |s * b|)

/-- For any two fibers with the directions of `f` and `g`, abscissae computed within their lengths give points of the two lines at most
`η` apart in x and in y. -/
def MeetsWithin (N : NetArith K) (η : K) (f g : Fiber K) : Prop :=
  ∀ p q R, SameDir p f → SameDir q g → N.sol p q = some R → |R.1| < N.fl (f.l / 2) → |R.2| < N.fl (g.l / 2) →
    |(p.x + R.1 * p.u) - (q.x - R.2 * q.u)| ≤ η ∧ |(p.y + R.1 * p.v) - (q.y - R.2 * q.v)| ≤ η

/-- The comparison of distances has an error of at most the fraction `ν`. -/
def NearTest (N : NetArith K) (ν : K) : Prop :=
  ∀ dx dy d, 0 < d → dx ^ 2 + dy ^ 2 ≤ ((1 - ν) * d) ^ 2 → N.closer dx dy d = true

/-- The abscissae computed for two fibers are those of the crossing `s`, `t` up to `η`, whichever fiber comes first. -/
def SolvesWithin (N : NetArith K) (η : K) (f g : Fiber K) (s t : K) : Prop :=
  (∃ R, N.sol f g = some R ∧ |R.1 - s| ≤ η ∧ |R.2 + t| ≤ η) ∧ (∃ R, N.sol g f = some R ∧ |R.1 - t| ≤ η ∧ |R.2 + s| ≤ η)

/-- What is used of the square root. -/
def RoundsSqrt (sq : K → K) (u : K) : Prop :=
  ∀ x, 0 ≤ x → 0 ≤ sq x ∧ (1 - u) ^ 2 * x ≤ sq x ^ 2 ∧ sq x ^ 2 ≤ (1 + u) ^ 2 * x

/-- Crossing of the lines of two horizontal fibers. -/
structure LinesMeet (f g : Fiber K) (s t : K) : Prop where
  wf : f.w = 0
  wg : g.w = 0
  x : f.x + s * f.u = g.x + t * g.u
  y : f.y + s * f.v = g.y + t * g.v

/-- A direction of norm close to one, seen from above. -/
def NearUnitDir (f : Fiber K) : Prop := 999 / 1000 ≤ f.u ^ 2 + f.v ^ 2 ∧ f.u ^ 2 + f.v ^ 2 ≤ 1001 / 1000

end Fibermat.Spec
