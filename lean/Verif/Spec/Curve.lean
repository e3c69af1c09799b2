import Verif.Spec.Energy
import Verif.Model.Interp
import Verif.Model.Solver

/-! # The curve of force and thickness returned by `solve` -/

namespace Fibermat.Spec
variable {K : Type} [Field K] [LinearOrder K]

/-- Height of the plate at pseudo-time `t`. -/
def heightAt (recs : List (Rec K)) (size : Option ℕ) (t : K) : K := interpolate .linear (recs.map (·.Z)) size t

/-- Total force of the plate at pseudo-time `t`, from the interpolated force vector; `n` is the number of displacements. -/
def forceAt (C : Coo K) (n : ℕ) (recs : List (Rec K)) (size : Option ℕ) (t : K) : K :=
  totalForce C (fun j => interpolate .linear (recs.map (fun a => a.x (n + j))) size t) 2

/-- Twice the area below the points `(z k, f k)`, `k ≤ n`, by the trapezoidal rule. -/
def twiceArea (z f : ℕ → K) (n : ℕ) : K := ∑ k ∈ Finset.range n, (f k + f (k + 1)) * (z k - z (k + 1))

end Fibermat.Spec
