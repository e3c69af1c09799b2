import Verif.Spec.Render
import Mathlib.Algebra.Polynomial.Derivative
import Mathlib.Algebra.Polynomial.Degree.Defs
import Mathlib.Algebra.Order.Group.Abs

/-! # Specification of the deflection of a beam and of a periodic picture -/

namespace Fibermat.Spec
variable {K : Type} [Field K] [LinearOrder K]
open Polynomial

/-- `w` is the cubic deflection of a beam of length `l` with end displacements `y0`, `y1` and end slopes `t0`, `t1`. -/
structure Deflection (l y0 y1 t0 t1 : K) (w : K[X]) : Prop where
  degree : w.natDegree ≤ 3
  left : w.eval 0 = y0
  right : w.eval l = y1
  slopeLeft : (derivative w).eval 0 = t0
  slopeRight : (derivative w).eval l = t1

/-- `p` belongs to the tiling of the plane by the points `pts` with period `size`. -/
def InTiling (size : K) (pts : List (K × K × K)) (p : K × K × K) : Prop :=
  ∃ q ∈ pts, ∃ i j : ℤ, p = (q.1 + i * size, q.2.1 + j * size, q.2.2)

end Fibermat.Spec
