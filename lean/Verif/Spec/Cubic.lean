import Mathlib.Algebra.Polynomial.Derivative

/-! # The spline of third order of equally spaced data -/

namespace Fibermat.Spec
variable {K : Type} [Field K]

/-- `P 0, …, P (n - 1)` are the pieces of the spline of third order through `y 0, …, y n` at the times `0, 1/n, …, 1`:
the pieces pass through the data and join with the same slope and the same curvature; the second time and the last but
one are not knots. -/
structure CubicSpline (n : ℕ) (y : ℕ → K) (P : ℕ → Polynomial K) : Prop where
  degree : ∀ i, i < n → (P i).natDegree ≤ 3
  left : ∀ i, i < n → (P i).eval ((i : K) / n) = y i
  right : ∀ i, i < n → (P i).eval (((i + 1 : ℕ) : K) / n) = y (i + 1)
  slope : ∀ i, i + 1 < n → (P i).derivative.eval (((i + 1 : ℕ) : K) / n) = (P (i + 1)).derivative.eval (((i + 1 : ℕ) : K) / n)
  curve : ∀ i, i + 1 < n → (P i).derivative.derivative.eval (((i + 1 : ℕ) : K) / n) =
    (P (i + 1)).derivative.derivative.eval (((i + 1 : ℕ) : K) / n)
  first : P 0 = P 1
  last : P (n - 2) = P (n - 1)

end Fibermat.Spec
