import Mathlib.MeasureTheory.Constructions.BorelSpace.Basic
import Mathlib.MeasureTheory.Measure.Lebesgue.Basic
import Mathlib.MeasureTheory.Integral.Bochner.Set
import Mathlib.Analysis.Real.Pi.Bounds

/-! # Specification of the elliptic section of a fiber

The documentation of `stiffness` (`model.py:16-44`) gives a fiber of width `b` and thickness `h` the area `(π/4) b h`; this is the
area of an ellipse with axes `b` and `h`. -/

namespace Fibermat.Spec
open MeasureTheory

/-- The ellipse of width `b` and thickness `h`, centered at 0. -/
def Ellipse (b h : ℝ) : Set (ℝ × ℝ) := {p | (p.1 / (b / 2)) ^ 2 + (p.2 / (h / 2)) ^ 2 < 1}

/-- Area of the ellipse. -/
noncomputable def ellipseArea (b h : ℝ) : ℝ := ∫ _ in Ellipse b h, (1 : ℝ)

/-- Second moment of area of the ellipse about its horizontal axis. -/
noncomputable def ellipseInertia (b h : ℝ) : ℝ := ∫ p in Ellipse b h, p.2 ^ 2

/-- The cylinder of length `l` over the ellipse. -/
def Cylinder (l b h : ℝ) : Set (ℝ × (ℝ × ℝ)) := {p | |p.1| ≤ l / 2 ∧ p.2 ∈ Ellipse b h}

/-- Numbers with at most 53 binary digits. -/
def Double (x : ℝ) : Prop := ∃ m e : ℤ, |m| < 2 ^ 53 ∧ x = m * 2 ^ e

end Fibermat.Spec
