import Verif.Model.Net
import Mathlib.Probability.Independence.Basic
import Mathlib.MeasureTheory.Measure.Lebesgue.Basic
import Mathlib.Analysis.SpecialFunctions.Trigonometric.Basic

/-! # Specification of random mats -/

namespace Fibermat.Spec
open MeasureTheory ProbabilityTheory

/-- The generator that gives the numbers `d 0`, `d 1`, … after any seed. -/
def stream (d : ℕ → ℝ) : Rng ℕ ℝ := ⟨fun _ => 0, fun k => (d k, k + 1)⟩

/-- Independent random numbers with the uniform law on `[0, 1)`. -/
structure UniformDraws {Ω : Type} [MeasurableSpace Ω] (P : Measure Ω) (d : ℕ → Ω → ℝ) : Prop where
  measurable : ∀ k, Measurable (d k)
  range : ∀ k ω, 0 ≤ d k ω ∧ d k ω < 1
  law : ∀ k, P.map (d k) = volume.restrict (Set.Ico 0 1)
  indep : iIndepFun d P

/-- Probability for two fibers of length `l` in a periodic box of side `S` to cross, the angles being uniform in an interval of
length `θ`: `l² / S²` times the mean of the sine of the angle between the fibers. -/
noncomputable def crossChance (l S θ : ℝ) : ℝ := l ^ 2 / S ^ 2 * (2 * (θ - Real.sin θ) / θ ^ 2)

/-- Fibers `a` and `b` are connected in the network. -/
def AreConnected {K : Type} (net : Net K) (a b : ℕ) : Prop := ∃ r ∈ net.rows, r.A = (a : ℤ) ∧ r.B = (b : ℤ)

end Fibermat.Spec
