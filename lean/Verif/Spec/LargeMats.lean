import Verif.Spec.Chance
import Verif.Props.MatInit
import Mathlib.Topology.Instances.Real.Lemmas

/-! # Specification: larger and larger mats with the same number of fibers per area -/

namespace Fibermat.Spec
open Filter Topology

/-- Arguments of `Mat` for `1, 2, 3, …` fibers of length `l`, with directions uniform over the half turn, in boxes at least twice as long as the
fibers, the number of fibers per area tending to `ρ`. -/
structure GrowingMats (a : ℕ → MatArgs ℝ) (l ρ : ℝ) : Prop where
  n : ∀ t, (a t).n = t + 1
  seed : ∀ t, GoodSeed (a t).seed ∧ (a t).seed ≠ none
  positive : ∀ t, PositiveArgs (a t)
  length : ∀ t, (a t).length = l
  small : ∀ t, l ≤ (a t).size / 2
  planar : ∀ t, (a t).psi = 0
  theta : ∀ t, (a t).theta = Real.pi
  density : Tendsto (fun t : ℕ => ((t : ℝ) + 1) / (a t).size ^ 2) atTop (𝓝 ρ)

/-- The mean number of neighbours of a fiber of length `l` among `ρ` fibers per area. -/
noncomputable def meanNeighbours (l ρ : ℝ) : ℝ := 2 * ρ * l ^ 2 / Real.pi

/-- The Poisson law. -/
noncomputable def poisson (r : ℝ) (k : ℕ) : ℝ := Real.exp (-r) * r ^ k / k.factorial

end Fibermat.Spec
