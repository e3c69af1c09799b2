import Verif.Spec.Continuum
import Verif.Spec.MeshInit

/-! # Specification of a smooth deformation of one fiber, seen by finer and finer meshes -/

namespace Fibermat.Spec

/-- Deflection `w` and rotation `t` along a fiber, as functions of the abscissa, with continuous derivatives `w'` and `t'`. -/
structure Smooth (w t w' t' : ℝ → ℝ) : Prop where
  deriv_w : ∀ s, HasDerivAt w (w' s) s
  deriv_t : ∀ s, HasDerivAt t (t' s) s
  cont_w : Continuous w'
  cont_t : Continuous t'

/-- The displacements `u` of the nodes of fiber `k` are those of the deformation; the other fibers are at rest. -/
def Sampled {K : Type} [Field K] (φ : K →+* ℝ) (rows : List (MeshRow K)) (k : ℕ) (w t : ℝ → ℝ) (u : ℕ → K) : Prop :=
  ∀ i, (i ∈ nodesOf rows k → φ (u (2 * i)) = w (φ (abscissa rows i)) ∧ φ (u (2 * i + 1)) = t (φ (abscissa rows i))) ∧
    (i ∉ nodesOf rows k → u (2 * i) = 0 ∧ u (2 * i + 1) = 0)

/-- The nodes of fiber `k` go from one end of a fiber of length `l` to the other. -/
def SpansFiber {K : Type} [Field K] [LinearOrder K] (rows : List (MeshRow K)) (k : ℕ) (l : K) : Prop :=
  (∃ i ∈ nodesOf rows k, abscissa rows i = -(l / 2)) ∧ (∃ i ∈ nodesOf rows k, abscissa rows i = l / 2) ∧
    ∀ i ∈ nodesOf rows k, |abscissa rows i| ≤ l / 2

/-- Twice the elastic energy, between the abscissae `a` and `b`, of a beam with bending stiffness `B` and shear stiffness `S`. -/
noncomputable def smoothEnergy (B S a b : ℝ) (t w' t' : ℝ → ℝ) : ℝ := ∫ s in a..b, S * (w' s - t s) ^ 2 + B * t' s ^ 2

end Fibermat.Spec
