import Mathlib.MeasureTheory.Integral.IntervalIntegral.Basic
import Mathlib.Analysis.Calculus.Deriv.Basic
import Verif.Spec.Section
import Verif.Spec.Energy

/-! # Specification of a Timoshenko beam as a continuous body

`stiffness` refers to Timoshenko–Ehrenfest beam theory (`model.py:47`): a beam has at every point a deflection `w` and a rotation `t`
of the section; the shear strain is `w' - t` and the curvature is `t'`. -/

namespace Fibermat.Spec

/-- Deflection `w` and rotation `t` of a beam of length `l`, with continuous derivatives `w'` and `t'`, and given values at the ends. -/
structure BeamField (l ui ti uj tj : ℝ) (w t w' t' : ℝ → ℝ) : Prop where
  deriv_w : ∀ s, HasDerivAt w (w' s) s
  deriv_t : ∀ s, HasDerivAt t (t' s) s
  cont_w : Continuous w'
  cont_t : Continuous t'
  left : w 0 = ui ∧ t 0 = ti
  right : w l = uj ∧ t l = tj

/-- Twice the elastic energy of a beam with bending stiffness `B` and shear stiffness `S`. -/
noncomputable def fieldEnergy (B S l : ℝ) (t w' t' : ℝ → ℝ) : ℝ := ∫ s in (0 : ℝ)..l, S * (w' s - t s) ^ 2 + B * t' s ^ 2

variable {K : Type} [Field K] [LinearOrder K]

/-- Deflections and rotations along all beams that start at nodes of the mesh, with the displacements `v` of the nodes at the ends; `φ`
reads the numbers of the model as real numbers. -/
def MatField (φ : K →+* ℝ) (rows : List (MeshRow K)) (L v : ℕ → K) (w t w' t' : ℕ → ℝ → ℝ) : Prop :=
  ∀ i, StartsBeam rows i → BeamField (φ (L i)) (φ (v (2 * i))) (φ (v (2 * i + 1))) (φ (v (2 * succNode rows i)))
    (φ (v (2 * succNode rows i + 1))) (w i) (t i) (w' i) (t' i)

/-- Twice the elastic energy of all beams, with elliptic sections and tensile moduli `E`. -/
noncomputable def matFieldEnergy (φ : K →+* ℝ) (mat : Mat K) (rows : List (MeshRow K)) (L : ℕ → K) (E : Fiber K → K)
    (t w' t' : ℕ → ℝ → ℝ) : ℝ :=
  open Classical in
  ∑ i ∈ (Finset.range rows.length).filter (StartsBeam rows), match nodeFiber mat rows i with
    | none => 0
    | some f => fieldEnergy (φ (E f) * ellipseInertia (φ f.b) (φ f.h)) (φ f.G * ellipseArea (φ f.b) (φ f.h)) (φ (L i)) (t i) (w' i) (t' i)

end Fibermat.Spec
