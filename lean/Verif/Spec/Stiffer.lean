import Verif.Spec.Energy

/-! # Specification: a mat made of stiffer fibers -/

namespace Fibermat.Spec
variable {K : Type} [Field K] [LinearOrder K]

/-- Fiber by fiber, `mat'` has the thicknesses of `mat`, and at least its widths and moduli. -/
structure StifferMat (mat mat' : Mat K) : Prop where
  number : mat'.fibers.length = mat.fibers.length
  fiber : ∀ (k : ℕ) (f f' : Fiber K), mat.fibers[k]? = some f → mat'.fibers[k]? = some f' →
    f'.h = f.h ∧ f.b ≤ f'.b ∧ f.G ≤ f'.G ∧ f.E ≤ f'.E

/-- Fiber by fiber, both mats have the same shear moduli. -/
def SameShear (mat mat' : Mat K) : Prop :=
  ∀ (k : ℕ) (f f' : Fiber K), mat.fibers[k]? = some f → mat'.fibers[k]? = some f' → f.G = f'.G

/-- Twice the elastic energy of a Timoshenko beam of length `l`, bending stiffness `B` and shear stiffness `S`, in equilibrium with
forces and moments at its ends only: the ends are displaced by `ui`, `uj` and rotated by `ti`, `tj`. -/
def timoshenkoEnergy (B S l ui ti uj tj : K) : K :=
  (l ^ 3 / (12 * B) + l / S)⁻¹ * (uj - ui - l * ((ti + tj) / 2)) ^ 2 + B / l * (tj - ti) ^ 2

end Fibermat.Spec
