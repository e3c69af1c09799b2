import Verif.Spec.Broken

/-! # Shear force and bending moment in the fibers -/

namespace Fibermat.Spec
variable {K : Type} [Field K] [LinearOrder K]

/-- Shear force in a beam of length `l` with ends displaced by `ui`, `uj` and rotated by `ti`, `tj` (`c`: coupling factor). -/
def beamShear (f : Fiber K) (l c ui ti uj tj : K) : K := transverse f l * (uj - ui - c * l * (ti + tj) / 2)

/-- Bending moment at the middle of a beam of tensile modulus `E`. -/
def beamMoment (f : Fiber K) (E l ti tj : K) : K := transverse f l * (l ^ 2 / 12 + E / f.G * f.h ^ 2) * (tj - ti)

open Classical in
/-- Shear force in the fiber `f` just after node `i`; zero beyond its last node. -/
noncomputable def shearAfter (f : Fiber K) (rows : List (MeshRow K)) (L : ℕ → K) (c : K) (u : ℕ → K) (i : ℕ) : K :=
  if SameFiber rows i (i + 1) then beamShear f (L i) c (u (2 * i)) (u (2 * i + 1)) (u (2 * (i + 1))) (u (2 * (i + 1) + 1)) else 0

/-- Shear force just before node `i`; zero before the first node of the fiber. -/
noncomputable def shearBefore (f : Fiber K) (rows : List (MeshRow K)) (L : ℕ → K) (c : K) (u : ℕ → K) : ℕ → K
  | 0 => 0
  | i + 1 => shearAfter f rows L c u i

open Classical in
/-- Bending moment just after node `i` (coupling 1): the moment is linear along a beam, and its slope is the opposite of the shear force. -/
noncomputable def momentAfter (f : Fiber K) (E : K) (rows : List (MeshRow K)) (L u : ℕ → K) (i : ℕ) : K :=
  if SameFiber rows i (i + 1) then beamMoment f E (L i) (u (2 * i + 1)) (u (2 * (i + 1) + 1)) + shearAfter f rows L 1 u i * (L i / 2) else 0

open Classical in
/-- Bending moment just before node `i`. -/
noncomputable def momentBefore (f : Fiber K) (E : K) (rows : List (MeshRow K)) (L u : ℕ → K) : ℕ → K
  | 0 => 0
  | i + 1 => if SameFiber rows i (i + 1) then beamMoment f E (L i) (u (2 * i + 1)) (u (2 * (i + 1) + 1)) - shearAfter f rows L 1 u i * (L i / 2) else 0

end Fibermat.Spec
