import Verif.Spec.Linked

/-! # Specification of the material of fibers that do not connect the plates (C138) -/

namespace Fibermat.Spec
variable {K : Type} [Field K] [LinearOrder K]

/-- Two mats with equally many fibers of the same thicknesses; widths and moduli are the same too, except for the fibers of the
set `U`. -/
structure SameBut (U : ℕ → Prop) (mat mat' : Mat K) : Prop where
  length : mat'.fibers.length = mat.fibers.length
  thick : ∀ (k : ℕ) (f f' : Fiber K), mat.fibers[k]? = some f → mat'.fibers[k]? = some f' → f'.h = f.h
  same : ∀ (k : ℕ) (f f' : Fiber K), mat.fibers[k]? = some f → mat'.fibers[k]? = some f' → ¬ U k →
    f'.b = f.b ∧ f'.G = f.G ∧ f'.E = f.E

/-- No node of the fibers of the set `U` is linked with both plates by chains of beams and closed contacts. -/
def Idle (U : ℕ → Prop) (mat : Mat K) (rows : List (MeshRow K)) (tol Z : K) (u : ℕ → K) : Prop :=
  ∀ (m : ℕ) (r : MeshRow K), rows[m]? = some r → U r.fiber.toNat → ¬ (Hung mat rows tol Z u m ∧ Based mat rows tol u m)

end Fibermat.Spec
