import Verif.Model.Net

/-! # Specification of fibers that stay inside the box -/

namespace Fibermat.Spec
variable {K : Type} [Field K] [LinearOrder K]

/-- The axis of the fiber, ends excluded, lies inside the box. -/
def InsideBox (S : K) (f : Fiber K) : Prop := ∀ s, |s| < f.l / 2 → |f.x + s * f.u| < S / 2 ∧ |f.y + s * f.v| < S / 2

end Fibermat.Spec
