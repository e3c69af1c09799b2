import Verif.Spec.RoundedNet
import Verif.Spec.RoundedAssembly
import Verif.Spec.Random
import Verif.Spec.Frames
import Verif.Model.RoundedMat

/-! # Specification of the mat and of the program with rounded arithmetic -/

namespace Fibermat.Spec
variable {K : Type} [Field K] [LinearOrder K]

/-- Half of `a` and its opposite are numbers of the format. -/
structure HalfExact (fl : K → K) (a : K) : Prop where
  pos : fl (a / 2) = a / 2
  neg : fl (-(a / 2)) = -(a / 2)

/-- Valid data of a fiber, where the norm of the direction is one up to `t`. -/
structure GoodUpTo (size t : K) (f : Fiber K) : Prop where
  l : 0 < f.l
  b : 0 < f.b
  h : 0 < f.h
  x1 : -(size / 2) ≤ f.x
  x2 : f.x ≤ size / 2
  y1 : -(size / 2) ≤ f.y
  y2 : f.y ≤ size / 2
  dir1 : (1 - t) ^ 2 ≤ f.u ^ 2 + f.v ^ 2 + f.w ^ 2
  dir2 : f.u ^ 2 + f.v ^ 2 + f.w ^ 2 ≤ (1 + t) ^ 2
  G : 0 < f.G
  E : 0 < f.E

/-- A set of fibers, valid up to `t`. -/
structure GoodMatUpTo (t : K) (m : Mat K) : Prop where
  n : m.attrs.n = some (m.fibers.length : Int)
  size : ∃ S, m.attrs.size = some S ∧ ∀ f ∈ m.fibers, GoodUpTo S t f

/-- The function `c'` is computed with an error of at most `η`; `c` does not grow faster than its argument, and both are bounded by one
(cosine and sine). -/
structure Tracks (c c' : K → K) (η : K) : Prop where
  near : ∀ x y, |c' y - c x| ≤ |y - x| + η
  le : ∀ x, |c x| ≤ 1
  le' : ∀ x, |c' x| ≤ 1

/-- Two fibers with the same dimensions and moduli, at most `δ` apart in position, with directions at most `δ'` apart. -/
structure NearFiber (δ δ' : K) (f f' : Fiber K) : Prop where
  x : |f'.x - f.x| ≤ δ
  y : |f'.y - f.y| ≤ δ
  z : |f'.z - f.z| ≤ δ
  u : |f'.u - f.u| ≤ δ'
  v : |f'.v - f.v| ≤ δ'
  w : |f'.w - f.w| ≤ δ'
  same : (f'.l, f'.b, f'.h, f'.G, f'.E) = (f.l, f.b, f.h, f.G, f.E)

end Fibermat.Spec
