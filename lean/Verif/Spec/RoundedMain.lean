import Verif.Spec.RoundedMat
import Verif.Spec.Rounded

/-! # Specification of the main program with rounded arithmetic -/

namespace Fibermat.Spec
variable {K : Type} [Field K] [LinearOrder K]

/-- What is used of the arithmetic in the main program. -/
structure ProgramArith (fl sq : K → K) (u ε : K) (cos sin : K → K) (a : MatArgs K) : Prop where
  rounds : Rounds fl u
  root : RoundsSqrt sq u
  small : u ≤ 1 / 10 ^ 8
  one : fl 1 = 1
  half : HalfExact fl 1
  size : HalfExact fl a.size
  circle : NearUnit cos sin ε
  eps : ε ≤ 1 / 10 ^ 6
  ends : ∀ m : Mat K, (∀ f ∈ m.fibers, |f.u ^ 2 + f.v ^ 2 + f.w ^ 2 - 1| ≤ 3 * ε + 3 * u) → FindsEnds (numpyArith fl sq) m

/-- The bounds on the lengths of beams in the main program: a positive `lmin`, number of the format, not above `lmax`; without `lmax`, not
above the `n`-th part of the length of the fibers. -/
structure ProgramLengths (fl : K → K) (u : K) (a : MatArgs K) (lmin lmax : Option K) (l : K) : Prop where
  given : lmin = some l
  pos : 0 < l
  format : fl l = l
  below : ∀ b, lmax = some b → l ≤ b
  free : lmax = none → l * a.n ≤ (1 - u) * a.length

end Fibermat.Spec
