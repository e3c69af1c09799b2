import Verif.Model.Interp

/-! # Model of `Interpolate` in `/repo/src/fibermat/interpolation.py` for integers and booleans

`interp1d` converts data that are not floating to doubles; the result is converted back by `astype(self.dtype)` (line 89). -/

namespace Fibermat
variable {K : Type} [Field K] [LinearOrder K]

/-- `astype(int)` of a finite number: the part after the point is dropped. -/
def truncate (floor : K → Int) (a : K) : Int := if a < 0 then -floor (-a) else floor a

/-- `Interpolate(y, size, kind)(t)` for integer data (`interpolation.py:43-89`). Simplification: integers without overflow. -/
def interpolateInt (floor : K → Int) (kind : Kind) (y : List Int) (size : Option Nat) (t : K) : Int :=
  truncate floor (interpolate kind (y.map (fun k : Int => (k : K))) size t)

/-- `Interpolate(y, size, kind)(t)` for booleans: `astype(bool)` is true for all numbers but zero (`interpolation.py:43-89`). -/
def interpolateBool (kind : Kind) (y : List Bool) (size : Option Nat) (t : K) : Bool :=
  decide (interpolate kind (y.map (fun b => if b then (1 : K) else 0)) size t ≠ 0)

end Fibermat
