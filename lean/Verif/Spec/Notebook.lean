import Verif.Spec.Widgets
import Verif.Model.Notebook

/-! # Specification of a computation controlled by settings -/

namespace Fibermat.Spec
variable {K : Type} [Field K] [LinearOrder K]

/-- The documented values of the settings before anything is written (the angle as a fraction of pi). -/
def StandardValue (name : Name) : PyVal K :=
  match name with
  | .n | .seed => .num 0
  | .length => .num 25
  | .width | .thickness | .theta | .shear | .packing | .coupling => .num 1
  | .size => .num 50
  | .tensile => .npInf
  | .itermax => .num 1000
  | .tol => .num (1 / 1000000)
  | .threshold | .lmin | .lmax | .interpSize => .none
  | .periodic | .verbose => .bool true

/-- The value that counts for a setting after a list of writes: the last one written, the standard one when none was. -/
def Counts (l : List (Name × PyVal K)) (name : Name) (w : PyVal K) : Prop :=
  (∃ v, LastWrite l name v ∧ ReadsAs name v w) ∨ ((∀ p ∈ l, p.1 ≠ name) ∧ ReadsAs name (StandardValue name) w)

/-- A value read as a number or infinity. -/
inductive MeansTop : PyVal K → WithTop K → Prop
  | num (a : K) : MeansTop (.num a) a
  | inf {v} : IsInf v → MeansTop v ⊤

/-- A value read as a number or infinity, in a cell. -/
inductive MeansCell : PyVal K → Cell K → Prop
  | num (a : K) : MeansCell (.num a) (.fin a)
  | inf {v} : IsInf v → MeansCell v .pinf

/-- A value read as a number or nothing. -/
def optValue : Option K → PyVal K
  | none => .none
  | some a => .num a

/-- What a user asks for. -/
structure Ask (K : Type) where
  n : ℤ
  length : K
  width : K
  thickness : K
  size : K
  angle : K
  shear : K
  tensile : WithTop K
  seed : Option ℤ
  periodic : Bool
  threshold : Option K
  packing : Cell K
  itermax : ℕ
  tol : K
  lmin : Option K
  lmax : Option K
  coupling : K
  samples : Option ℕ

/-- The writes `l` ask for `v`. -/
structure Asks (l : List (Name × PyVal K)) (v : Ask K) : Prop where
  n : Counts l .n (.num (v.n : K))
  length : Counts l .length (.num v.length)
  width : Counts l .width (.num v.width)
  thickness : Counts l .thickness (.num v.thickness)
  size : Counts l .size (.num v.size)
  angle : Counts l .theta (.num v.angle)
  shear : Counts l .shear (.num v.shear)
  tensile : ∃ w, Counts l .tensile w ∧ MeansTop w v.tensile
  seed : Counts l .seed (optValue (v.seed.map (fun k : ℤ => (k : K))))
  periodic : Counts l .periodic (.bool v.periodic)
  threshold : Counts l .threshold (optValue v.threshold)
  packing : ∃ w, Counts l .packing w ∧ MeansCell w v.packing
  itermax : Counts l .itermax (.num (v.itermax : K))
  tol : Counts l .tol (.num v.tol)
  lmin : Counts l .lmin (optValue v.lmin)
  lmax : Counts l .lmax (optValue v.lmax)
  coupling : Counts l .coupling (.num v.coupling)
  samples : Counts l .interpSize (optValue (v.samples.map (fun k : ℕ => (k : K))))

/-- The fibers asked for; they lie in the plane. -/
def Ask.fibers (v : Ask K) : MatArgs K :=
  { n := v.n, length := v.length, width := v.width, thickness := v.thickness, size := v.size, theta := v.angle, psi := 0,
    shear := v.shear, tensile := v.tensile, seed := v.seed }

/-- All the keywords of the computation written out with the values of the documentation (`mat.py:165-186`, `solver.py:57-103`,
`model.py:77`) and of the signatures (`net.py:145,532`, `model.py:12`), the angle in radians. -/
def writtenOut : List (Kw × PyVal K) :=
  [(.setting .n, .num 0), (.setting .length, .num 25), (.setting .width, .num 1), (.setting .thickness, .num 1),
    (.setting .size, .num 50), (.setting .theta, .num npPi), (.psi, .num 0), (.setting .shear, .num 1), (.setting .tensile, .npInf),
    (.setting .seed, .num 0), (.setting .periodic, .bool true), (.setting .threshold, .none), (.setting .packing, .num 1),
    (.setting .itermax, .num 1000), (.setting .tol, .num (1 / 1000000)), (.errtol, .num (1 / 1000000)), (.setting .lmin, .none),
    (.setting .lmax, .none), (.setting .coupling, .num 1), (.setting .interpSize, .none)]

end Fibermat.Spec
