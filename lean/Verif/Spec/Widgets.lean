import Verif.Model.Widgets

/-! # Specification of a settings record with optional entries -/

namespace Fibermat.Spec
variable {K : Type} [Field K] [LinearOrder K]

/-- Settings that are ticked rather than typed. -/
def Ticked (name : Name) : Prop := name = .periodic ∨ name = .verbose

/-- Settings with a slider. -/
def Slider (name : Name) : Prop := name = .theta ∨ name = .itermax ∨ name = .tol

/-- Settings that may be left out. -/
def Optional (name : Name) : Prop :=
  name = .seed ∨ name = .threshold ∨ name = .lmin ∨ name = .lmax ∨ name = .interpSize

/-- Settings that may be infinite by switching them off. -/
def Modulus (name : Name) : Prop := name = .shear ∨ name = .tensile

/-- Integer settings. -/
def Integer (name : Name) : Prop := name = .n ∨ name = .seed ∨ name = .interpSize

/-- The value that switches a setting off. -/
def Off (name : Name) (v : PyVal K) : Prop := (Modulus name ∧ v = .npInf) ∨ (Optional name ∧ v = .none)

/-- Values a setting accepts. -/
def Accepts (name : Name) : PyVal K → Prop
  | .bool _ => Ticked name
  | .none => Optional name
  | .num _ => ¬ Ticked name
  | .npInf => ¬ Ticked name ∧ ¬ Integer name
  | .otherInf => ¬ Ticked name ∧ ¬ Integer name

/-- What is read after `v` was written to a setting. -/
inductive ReadsAs : Name → PyVal K → PyVal K → Prop
  /-- no slider: the value itself -/
  | plain {name v} : ¬ Slider name → ReadsAs name v v
  /-- angles are given as a fraction of pi -/
  | theta {a} : 0 ≤ a → a ≤ 1 → ReadsAs .theta (.num a) (.num (a * npPi))
  /-- numbers of iterations are integers -/
  | itermax {a : K} {k : ℤ} : 1 ≤ a → a ≤ 1000000 → (k : K) ≤ a → a < k + 1 → ReadsAs .itermax (.num a) (.num k)
  | tol {a : K} : 1 / 10000000000 ≤ a → a ≤ 1 / 10 → ReadsAs .tol (.num a) (.num a)
  /-- values beyond the range of a slider are moved to its ends -/
  | thetaLow {a : K} : a < 0 → ReadsAs .theta (.num a) (.num 0)
  | thetaHigh {a : K} : 1 < a → ReadsAs .theta (.num a) (.num npPi)
  | itermaxLow {a : K} : a < 1 → ReadsAs .itermax (.num a) (.num 1)
  | itermaxHigh {a : K} : 1000000 < a → ReadsAs .itermax (.num a) (.num 1000000)
  | tolLow {a : K} : a < 1 / 10000000000 → ReadsAs .tol (.num a) (.num (1 / 10000000000))
  | tolHigh {a : K} : 1 / 10 < a → ReadsAs .tol (.num a) (.num (1 / 10))
  | thetaInf {v : PyVal K} : v = .npInf ∨ v = .otherInf → ReadsAs .theta v (.num npPi)
  | itermaxInf {v : PyVal K} : v = .npInf ∨ v = .otherInf → ReadsAs .itermax v (.num 1000000)
  | tolInf {v : PyVal K} : v = .npInf ∨ v = .otherInf → ReadsAs .tol v (.num (1 / 10))

/-- `v` is the last value written to `name` by a list of writes. -/
def LastWrite (l : List (Name × PyVal K)) (name : Name) (v : PyVal K) : Prop :=
  ∃ l1 l2, l = l1 ++ (name, v) :: l2 ∧ ∀ p ∈ l2, p.1 ≠ name

/-- One user action: a write, or a click on the check box of a setting. -/
inductive Op (K : Type) where
  | write (name : Name) (v : PyVal K)
  | click (name : Name) (on : Bool)

/-- The action does not change the stored value of `name`. -/
def Op.Keeps (name : Name) : Op K → Prop
  | .write n v => n ≠ name ∨ Off name v
  | .click _ _ => True

/-- The integer part. -/
def IsFloor (floor : K → ℤ) : Prop := ∀ a, (floor a : K) ≤ a ∧ a < floor a + 1

/-- The sliders hold numbers between their bounds. -/
def InRange (st : Settings K) : Prop :=
  (∃ a, (st .theta).value = .num a ∧ 0 ≤ a ∧ a ≤ 1) ∧ (∃ a, (st .itermax).value = .num a ∧ 1 ≤ a ∧ a ≤ 1000000) ∧
  (∃ a, (st .tol).value = .num a ∧ 1 / 10000000000 ≤ a ∧ a ≤ 1 / 10)

/-- IsInf floats. -/
def IsInf (v : PyVal K) : Prop := v = .npInf ∨ v = .otherInf

end Fibermat.Spec
