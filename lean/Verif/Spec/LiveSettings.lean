import Verif.Model.LiveSettings
import Verif.Spec.Widgets

/-! # What the settings should be during a session -/

namespace Fibermat.Spec
variable {K : Type} [Field K] [LinearOrder K]

/-- Settings with a check box. -/
def Switched (name : Name) : Prop := Modulus name ∨ Optional name

/-- Widgets are grey exactly when their check box is off; those without check box never are. -/
def GreyIffOff (s : Live K) : Prop :=
  ∀ name, s.disabled name = true ↔ Switched name ∧ (s.widgets name).switch = false

/-- The writes a call carries out, up to the first refused one, which is included. -/
inductive Tried : List (Name × PyVal K) → List (Name × PyVal K) → Prop
  | nil : Tried [] []
  | stop {name v l} : ¬ Accepts name v → Tried ((name, v) :: l) [(name, v)]
  | next {name v l l'} : Accepts name v → Tried l l' → Tried ((name, v) :: l) ((name, v) :: l')

/-- The values written by a program in a session, refused ones included. -/
inductive Wrote : List (LiveOp K) → List (Name × PyVal K ⊕ Name × Bool) → Prop
  | nil : Wrote [] []
  | write {name v l t} : Wrote l t → Wrote (.write name v :: l) (.inl (name, v) :: t)
  | call {kw kw' l t} : Tried kw kw' → Wrote l t → Wrote (.call kw :: l) (kw'.map .inl ++ t)
  | click {name on l t} : Wrote l t → Wrote (.click name on :: l) (.inr (name, on) :: t)
  | edit {name v l t} : Wrote l t → Wrote (.edit name v :: l) t

/-- The position in which an event puts the check box of `name`, if it concerns it. -/
def Puts (name : Name) : (Name × PyVal K ⊕ Name × Bool) → Bool → Prop
  | .inl (n, v), b => n = name ∧ (b = false ↔ Off name v)
  | .inr (n, on), b => n = name ∧ b = on

/-- The event concerns `name`. -/
def Concerns (name : Name) : (Name × PyVal K ⊕ Name × Bool) → Prop
  | .inl (n, _) => n = name
  | .inr (n, _) => n = name

/-- A write of `v` to `n` does not give `name` a new value: it concerns another setting, switches off, or is refused. -/
def NoValue (name n : Name) (v : PyVal K) : Prop := n ≠ name ∨ Off name v ∨ ¬ Accepts name v

/-- The action gives `name` no new value. -/
def KeepsValue (name : Name) : LiveOp K → Prop
  | .write n v => NoValue name n v
  | .call kw => ∀ p ∈ kw, NoValue name p.1 p.2
  | .click _ _ => True
  | .edit n _ => n ≠ name

/-- `name` is used: it has no check box, or its check box is on. -/
def InUse (s : Live K) (name : Name) : Prop := Switched name → (s.widgets name).switch = true

end Fibermat.Spec
