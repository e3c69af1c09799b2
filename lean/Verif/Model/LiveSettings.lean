import Verif.Model.Widgets

/-! # The settings during a notebook session

`setItem` and `callSettings` (`Verif/Model/Widgets.lean`) give the settings when no exception is raised.  In a notebook an exception
ends a cell, not the session: here the settings left behind by a refused value are modelled too, with the attribute `disabled` (a
widget shown in grey) kept by the handlers of `widgets.py:71-99`, and with what the user does by mouse and keyboard. -/

namespace Fibermat
variable {K : Type} [Field K] [LinearOrder K]

/-- The settings and the `disabled` attribute of their value widgets. -/
structure Live (K : Type) where
  widgets : Settings K
  disabled : Name → Bool

/-- The settings that have a check box (`widgets.py:47,49,51,55,62,64,68`). -/
def Name.hasSwitch (name : Name) : Bool := name.isModulus || name.isOptional

/-- `widget.switch.value = on`: traitlets call the handlers (`widgets.py:71-90`) only when the value changes; the handler sets
`disabled = not switch.value`. -/
def Live.setSwitch (s : Live K) (name : Name) (on : Bool) : Live K :=
  if (s.widgets name).switch = on then s
  else { widgets := toggle s.widgets name on
         disabled := fun m => if m = name then !on else s.disabled m }

/-- `widget.value = v`: a refused value raises and leaves the widget as it was. -/
def Live.setValue (s : Live K) (name : Name) (v : PyVal K) : Live K × Option Err :=
  match assign name v with
  | .ok a => ({ s with widgets := setWidget s.widgets name ⟨a, (s.widgets name).switch⟩ }, none)
  | .error e => (s, some e)

/-- `Settings.__setitem__` (`widgets.py:176-204`): the settings left behind and the exception, if any.  The check box is written
before the value. -/
def Live.setItem (s : Live K) (name : Name) (v : PyVal K) : Live K × Option Err :=
  if name.isModulus then                                                  -- 192-196
    let s1 := s.setSwitch name (!decide (v = .npInf))
    if v = .npInf then (s1, none) else s1.setValue name v
  else if name.isOptional then                                            -- 197-201
    let s1 := s.setSwitch name (!decide (v = .none))
    if v = .none then (s1, none) else s1.setValue name v
  else s.setValue name v                                                  -- 202-204

/-- `Settings.__call__(**kwargs)` (`widgets.py:206-219`): writes in order until one raises. -/
def Live.call (s : Live K) : List (Name × PyVal K) → Live K × Option Err
  | [] => (s, none)
  | (name, v) :: l =>
    match s.setItem name v with
    | (s', none) => s'.call l
    | (s', some e) => (s', some e)

/-- `Settings(**args)` (`widgets.py:27-126`): the handlers run once after they are attached (`widgets.py:93-99`); `disabled` is false
for the widgets without a check box. -/
def liveNew (args : Name → PyVal K) : Except Err (Live K) := do
  let st ← settingsNew args
  return { widgets := st, disabled := fun name => name.hasSwitch && !(st name).switch }

/-- What happens in a session: an assignment `inputs[name] = v`, a call `inputs(**kwargs)`, a click on a check box of a setting,
a value typed or dragged in its widget. -/
inductive LiveOp (K : Type) where
  | write (name : Name) (v : PyVal K)
  | call (kwargs : List (Name × PyVal K))
  | click (name : Name) (on : Bool)
  | edit (name : Name) (v : PyVal K)

/-- The settings after one action.  A widget in grey cannot be edited; a setting without check box cannot be switched; what is typed is
refused or accepted as an assignment to the widget. -/
def Live.act (s : Live K) : LiveOp K → Live K
  | .write name v => (s.setItem name v).1
  | .call kw => (s.call kw).1
  | .click name on => if name.hasSwitch then s.setSwitch name on else s
  | .edit name v => if s.disabled name then s else (s.setValue name v).1

/-- The settings after a session. -/
def Live.session (s : Live K) (l : List (LiveOp K)) : Live K := l.foldl Live.act s

end Fibermat
