import Verif.Model.Base

/-! # Model of `Settings` in `/repo/src/fibermat/widgets.py`

ipywidgets are cells holding a value; sliders clamp.  Numbers written to a widget are assumed to have the widget's type
(an integer for IntText). -/

namespace Fibermat
variable {K : Type} [Field K] [LinearOrder K]

/-- The settings (`widgets.py:102-126`). -/
inductive Name where
  | n | length | width | thickness | size | theta | shear | tensile | seed
  | periodic | threshold | packing | itermax | tol | lmin | lmax | coupling | interpSize | verbose
deriving DecidableEq, Repr

/-- Python values read from or written to the settings: finite numbers, the object `np.inf`, another infinite float
(`value is np.inf` is false for it), `None`, booleans. -/
inductive PyVal (K : Type) where
  | num (a : K)
  | npInf
  | otherInf
  | none
  | bool (b : Bool)
deriving DecidableEq, Repr

/-- Name classes distinguished by `__getitem__`/`__setitem__` (`widgets.py:162,166,192,197`). -/
def Name.isModulus : Name → Bool
  | .shear | .tensile => true
  | _ => false

/-- `name in ["seed", "threshold", "lmin", "lmax", "interp_size"]` (`widgets.py:166,197`). -/
def Name.isOptional : Name → Bool
  | .seed | .threshold | .lmin | .lmax | .interpSize => true
  | _ => false

/-- One widget: its value and, for the optional ones, its switch. -/
structure Widget (K : Type) where
  value : PyVal K
  switch : Bool
deriving DecidableEq, Repr

/-- The state of the settings object. -/
abbrev Settings (K : Type) := Name → Widget K

/-- The bounds of the sliders (`widgets.py:45,58,59`): theta in [0, 1], itermax in [10^0, 10^6], tol in [10^-10, 10^-1]. -/
def sliderBounds : Name → Option (K × K)
  | .theta => some (0, 1)
  | .itermax => some (1, 1000000)
  | .tol => some (1 / 10000000000, 1 / 10)
  | _ => none

/-- The integer widgets (`widgets.py:40,50,68`). -/
def Name.isInt : Name → Bool
  | .n | .seed | .interpSize => true
  | _ => false

/-- Assignment `widget.value = v`: sliders clamp; `None` is refused (TraitError, modelled as `typeError`), infinities are refused
by integer widgets, and so are booleans in number widgets and numbers in checkboxes (simplification: no coercion). -/
def assign (name : Name) (v : PyVal K) : Except Err (PyVal K) :=
  match name, v with
  | .periodic, .bool b => .ok (.bool b)
  | .verbose, .bool b => .ok (.bool b)
  | .periodic, _ => .error .typeError
  | .verbose, _ => .error .typeError
  | _, .none => .error .typeError
  | _, .bool _ => .error .typeError
  | nm, .num a =>
    match (sliderBounds nm : Option (K × K)) with
    | some (lo, hi) => .ok (.num (min (max a lo) hi))
    | none => .ok (.num a)
  | nm, v =>
    if nm.isInt then .error .typeError
    else match (sliderBounds nm : Option (K × K)) with
    | some (_, hi) => .ok (.num hi)
    | none => .ok v

/-- Replace one widget. -/
def setWidget (st : Settings K) (name : Name) (w : Widget K) : Settings K :=
  fun m => if m = name then w else st m

/-- `Settings.__setitem__` (`widgets.py:176-204`). -/
def setItem (st : Settings K) (name : Name) (v : PyVal K) : Except Err (Settings K) :=
  if name.isModulus then                                                  -- 192-196
    if v = .npInf then .ok (setWidget st name ⟨(st name).value, false⟩)
    else do
      let a ← assign name v
      return setWidget st name ⟨a, true⟩
  else if name.isOptional then                                            -- 197-201
    if v = .none then .ok (setWidget st name ⟨(st name).value, false⟩)
    else do
      let a ← assign name v
      return setWidget st name ⟨a, true⟩
  else do                                                                 -- 202-204
    let a ← assign name v
    return setWidget st name ⟨a, (st name).switch⟩

/-- `int(x)` for a finite number: truncation towards zero, given the floor function. -/
def pyInt (floor : K → Int) (a : K) : Int := if 0 ≤ a then floor a else -floor (-a)

/-- `Settings.__getitem__` (`widgets.py:146-174`). -/
def getItem (floor : K → Int) (st : Settings K) (name : Name) : PyVal K :=
  if name = .theta then                                                   -- 160-161
    match (st name).value with
    | .num a => .num (a * npPi)
    | v => v
  else if name.isModulus then                                             -- 162-165
    if (st name).switch then (st name).value else .npInf
  else if name.isOptional then                                            -- 166-169
    if (st name).switch then (st name).value else .none
  else if name = .itermax then                                            -- 170-171
    match (st name).value with
    | .num a => .num (pyInt floor a : K)
    | v => v
  else (st name).value                                                    -- 172-174

/-- `Settings.__call__(**kwargs)` (`widgets.py:206-219`): writes in order; the display for empty kwargs is not modelled. -/
def callSettings (st : Settings K) : List (Name × PyVal K) → Except Err (Settings K)
  | [] => .ok st
  | (name, v) :: l => do
    let st' ← setItem st name v
    callSettings st' l

/-- Ticking or unticking the check box of an optional setting by the user (`widgets.py:47-68`). -/
def toggle (st : Settings K) (name : Name) (on : Bool) : Settings K :=
  setWidget st name ⟨(st name).value, on⟩

/-- `Settings.__init__` for the two moduli (`widgets.py:46-49`): the value when the argument is not infinite (by `!=`) else a
default, and a switch computed by identity with `np.inf`. -/
def initModulus (arg : PyVal K) (default : PyVal K) : Widget K :=
  { value := if arg = .npInf ∨ arg = .otherInf then default else arg
    switch := !(decide (arg = .npInf)) }

/-- `shear * (length / thickness) ** 2` (`widgets.py:48`); `ZeroDivisionError` is modelled as `valueError`.
Simplification: with an infinite argument the value is taken as infinite (it may also be 0 or NaN; the widget is switched off). -/
def defaultTensile (args : Name → PyVal K) : Except Err (PyVal K) :=
  match args .shear, args .length, args .thickness with
  | .num g, .num l, .num h => if h = 0 then .error .valueError else .ok (.num (g * (l / h) ^ 2))
  | _, _, .num h => if h = 0 then .error .valueError else .ok .otherInf
  | _, _, _ => .ok .otherInf

/-- `20 * thickness` (`widgets.py:54`). -/
def defaultThreshold (args : Name → PyVal K) : Except Err (PyVal K) :=
  match args .thickness with
  | .num h => .ok (.num (20 * h))
  | .npInf => .ok .otherInf
  | .otherInf => .ok .otherInf
  | _ => .error .typeError

/-- A widget with a switch for `None` (`widgets.py:50-51,54-55,61-64,67-68`). -/
def initOptional (name : Name) (arg : PyVal K) (default : Except Err (PyVal K)) : Except Err (Widget K) :=
  if arg = .none then do
    let d ← default
    let v ← assign name d
    return ⟨v, false⟩
  else do
    let v ← assign name arg
    return ⟨v, true⟩

/-- The widget created for one argument of `Settings.__init__` (`widgets.py:40-69`).  Widgets without a switch are given one that
is on. -/
def initWidget (args : Name → PyVal K) (name : Name) : Except Err (Widget K) :=
  match name with
  | .shear => do                                                                            -- 46-47
    let w := initModulus (args .shear) (.num 1)
    let v ← assign name w.value
    return ⟨v, w.switch⟩
  | .tensile => do                                                                          -- 48-49
    let d ← if args .tensile = .npInf ∨ args .tensile = .otherInf then defaultTensile args else .ok .none
    let w := initModulus (args .tensile) d
    let v ← assign name w.value
    return ⟨v, w.switch⟩
  | .seed => initOptional name (args name) (.ok (.num 0))                                   -- 50-51
  | .threshold => initOptional name (args name) (defaultThreshold args)                     -- 54-55
  | .lmin => initOptional name (args name) (.ok (.num (1 / 100)))                           -- 61-62
  | .lmax => initOptional name (args name) (.ok (args .length))                             -- 63-64
  | .interpSize => initOptional name (args name) (.ok (.num 100))                           -- 67-68
  | _ => do
    let v ← assign name (args name)
    return ⟨v, true⟩

/-- The widgets in the order in which they are created (`widgets.py:40-69`). -/
def allNames : List Name :=
  [.n, .length, .width, .thickness, .size, .theta, .shear, .tensile, .seed, .periodic, .threshold, .packing, .itermax, .tol, .lmin,
    .lmax, .coupling, .interpSize, .verbose]

/-- `Settings(**args)` (`widgets.py:27-126`), `args` giving a value to each argument: the first exception, or the widgets. -/
def settingsNew (args : Name → PyVal K) : Except Err (Settings K) := do
  let ws ← allNames.mapM (initWidget args)
  return fun name => ws.getD (allNames.idxOf name) ⟨.none, false⟩

/-- The default arguments (`widgets.py:27-31`). -/
def defaultArgs : Name → PyVal K
  | .n => .num 0
  | .length => .num 25
  | .width => .num 1
  | .thickness => .num 1
  | .size => .num 50
  | .theta => .num 1
  | .shear => .num 1
  | .tensile => .npInf
  | .seed => .num 0
  | .periodic => .bool true
  | .threshold => .none
  | .packing => .num 1
  | .itermax => .num 1000
  | .tol => .num (1 / 1000000)
  | .lmin => .none
  | .lmax => .none
  | .coupling => .num 1
  | .interpSize => .none
  | .verbose => .bool true

end Fibermat
