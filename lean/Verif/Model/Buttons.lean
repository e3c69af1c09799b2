import Mathlib.Data.List.Basic

/-! # Model of the buttons in `/repo/widgets.py`

The look of the widgets is left out, and so is what the shell and IPython do with the commands they are given. Texts handed to the shell
are lists of characters. -/

namespace Fibermat

/-! ## `MatplotlibButton` -/

/-- State of a `MatplotlibButton` (`widgets.py:126-179`): what it shows, the attribute `value` and the cells run so far. -/
structure MplButton where
  description : String
  style : String
  value : Option String
  cells : List String
deriving DecidableEq, Repr

/-- `is_clicked` (`widgets.py:158-167`). -/
def MplButton.click (b : MplButton) : MplButton :=
  if b.description = "%matplotlib inline" then                            -- 159
    ⟨"%matplotlib qt", "success", some "%matplotlib qt", b.cells ++ ["%matplotlib qt"]⟩          -- 160-162, 167
  else
    ⟨"%matplotlib inline", "primary", some "%matplotlib inline", b.cells ++ ["%matplotlib inline"]⟩  -- 164-167

/-- `MatplotlibButton(description=...)` (`widgets.py:169-173`): the constructor of `Button`, then one call of `is_clicked`. Other
keywords of `Button` are left out; without keyword the description is empty. -/
def mplNew (description : String) : MplButton := MplButton.click ⟨description, "", none, []⟩

/-- The button clicked several times. -/
def MplButton.clicks (b : MplButton) : Nat → MplButton
  | 0 => b
  | n + 1 => (b.clicks n).click

/-! ## `PipButton` -/

/-- The outside world of a `PipButton`: exit status of `os.system`, and output of `subprocess.check_output` (`none`: it raises). -/
structure Shell where
  system : List Char → Int
  output : List Char → Option (List Char)

/-- State of a `PipButton` (`widgets.py:24-123`): names for pip, names for import, option, what it shows, the commands run and the rows of the
table displayed, if any. -/
structure PipButton where
  pip : List (List Char)
  py : List (List Char)
  option : List Char
  description : String
  style : String
  commands : List (List Char)
  table : Option (List (List Char × List Char))

/-- `PipButton(*packages, option=option, **kwargs)` (`widgets.py:63-116`); `kwargs` as pairs in order. -/
def pipNew (packages : List (List Char)) (kwargs : List (List Char × List Char)) (option : Option (List Char)) : PipButton :=
  { pip := packages ++ kwargs.map (·.1)                                   -- 66
    py := packages ++ kwargs.map (·.2)                                    -- 67
    option := option.getD []                                              -- 69-70
    description := "Install packages"                                     -- 113
    style := ""
    commands := []
    table := none }

/-- `"pip install -q {} {}".format(option, " ".join(pip_packages))` (`widgets.py:77-78`). -/
def PipButton.install (b : PipButton) : List Char :=
  ['p', 'i', 'p', ' ', 'i', 'n', 's', 't', 'a', 'l', 'l', ' ', '-', 'q', ' '] ++ b.option ++ [' '] ++ List.intercalate [' '] b.pip

/-- The import statement of one package (`widgets.py:86-87`). -/
def importLine (package : List Char) : List Char :=
  ['f', 'r', 'o', 'm', ' '] ++ package ++
    [' ', 'i', 'm', 'p', 'o', 'r', 't', ' ', '_', '_', 'v', 'e', 'r', 's', 'i', 'o', 'n', '_', '_', ';', ' ',
     'p', 'r', 'i', 'n', 't', '(', '_', '_', 'v', 'e', 'r', 's', 'i', 'o', 'n', '_', '_', ')', ';']

/-- The command that prints the versions (`widgets.py:84-89`). -/
def PipButton.query (b : PipButton) : List Char :=
  ['p', 'y', 't', 'h', 'o', 'n', ' ', '-', 'W', 'i', 'g', 'n', 'o', 'r', 'e', ' ', '-', 'c', ' ', '"'] ++
    b.py.flatMap importLine ++ ['"']

/-- `text.split('\n')` (`widgets.py:92`). -/
def splitLines : List Char → List (List Char)
  | [] => [[]]
  | c :: t =>
    if c = '\n' then [] :: splitLines t
    else match splitLines t with
      | [] => [[c]]
      | l :: r => (c :: l) :: r

/-- `is_clicked` (`widgets.py:72-109`). The output is cleared at each click (line 72). When `check_output` raises, the exception ends the
callback. -/
def PipButton.click (sh : Shell) (b : PipButton) : PipButton :=
  if sh.system b.install = 0 then                                         -- 77-79
    let b' := { b with style := "success", description := "Installed", commands := b.commands ++ [b.install, b.query], table := none }  -- 81-82
    match sh.output b.query with                                          -- 90
    | none => b'
    | some text => { b' with table := some (b.pip.zip (splitLines text)) }  -- 94-105
  else
    { b with style := "danger", description := "Not Installed", commands := b.commands ++ [b.install], table := none }  -- 108-109

end Fibermat
