import Verif.Model.Widgets
import Verif.Model.Mat
import Verif.Model.Stack
import Verif.Model.Solver

/-! # Model of the computation in `/repo/jupyter-notebook.ipynb` (cells 5, 7, 28, 40): the functions of the package called with
`**inputs`

Keywords whose values are not numbers, booleans or `None` (`solve`, `perm`, `pairs`, data frames) are not part of the modelled
dictionaries. -/

namespace Fibermat
variable {σ K : Type} [Field K] [LinearOrder K]

/-- Keywords: those of the settings, two more that the called functions look at (`mat.py:160`, `solver.py:15`), any other. -/
inductive Kw where
  | setting (name : Name)
  | psi
  | errtol
  | other (k : Nat)
deriving DecidableEq, Repr

/-- A dictionary of keyword arguments. -/
abbrev Kwargs (K : Type) := List (Kw × PyVal K)

/-- The value bound to a parameter of a function called with `**kw`: the one given, else the default of the signature. -/
def Kwargs.get (kw : Kwargs K) (k : Kw) (default : PyVal K) : PyVal K := (kw.lookup k).getD default

/-- `**inputs` (`widgets.py:130-174`): the keys of the settings with the values of `__getitem__`.  As `__iter__` is defined
(`widgets.py:130-144`), Python does not take the values stored in the dictionary but calls `keys` and `__getitem__`. -/
def settingsKwargs (floor : K → Int) (st : Settings K) : Kwargs K :=
  allNames.map (fun name => (.setting name, getItem floor st name))

/-- A finite number. -/
def PyVal.asNum : PyVal K → Except Err K
  | .num a => .ok a
  | _ => .error .unmodelled

/-- An integer. -/
def PyVal.asInt (floor : K → Int) : PyVal K → Except Err Int
  | .num a => if (floor a : K) = a then .ok (floor a) else .error .typeError
  | _ => .error .unmodelled

/-- An integer or `None`. -/
def PyVal.asOptInt (floor : K → Int) : PyVal K → Except Err (Option Int)
  | .none => .ok Option.none
  | v => (v.asInt floor).map some

/-- A number or `None`. -/
def PyVal.asOptNum : PyVal K → Except Err (Option K)
  | .none => .ok Option.none
  | v => v.asNum.map some

/-- A number or infinity. -/
def PyVal.asTop : PyVal K → Except Err (WithTop K)
  | .num a => .ok a
  | .npInf => .ok ⊤
  | .otherInf => .ok ⊤
  | _ => .error .unmodelled

/-- A number or infinity, as a cell. -/
def PyVal.asCell : PyVal K → Except Err (Cell K)
  | .num a => .ok (.fin a)
  | .npInf => .ok .pinf
  | .otherInf => .ok .pinf
  | _ => .error .unmodelled

/-- A boolean. -/
def PyVal.asBool : PyVal K → Except Err Bool
  | .bool b => .ok b
  | _ => .error .unmodelled

/-- The parameters of `Mat.init` (`mat.py:159-160`) from `Mat(**kw)`. -/
def matKwargs (floor : K → Int) (kw : Kwargs K) : Except Err (MatArgs K) := do
  let n ← (kw.get (.setting .n) (.num 0)).asInt floor
  let length ← (kw.get (.setting .length) (.num 25)).asNum
  let width ← (kw.get (.setting .width) (.num 1)).asNum
  let thickness ← (kw.get (.setting .thickness) (.num 1)).asNum
  let size ← (kw.get (.setting .size) (.num 50)).asNum
  let theta ← (kw.get (.setting .theta) (.num npPi)).asNum
  let psi ← (kw.get .psi (.num 0)).asNum
  let shear ← (kw.get (.setting .shear) (.num 1)).asNum
  let tensile ← (kw.get (.setting .tensile) .npInf).asTop
  let seed ← (kw.get (.setting .seed) (.num 0)).asOptInt floor
  return { n := n, length := length, width := width, thickness := thickness, size := size, theta := theta, psi := psi,
           shear := shear, tensile := tensile, seed := seed }

/-- `Mat(**kw)` (`mat.py:124-154`). -/
def matKw (floor : K → Int) (g : Rng σ K) (cos sin : K → K) (entropy : σ) (kw : Kwargs K) (s : σ) : Except Err (Mat K × σ) := do
  let a ← matKwargs floor kw
  matNew g cos sin entropy a s

/-- `Net(mat, **kw)` (`net.py:112-145`). -/
def netKw (mat : Mat K) (kw : Kwargs K) : Except Err (Net K) := do
  let p ← (kw.get (.setting .periodic) (.bool true)).asBool
  netNew mat p

/-- `Stack(mat, net, **kw)` (`net.py:499-532`); the other keywords go to `Stack.solve` which ignores them (`net.py:569,658`). -/
def stackKw (lp : Linprog K) (mat : Mat K) (net : Net K) (kw : Kwargs K) : Except Err (Mat K × Net K) := do
  let t ← (kw.get (.setting .threshold) .none).asOptNum
  stackNew lp mat net t

/-- What `solve(mat, mesh, **kw)` returns, before interpolation, with the number of samples of the interpolated results. -/
structure SolveResult (K : Type) where
  sys : Sys K
  recs : List (Rec K)
  stop : Stop
  size : Option Nat

/-- `interp_size` (`solver.py:195-199`): `np.linspace` refuses a negative number of samples. -/
def kwSamples : Option Int → Except Err (Option Nat)
  | none => .ok none
  | some k => if k < 0 then .error .valueError else .ok (some k.toNat)

/-- `solve(mat, mesh, **kw)` (`solver.py:13-15`); the keywords it does not know go to `stiffness` (`solver.py:109`,
`model.py:12`). -/
def solveKw (floor : K → Int) (lin : LinSolver K) (mat : Mat K) (mesh : Mesh K) (kw : Kwargs K) : Except Err (SolveResult K) := do
  let packing ← (kw.get (.setting .packing) (.num 1)).asCell
  let itermax ← (kw.get (.setting .itermax) (.num 1000)).asInt floor
  let tol ← (kw.get (.setting .tol) (.num (1 / 1000000))).asNum
  let errtol ← (kw.get .errtol (.num (1 / 1000000))).asNum
  let lmin ← (kw.get (.setting .lmin) .none).asOptNum
  let lmax ← (kw.get (.setting .lmax) .none).asOptNum
  let coupling ← (kw.get (.setting .coupling) (.num 1)).asNum
  let size ← (kw.get (.setting .interpSize) .none).asOptInt floor
  let out ← solve mat mesh lmin lmax coupling
    { packing := packing, itermax := itermax.toNat, tol := tol, errtol := errtol, perm := [], lin := lin } none
  let n ← kwSamples size
  return { sys := out.1, recs := out.2.1, stop := out.2.2, size := n }

/-- What a run of the cell has computed. -/
structure NotebookResult (K : Type) where
  mat : Mat K
  stack : Net K
  mesh : Mesh K
  sol : SolveResult K

/-- Cell 40 of the notebook (and 28 for its first half) with `kw` for `**inputs`.  `Stack` changes the mat in place.  The systems
assembled for the pictures are not modelled (they succeed when `solve` does). -/
def notebookCell (floor : K → Int) (g : Rng σ K) (cos sin : K → K) (entropy : σ) (lp : Linprog K) (lin : LinSolver K) (kw : Kwargs K)
    (s : σ) : Except Err (NotebookResult K × σ) := do
  let r ← matKw floor g cos sin entropy kw s
  let net ← netKw r.1 kw
  let st ← stackKw lp r.1 net kw
  let mesh ← meshNew st.2
  let sol ← solveKw floor lin st.1 mesh kw
  return ({ mat := st.1, stack := st.2, mesh := mesh, sol := sol }, r.2)

/-- Cells 5, 7 and 40: new settings, `inputs(**writes)`, and the computation. -/
def notebook (floor : K → Int) (g : Rng σ K) (cos sin : K → K) (entropy : σ) (lp : Linprog K) (lin : LinSolver K)
    (writes : List (Name × PyVal K)) (s : σ) : Except Err (NotebookResult K × σ) := do
  let st ← settingsNew defaultArgs
  let st ← callSettings st writes
  notebookCell floor g cos sin entropy lp lin (settingsKwargs floor st) s

/-- `inputs(n=100, size=50, tensile=625, seed=0, periodic=True, threshold=10, lmin=0.01, coupling=0.99, packing=3,
interp_size=100)` (cell 7). -/
def tutorialWrites : List (Name × PyVal K) :=
  [(.n, .num 100), (.size, .num 50), (.tensile, .num 625), (.seed, .num 0), (.periodic, .bool true), (.threshold, .num 10),
    (.lmin, .num (1 / 100)), (.coupling, .num (99 / 100)), (.packing, .num 3), (.interpSize, .num 100)]

end Fibermat
