import Verif.Model.Solver

/-! # Model of `plot_system` in `/repo/src/fibermat/model.py`

What is drawn is reduced to the matrices handed to `ax.spy` (a marker at each entry that is not zero) and to the printed number. -/

namespace Fibermat
variable {K : Type} [Field K] [LinearOrder K]

/-- `np.isclose(a, b)` with the default `rtol = 1e-5`, `atol = 1e-8` (`model.py:359-366`). -/
def isclose : Cell K → Cell K → Bool
  | .fin a, .fin b => decide (|a - b| ≤ 1 / 100000000 + 1 / 100000 * |b|)
  | .pinf, .pinf => true
  | .ninf, .ninf => true
  | _, _ => false

/-- The five calls of `ax.spy` (`model.py:374-379`). -/
inductive Layer where
  | stiffness | inner | lower | upper | inactive
deriving DecidableEq, Repr

/-- `(C @ u)[r - K.shape[0]]`. -/
def Sys.contactRow (S : Sys K) (x : Nat → K) (r : Nat) : Cell K :=
  cellSum ((List.range S.nK).map (fun c => S.P r c * .fin (x c)))

/-- `mask0`, …, `mask4` (`model.py:357-366`), for the state `x = (u, f)`, `q = (F, H)`. -/
def Sys.layerMask (S : Sys K) (x : Nat → K) (q : Nat → Cell K) (l : Layer) (r : Nat) : Bool :=
  match l with
  | .stiffness => decide (r < S.nK)                                                                          -- 357
  | .lower => decide (S.nK ≤ r) && (isclose (S.contactRow x r) (q r) && decide ((r - S.nK) % 3 = 0))         -- 359
  | .inner => decide (S.nK ≤ r) && (isclose (S.contactRow x r) (q r) && decide ((r - S.nK) % 3 = 1))         -- 361
  | .upper => decide (S.nK ≤ r) && (isclose (S.contactRow x r) (q r) && decide ((r - S.nK) % 3 = 2))         -- 363
  | .inactive => decide (S.nK ≤ r) && !isclose (S.contactRow x r) (q r)                                      -- 365

/-- `D0 @ P @ D0` and `D @ P + P @ D` (`model.py:374-379`), where zeros of the diagonal matrices are not stored. -/
def Sys.layerMatrix (S : Sys K) (x : Nat → K) (q : Nat → Cell K) (l : Layer) (r c : Nat) : Cell K :=
  let m := S.layerMask x q l
  match l with
  | .stiffness => if m r && m c then S.P r c else .fin 0
  | _ => (if m r then S.P r c else .fin 0) + (if m c then S.P r c else .fin 0)

/-- What `plot_system` produces: the layers, and the square of the printed error. -/
structure SystemPlot (K : Type) where
  layer : Layer → Nat → Nat → Cell K
  errSq : Cell K

/-- `plot_system` (`model.py:303-400`) for an assembled system in the state `a` (of which only `x` and `q` are read).
`np.tile(..., C.shape[0] // 3)` has another length than `C @ u` when the number of rows is not a multiple of 3 (`ValueError`).
The layers are indexed by position in the picture: row `perm[i]` is drawn at position `i`. -/
def plotSystem (S : Sys K) (o : Opts K) (a : Rec K) : Except Err (SystemPlot K) :=
  if S.nC % 3 ≠ 0 then .error .valueError
  else .ok
    { layer := fun l i j => S.layerMatrix a.x a.q l (o.perm.getD i 0) (o.perm.getD j 0)
      errSq := match S.direction o a with                                                                    -- 383-396
        | none => .nan
        | some dx => S.errSq (S.active o.tol a.x a.q) dx }

end Fibermat
