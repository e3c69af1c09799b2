import Verif.Model.Net
import Verif.Model.Coo

/-! # Model of class `Stack` in `/repo/src/fibermat/net.py` (lines 382-776) -/

namespace Fibermat
variable {K : Type} [Field K] [LinearOrder K]

/-- The linear program handed to `scipy.optimize.linprog` (`net.py:699-701`): minimise `f · z` subject to
`C z ≤ H` and `z ≥ lower` (upper bounds are infinite). -/
structure LP (K : Type) where
  f : List K
  C : Coo K
  H : List K
  lower : List K

/-- The output of `Stack.constraint`: `C, f, H, h` (`net.py:776`). -/
structure StackSys (K : Type) where
  C : Coo K
  f : List K
  H : List K
  h : List K

/-- Rows of the net with `A < B` (`net.py:751-753`). -/
def innerRows (rows : List (NetRow K)) : List (NetRow K) := rows.filter (fun r => r.A < r.B)

/-- `Stack.constraint` (`net.py:708-776`).  A label outside the mat makes `coo_matrix` raise ValueError. -/
def stackConstraint (mat : Mat K) (net : Net K) : Except Err (StackSys K) := do
  matCheck mat.frame                                                      -- 747
  netCheck net.frame                                                      -- 748
  let rows := innerRows net.rows                                          -- 751-753
  if !rows.all (fun r => decide (0 ≤ r.A) && decide (r.A < mat.fibers.length)
      && decide (0 ≤ r.B) && decide (r.B < mat.fibers.length)) then
    throw Err.valueError                                                  -- 767-768
  let h := mat.fibers.map (·.h)                                           -- 759
  let C : Coo K :=                                                        -- 762-768
    { nrows := rows.length
      ncols := mat.fibers.length
      entries :=
        rows.zipIdx.map (fun p => (p.2, p.1.A.toNat, (1 : K)))
        ++ rows.zipIdx.map (fun p => (p.2, p.1.B.toNat, (-1 : K))) }
  let f := mat.fibers.map (fun g => npPi / 4 * (g.l * g.b * g.h))         -- 771
  let H := rows.map (fun r => -((h.getD r.A.toNat 0 + h.getD r.B.toNat 0) / 2)) -- 772-774
  return { C := C, f := f, H := H, h := h }

/-- `scipy.optimize.linprog` as an oracle: the vector `linsol.x` (`none` if the program has no optimum,
in which case `linsol.x` is `None`). -/
abbrev Linprog (K : Type) := LP K → Option (List K)

/-- The linear program of `Stack.solve` (`net.py:695-701`). -/
def StackSys.lp (s : StackSys K) : LP K :=
  { f := s.f, C := s.C, H := s.H, lower := s.h.map (fun a => a / 2) }

/-- `Stack.solve` (`net.py:658-705`): `ok none` = returns None (empty mat), `ok (some x)` = `linsol.x`. -/
def stackSolve (linprog : Linprog K) (mat : Mat K) (net : Net K) :
    Except Err (Option (Option (List K))) := do
  matCheck mat.frame                                                      -- 691
  netCheck net.frame                                                      -- 692
  let s ← stackConstraint mat net                                         -- 695
  if mat.fibers.length ≠ 0 then return some (linprog s.lp)                -- 697-701
  else return none                                                        -- 702-703

/-- `mat.z = linsol.x` (`net.py:573`). -/
def Mat.setZ (mat : Mat K) (z : List K) : Mat K :=
  { mat with fibers := (mat.fibers.zip z).map (fun p => { p.1 with z := p.2 }) }

/-- Rows kept by the threshold (`net.py:577-585`). -/
def thresholdRows (t : K) (rows : List (NetRow K)) : List (NetRow K) :=
  rows.filter (fun r => |r.zB - r.zA| ≤ t ∨ r.A = r.B)

/-- `Stack(mat, net, threshold)` (`net.py:499-591`): returns the updated mat (the argument is modified in
place) and the stack.  An unsolvable program (`linsol.x` is None) or a solution of the wrong length is `unmodelled`;
`C15` shows that the first never happens. -/
def stackNew (linprog : Linprog K) (mat : Mat K) (net : Net K) (threshold : Option K) :
    Except Err (Mat K × Net K) := do
  matCheck mat.frame                                                      -- 565
  netCheck net.frame                                                      -- 566
  match ← stackSolve linprog mat net with                                 -- 569
  | none =>
    netCheck net.frame                                                    -- 588
    return (mat, net)
  | some none => throw Err.unmodelled
  | some (some z) =>
    if z.length ≠ mat.fibers.length then throw Err.unmodelled
    let mat' := mat.setZ z                                                -- 573
    let net' ← netNew mat' (net.attrs.periodic.getD true)                 -- 574
    let stack : Net K := match threshold with                             -- 576-585
      | some t => { net' with rows := thresholdRows t net'.rows }
      | none => net'
    netCheck stack.frame                                                  -- 588
    return (mat', stack)

end Fibermat
