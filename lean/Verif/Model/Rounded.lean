import Verif.Model.Solver

/-! # Model of the loop of `solve` in `/repo/src/fibermat/solver.py` with rounded arithmetic

The same lines as in `Verif/Model/Solver.lean`, every operation on numbers being followed by a rounding. Simplifications: the
sign of `np.sum(np.abs(P), axis=0)` is that of the exact sum; the recorded error is the exact sum of the squares of the computed
residuals; overflow is not modelled. -/

namespace Fibermat
variable {K : Type} [Field K] [LinearOrder K]

/-- Rounding of a number; special values are kept. -/
def Cell.round (fl : K → K) : Cell K → Cell K
  | .fin a => .fin (fl a)
  | c => c

/-- Floating-point arithmetic: `fl` is the rounding, `tooBig errtol e` is the outcome of `np.linalg.norm(e) > errtol`. -/
structure Floats (K : Type) where
  fl : K → K
  tooBig : K → List (Cell K) → Bool

/-- `Σ_c P[r, c] * x[c]` over stored entries among the columns `cs`, accumulated in this order (sparse product). -/
def Sys.dotR (S : Sys K) (A : Floats K) (cs : List Nat) (x : Nat → K) (r : Nat) : Cell K :=
  (cs.filter (fun c => decide (S.P r c ≠ .fin 0))).foldl
    (fun acc c => (acc + (S.P r c * .fin (x c)).round A.fl).round A.fl) (.fin 0)

/-- `q - P @ x` (`solver.py:131,142,155`). -/
def Sys.residR (S : Sys K) (A : Floats K) (x : Nat → K) (q : Nat → Cell K) (r : Nat) : Cell K :=
  (q r - S.dotR A (List.range S.n) x r).round A.fl

/-- The mask of active rows (`solver.py:142-143`). -/
def Sys.activeR (S : Sys K) (A : Floats K) (tol : K) (x : Nat → K) (q : Nat → Cell K) (r : Nat) : Bool :=
  Cell.le (S.residR A x q r) (.fin tol) && Cell.lt (.fin 0) (S.colSum r)

/-- Recorded state before the first step (`solver.py:125-132`). -/
def Sys.initR (S : Sys K) (A : Floats K) (o : Opts K) : Rec K :=
  { x := fun _ => 0, q := S.q0, Z := S.Z0, rlambda := .fin 1
    mask := fun r => Cell.le (S.residR A (fun _ => 0) S.q0 r) (.fin o.tol)
    errSq := .fin 0 }

/-- `perm[mask[perm]]` (`solver.py:146`). -/
def Sys.activesR (S : Sys K) (A : Floats K) (o : Opts K) (a : Rec K) : List Nat :=
  o.perm.filter (S.activeR A o.tol a.x a.q)

/-- `dx` (`solver.py:140,146-151`). -/
def Sys.directionR (S : Sys K) (A : Floats K) (o : Opts K) (a : Rec K) : Option (Nat → K) :=
  let act := S.activesR A o a
  (o.lin (act.map (fun r => act.map (fun c => S.P r c))) (act.map S.dq)).map
    (fun sol c => if c ∈ act then sol.getD (act.idxOf c) 0 else 0)

/-- `P[np.ix_(mask, mask)] @ dx[mask] - dq[mask]` (`solver.py:153`). -/
def Sys.errsR (S : Sys K) (A : Floats K) (m : Nat → Bool) (dx : Nat → K) : List (Cell K) :=
  let act := (List.range S.n).filter m
  act.map (fun r => (S.dotR A act dx r - .fin (S.dq r)).round A.fl)

/-- `v = dq - P @ dx` (`solver.py:156`). -/
def Sys.rateR (S : Sys K) (A : Floats K) (dx : Nat → K) (r : Nat) : Cell K :=
  (.fin (S.dq r) - S.dotR A (List.range S.n) dx r).round A.fl

/-- `(d > tol) & (v > 0)` (`solver.py:160`). -/
def Sys.limitingR (S : Sys K) (A : Floats K) (o : Opts K) (a : Rec K) (v : Nat → Cell K) : List Nat :=
  (List.range S.n).filter (fun r =>
    Cell.lt (.fin o.tol) (S.residR A a.x a.q r) && Cell.lt (.fin 0) (v r))

/-- One pass of the loop body (`solver.py:139-184`). -/
def Sys.stepR (S : Sys K) (A : Floats K) (o : Opts K) (a : Rec K) : Except Stop (Rec K) :=
  let m := S.activeR A o.tol a.x a.q                                      -- 142-143
  match S.directionR A o a with                                           -- 146-151
  | none =>
    let v : Nat → Cell K := fun r =>
      if (List.range S.n).any (fun c => decide (c ∈ S.activesR A o a) && decide (S.P r c ≠ .fin 0))
      then .nan else .fin (S.dq r)
    if S.limitingR A o a v = [] then .error .blocked else .error .unmodelled
  | some dx =>
    let e := S.errsR A m dx                                               -- 153
    let v := S.rateR A dx                                                 -- 156
    let rows := S.limitingR A o a v
    if rows = [] then .error .blocked                                     -- 160, 170-171
    else if A.tooBig o.errtol e then .error .blocked                      -- 163-171
    else match minCells (rows.map (fun r => (S.residR A a.x a.q r / v r).round A.fl)) with
      | none => .error .unmodelled
      | some t =>
        let dU := -t                                                      -- 160
        .ok { x := fun c => A.fl (a.x c + A.fl (dx c * dU))               -- 174
              q := fun r => (a.q r + .fin (A.fl (S.dq r * dU))).round A.fl -- 175
              Z := A.fl (a.Z + dU)                                        -- 181
              rlambda := (Cell.fin S.Z0 / Cell.fin (A.fl (a.Z + dU))).round A.fl -- 182
              mask := m                                                   -- 183
              errSq := cellSum (e.map (fun c => c * c)) }                 -- 184

/-- The loop (`solver.py:137-189`). -/
def Sys.loopR (S : Sys K) (A : Floats K) (o : Opts K) : Nat → Rec K → List (Rec K) × Stop
  | 0, _ => ([], .reached)
  | fuel + 1, a =>
    if Cell.lt a.rlambda o.packing then
      match S.stepR A o a with
      | .error e => ([], e)
      | .ok b =>
        let r := S.loopR A o fuel b
        (b :: r.1, r.2)
    else ([], .reached)

/-- The recorded histories (`solver.py:125-184`). -/
def Sys.runR (S : Sys K) (A : Floats K) (o : Opts K) : List (Rec K) × Stop :=
  let r := S.loopR A o o.itermax (S.initR A o)
  (S.initR A o :: r.1, r.2)

/-- Exact arithmetic. -/
def Floats.exact : Floats K :=
  { fl := id, tooBig := fun errtol e => errGt errtol (cellSum (e.map (fun c => c * c))) }

/-- `np.linalg.norm(e) > errtol` (`solver.py:153,163`) with a rounded sum of squares and the square root `root`. -/
def normGt (fl root : K → K) (errtol : K) (e : List (Cell K)) : Bool :=
  match e.foldl (fun acc c => (acc + (c * c).round fl).round fl) (.fin 0) with
  | .fin s => decide (errtol < root s)
  | .pinf => true
  | _ => false

end Fibermat
