import Verif.Model.Assembly

/-! # Model of `solve` in `/repo/src/fibermat/solver.py` -/

namespace Fibermat
variable {K : Type} [Field K] [LinearOrder K]

/-- The assembled system (`solver.py:109-118`): the matrix `P = [[K, Cᵀ], [C, 0]]`, initial `q = (F, H)`,
increment `dq = (dF, dH)`, and the initial top position `Z0`.  Initial `x` is zero. -/
structure Sys (K : Type) where
  nK : Nat
  nC : Nat
  P : Nat → Nat → Cell K
  q0 : Nat → Cell K
  dq : Nat → K
  Z0 : K

/-- Number of rows of `P`. -/
def Sys.n (S : Sys K) : Nat := S.nK + S.nC

/-- `bmat([[K, C.T], [C, None]])` and the stacked vectors (`solver.py:111-115,129`). -/
def assemble (Km : Coo (Cell K)) (cs : ConstraintSys K) : Sys K :=
  { nK := Km.nrows
    nC := cs.C.nrows
    P := fun r c =>
      if r < Km.nrows then
        if c < Km.nrows then Km.get r c else .fin (cs.C.get (c - Km.nrows) r)
      else
        if c < Km.nrows then .fin (cs.C.get (r - Km.nrows) c) else .fin 0
    q0 := fun r => if r < Km.nrows then .fin 0 else cs.H.getD (r - Km.nrows) (.fin 0)
    dq := fun r => if r < Km.nrows then 0 else cs.dH.getD (r - Km.nrows) 0
    Z0 := cs.Z }

/-- Sum of cells. -/
def cellSum (l : List (Cell K)) : Cell K := l.sum

/-- `(P @ x)[r]`.  (Dense sum; `x` is finite, so entries that are not stored contribute `0 * x = 0`.) -/
def Sys.mulVec (S : Sys K) (x : Nat → K) (r : Nat) : Cell K :=
  cellSum ((List.range S.n).map (fun c => S.P r c * .fin (x c)))

/-- `q - P @ x` (`solver.py:131,142,155`). -/
def Sys.resid (S : Sys K) (x : Nat → K) (q : Nat → Cell K) (r : Nat) : Cell K :=
  q r - S.mulVec x r

/-- `np.sum(np.abs(P), axis=0)[c]` (`solver.py:143`). -/
def Sys.colSum (S : Sys K) (c : Nat) : Cell K :=
  cellSum ((List.range S.n).map (fun r => (S.P r c).abs))

/-- The mask of active rows (`solver.py:142-143`). -/
def Sys.active (S : Sys K) (tol : K) (x : Nat → K) (q : Nat → Cell K) (r : Nat) : Bool :=
  Cell.le (S.resid x q r) (.fin tol) && Cell.lt (.fin 0) (S.colSum r)

/-- Linear solver: takes the rows of the reduced matrix and the right-hand side.  `none` stands for an answer filled
with NaN (what `spsolve` returns for a singular matrix). -/
abbrev LinSolver (K : Type) := List (List (Cell K)) → List K → Option (List K)

/-- Options of `solve` (`solver.py:13-15`). `packing` may be infinite. -/
structure Opts (K : Type) where
  packing : Cell K
  itermax : Nat
  tol : K
  errtol : K
  perm : List Nat
  lin : LinSolver K

/-- What is recorded at each step (`solver.py:125-132,177-184`): `x = (u, f)`, `q = (F, H)`, `Z`, `rlambda`, the mask and
the squared error. -/
structure Rec (K : Type) where
  x : Nat → K
  q : Nat → Cell K
  Z : K
  rlambda : Cell K
  mask : Nat → Bool
  errSq : Cell K

/-- Recorded state before the first step (`solver.py:125-132`). -/
def Sys.init (S : Sys K) (o : Opts K) : Rec K :=
  { x := fun _ => 0, q := S.q0, Z := S.Z0, rlambda := .fin 1
    mask := fun r => Cell.le (S.resid (fun _ => 0) S.q0 r) (.fin o.tol)
    errSq := .fin 0 }

/-- `perm[mask[perm]]` (`solver.py:146`). -/
def Sys.actives (S : Sys K) (o : Opts K) (a : Rec K) : List Nat :=
  o.perm.filter (S.active o.tol a.x a.q)

/-- `dx` after `dx *= 0; dx[perm[mask[perm]]] = solve(...)` (`solver.py:140,146-151`); `none` when the linear solver answered NaN.
Simplification: the answer has the right length (missing entries are read as 0). -/
def Sys.direction (S : Sys K) (o : Opts K) (a : Rec K) : Option (Nat → K) :=
  let act := S.actives o a
  (o.lin (act.map (fun r => act.map (fun c => S.P r c))) (act.map S.dq)).map
    (fun sol c => if c ∈ act then sol.getD (act.idxOf c) 0 else 0)

/-- `np.linalg.norm(P[np.ix_(mask, mask)] @ dx[mask] - dq[mask]) ** 2` (`solver.py:153`). -/
def Sys.errSq (S : Sys K) (m : Nat → Bool) (dx : Nat → K) : Cell K :=
  let act := (List.range S.n).filter m
  cellSum (act.map (fun r =>
    let e := cellSum (act.map (fun c => S.P r c * .fin (dx c))) - .fin (S.dq r)
    e * e))

/-- `err > errtol` (`solver.py:163`) in terms of the squared error. -/
def errGt (errtol : K) : Cell K → Bool
  | .fin s => decide (errtol < 0) || decide (errtol ^ 2 < s)
  | .pinf => true
  | .ninf => true
  | .nan => false

/-- `v = dq - P @ dx` (`solver.py:156`). -/
def Sys.rate (S : Sys K) (dx : Nat → K) (r : Nat) : Cell K := .fin (S.dq r) - S.mulVec dx r

/-- The rows that limit the step: `(d > tol) & (v > 0)` (`solver.py:160`). -/
def Sys.limiting (S : Sys K) (o : Opts K) (a : Rec K) (v : Nat → Cell K) : List Nat :=
  (List.range S.n).filter (fun r =>
    Cell.lt (.fin o.tol) (S.resid a.x a.q r) && Cell.lt (.fin 0) (v r))

/-- The minimum of a non-empty list of finite cells. -/
def minCells : List (Cell K) → Option K
  | [] => none
  | [.fin a] => some a
  | .fin a :: l => (minCells l).map (min a)
  | _ :: _ => none

/-- How the loop ends: iteration limit or target packing reached, no further step possible (`break`, `solver.py:170-171`),
or a path that is not modelled (a step of non-finite length, or NaN displacements with a limiting row). -/
inductive Stop where
  | reached | blocked | unmodelled
deriving DecidableEq, Repr

/-- One pass of the loop body (`solver.py:139-184`): the next record, or the reason to stop. -/
def Sys.step (S : Sys K) (o : Opts K) (a : Rec K) : Except Stop (Rec K) :=
  let m := S.active o.tol a.x a.q                                         -- 142-143
  match S.direction o a with                                              -- 146-151
  | none =>
    -- dx is NaN on the active entries: v is NaN on the rows that involve one of them, dq elsewhere
    let v : Nat → Cell K := fun r =>
      if (List.range S.n).any (fun c => decide (c ∈ S.actives o a) && decide (S.P r c ≠ .fin 0))
      then .nan else .fin (S.dq r)
    if S.limiting o a v = [] then .error .blocked else .error .unmodelled
  | some dx =>
    let e := S.errSq m dx                                                 -- 153
    let v := S.rate dx                                                    -- 156
    let rows := S.limiting o a v
    if rows = [] then .error .blocked                                     -- 160, 170-171: min of an empty array
    else if errGt o.errtol e then .error .blocked                         -- 163-171
    else match minCells (rows.map (fun r => S.resid a.x a.q r / v r)) with
      | none => .error .unmodelled
      | some t =>
        let dU := -t                                                      -- 160
        .ok { x := fun c => a.x c + dx c * dU                             -- 174
              q := fun r => a.q r + .fin (S.dq r * dU)                    -- 175
              Z := a.Z + dU                                               -- 181
              rlambda := .fin S.Z0 / .fin (a.Z + dU)                      -- 182
              mask := m                                                   -- 183
              errSq := e }                                                -- 184

/-- The loop `while (i < itermax) and (rlambda_[-1] < packing)` (`solver.py:137-189`), `fuel` being `itermax - i`; returns the
records appended and the reason for stopping. -/
def Sys.loop (S : Sys K) (o : Opts K) : Nat → Rec K → List (Rec K) × Stop
  | 0, _ => ([], .reached)
  | fuel + 1, a =>
    if Cell.lt a.rlambda o.packing then
      match S.step o a with
      | .error e => ([], e)
      | .ok b =>
        let r := S.loop o fuel b
        (b :: r.1, r.2)
    else ([], .reached)

/-- The recorded histories (`u_, f_, F_, H_, Z_, rlambda_, mask_, err_`, `solver.py:125-184`) as a list of records. -/
def Sys.run (S : Sys K) (o : Opts K) : List (Rec K) × Stop :=
  let r := S.loop o o.itermax (S.init o)
  (S.init o :: r.1, r.2)

/-- `solve(mat, mesh, ...)` up to the interpolation of results (`solver.py:13-189`). `perm = none` is the default
`np.arange(P.shape[0])` (`solver.py:117-118`); the field `o.perm` is ignored. -/
def solve (mat : Mat K) (mesh : Mesh K) (lmin lmax : Option K) (coupling : K)
    (o : Opts K) (perm : Option (List Nat)) : Except Err (Sys K × List (Rec K) × Stop) := do
  let Km ← stiffness mat mesh lmin lmax coupling                          -- 109
  let cs ← constraint mat mesh                                            -- 110
  let S := assemble Km cs                                                 -- 111-115
  let o := { o with perm := perm.getD (List.range S.n) }                  -- 117-118
  return (S, S.run o)

/-- `mesh.z += u[::2]` (`solver.py:231-232`, `docs/api/solver.rst:33-34`): the mesh with its nodes moved by the vertical
displacements of `u`. -/
def Mesh.deform (m : Mesh K) (u : Nat → K) : Mesh K :=
  { m with rows := m.rows.mapIdx (fun i r => { r with z := r.z + u (2 * i) }) }

end Fibermat
