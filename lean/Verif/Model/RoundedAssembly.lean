import Verif.Model.RoundedNet
import Verif.Model.Rounded
import Verif.Model.Assembly
import Verif.Model.Stack

/-! # Model of `stiffness`, `constraint`, `solve` and `Stack` with rounded arithmetic

The same lines as in `Verif/Model/Assembly.lean`, `Verif/Model/Solver.lean` and `Verif/Model/Stack.lean`, every operation on numbers
being followed by a rounding `fl`.  Overflow and underflow are not modelled.  The numbers of the mat, of the net and of the mesh are
any numbers. -/

namespace Fibermat
variable {K : Type} [Field K] [LinearOrder K]

/-- The matrix entry when the duplicate triplets are summed one after the other with rounding (`bmat(..., format='csc')`,
`solver.py:111`). -/
def Coo.getR (fl : K → K) (M : Coo (Cell K)) (r c : Nat) : Cell K :=
  ((M.entries.filter (fun e => e.1 = r ∧ e.2.1 = c)).map (fun e => e.2.2)).foldl (fun acc e => (acc + e).round fl) (.fin 0)

/-- `interp1d([x0, x1], [y0, y1])(t)` (`model.py:139`). -/
def interp2R (fl : K → K) (x0 x1 y0 y1 t : K) : K :=
  if x1 ≤ t then y1
  else if t = x0 then y0
  else fl (fl (fl (fl (y1 - y0) / fl (x1 - x0)) * fl (t - x0)) + y0)

/-- Rescaled beam lengths (`model.py:135-139`). -/
def rescaleR (fl : K → K) (lmin lmax : Option K) (ls : List K) : Except Err (List K) := do
  let lo ← match lmin with | some a => Except.ok a | none => npMin ls     -- 135-136
  let hi ← match lmax with | some a => Except.ok a | none => npMax ls     -- 137-138
  let a ← npMin ls
  let b ← npMax ls
  return ls.map (interp2R fl (min a lo) (max b hi) lo hi)                 -- 139

/-- `model.py:142-149` for one beam. -/
def coeffsR (fl : K → K) (f : Fiber K) (l coupling : K) : Coeffs K :=
  let rd := Cell.round fl
  let G : Cell K := .fin f.G
  let E : Cell K := topCell f.E
  let h : Cell K := .fin f.h
  let lc : Cell K := .fin l
  let k0 := rd (Cell.fin (fl (fl (npPi / 4) * fl (fl (f.G * f.b) * f.h))) / lc)           -- 142
  let k0 := rd (k0 / rd (Cell.fin 1 + rd (rd (G / E) * rd (rd (lc / h) * rd (lc / h)))))  -- 143
  let k1 := rd (rd (k0 * lc) / Cell.fin 2)                                                -- 144
  let k1 := rd (k1 * Cell.fin coupling)                                                   -- 145
  let k2 := rd (rd (k0 * rd (lc * lc)) / Cell.fin 3)                                      -- 146
  let k2 := rd (k2 + rd (rd (k0 * rd (E / G)) * rd (h * h)))                              -- 147
  let k3 := rd (rd (k0 * rd (lc * lc)) / Cell.fin 2)                                      -- 148
  let k4 := rd (k2 - k3)                                                                  -- 149
  ⟨k0, k1, k2, k4⟩

/-- `stiffness(mat, mesh, lmin, lmax, coupling)` (`model.py:12-183`). -/
def stiffnessR (fl : K → K) (mat : Mat K) (mesh : Mesh K) (lmin lmax : Option K) (coupling : K) :
    Except Err (Coo (Cell K)) := do
  matCheck mat.frame                                                      -- 123
  meshCheck mesh.frame                                                    -- 124
  let bs ← beams mat mesh.rows                                            -- 127-133
  let ls ← rescaleR fl lmin lmax (bs.map (fun b => fl b.l))               -- 134-139
  return { nrows := 2 * mesh.rows.length
           ncols := 2 * mesh.rows.length
           entries := (bs.zip ls).flatMap (fun p =>
             beamEntries p.1.i p.1.j (coeffsR fl p.1.fiber p.2 coupling)) } -- 142-175

/-- The three bounds of one contact (`model.py:286-298`). -/
def contactBoundsR (fl : K → K) (Z : K) (c : Contact K) : List (Cell K) :=
  [ .fin (fl (c.zi - fl (c.hi / 2))),                                                          -- 291
    if c.i = c.j then .pinf else .fin (fl (fl (c.zj - c.zi) - fl (fl (c.hi + c.hj) / 2))),     -- 293, 298
    .fin (fl (fl (Z - c.zj) - fl (c.hj / 2))) ]                                                -- 295

/-- `constraint(mat, mesh)` (`model.py:186-300`). -/
def constraintR (fl : K → K) (mat : Mat K) (mesh : Mesh K) : Except Err (ConstraintSys K) := do
  matCheck mat.frame                                                      -- 254
  meshCheck mesh.frame                                                    -- 255
  let h ← nodeThickness mat mesh.rows                                     -- 266
  let cs ← contacts mesh.rows h                                           -- 258-260, 267-270
  let Z ← npMax ((mesh.rows.zip h).map (fun p => fl (p.1.z + fl (p.2 / 2)))) -- 271
  return { C := { nrows := 3 * cs.length
                  ncols := 2 * mesh.rows.length
                  entries := cs.zipIdx.flatMap (fun p => contactEntries p.2 p.1.i p.1.j) }
           H := cs.flatMap (contactBoundsR fl Z)                          -- 287-298
           dH := cs.flatMap (fun _ => [0, 0, 1])                          -- 289, 296
           Z := Z
           mesh := { mesh with h := some h } }

/-- `bmat([[K, C.T], [C, None]])` and the stacked vectors (`solver.py:111-115,129`).  (The sums of the duplicates of `C` are sums of
`1` and `-1`, which are exact.) -/
def assembleR (fl : K → K) (Km : Coo (Cell K)) (cs : ConstraintSys K) : Sys K :=
  { assemble Km cs with
    P := fun r c =>
      if r < Km.nrows then
        if c < Km.nrows then Km.getR fl r c else .fin (cs.C.get (c - Km.nrows) r)
      else
        if c < Km.nrows then .fin (cs.C.get (r - Km.nrows) c) else .fin 0 }

/-- `solve` (`solver.py:13-200`): the system and the recorded histories. -/
def solveR (A : Floats K) (mat : Mat K) (mesh : Mesh K) (lmin lmax : Option K) (coupling : K)
    (o : Opts K) (perm : Option (List Nat)) : Except Err (Sys K × List (Rec K) × Stop) := do
  let Km ← stiffnessR A.fl mat mesh lmin lmax coupling                    -- 109
  let cs ← constraintR A.fl mat mesh                                      -- 110
  let S := assembleR A.fl Km cs                                           -- 111-115
  let o := { o with perm := perm.getD (List.range S.n) }                  -- 117-118
  return (S, S.runR A o)

/-- The linear program of `Stack.constraint` and `Stack.solve` (`net.py:695-701,751-776`). -/
def stackLpR (fl : K → K) (mat : Mat K) (net : Net K) : LP K :=
  let rows := innerRows net.rows                                          -- 751-753
  let h := mat.fibers.map (·.h)                                           -- 759
  { C := { nrows := rows.length                                           -- 762-768
           ncols := mat.fibers.length
           entries :=
             rows.zipIdx.map (fun p => (p.2, p.1.A.toNat, (1 : K)))
             ++ rows.zipIdx.map (fun p => (p.2, p.1.B.toNat, (-1 : K))) }
    f := mat.fibers.map (fun g => fl (fl (npPi / 4) * fl (fl (g.l * g.b) * g.h)))                       -- 771
    H := rows.map (fun r => -(fl (fl (h.getD r.A.toNat 0 + h.getD r.B.toNat 0) / 2)))                   -- 772-774
    lower := h.map (fun a => fl (a / 2)) }                                -- 699

/-- Rows kept by the threshold (`net.py:577-585`). -/
def thresholdRowsR (fl : K → K) (t : K) (rows : List (NetRow K)) : List (NetRow K) :=
  rows.filter (fun r => |fl (r.zB - r.zA)| ≤ t ∨ r.A = r.B)

/-- `Stack(mat, net, threshold)` (`net.py:499-591`). -/
def stackNewR (N : NetArith K) (linprog : Linprog K) (mat : Mat K) (net : Net K) (threshold : Option K) :
    Except Err (Mat K × Net K) := do
  matCheck mat.frame                                                      -- 565
  netCheck net.frame                                                      -- 566
  if !(innerRows net.rows).all (fun r => decide (0 ≤ r.A) && decide (r.A < mat.fibers.length)
      && decide (0 ≤ r.B) && decide (r.B < mat.fibers.length)) then
    throw Err.valueError                                                  -- 767-768
  if mat.fibers.length = 0 then return (mat, net)                         -- 588, 702-703
  match linprog (stackLpR N.fl mat net) with                                -- 569
  | none => throw Err.unmodelled
  | some z =>
    if z.length ≠ mat.fibers.length then throw Err.unmodelled
    let mat' := mat.setZ z                                                -- 573
    let net' ← netNewR N mat' (net.attrs.periodic.getD true)                 -- 574
    let stack : Net K := match threshold with                             -- 576-585
      | some t => { net' with rows := thresholdRowsR N.fl t net'.rows }
      | none => net'
    netCheck stack.frame                                                  -- 588
    return (mat', stack)

end Fibermat
