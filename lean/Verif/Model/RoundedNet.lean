import Verif.Model.Net

/-! # Model of `Net` with rounded arithmetic

The same lines as in `Verif/Model/Net.lean`, every operation on numbers being followed by a rounding.  The norm and the linear algebra
of numpy are functions given from outside, so that nothing is assumed on their errors.  Overflow, underflow and NaN are not modelled. -/

namespace Fibermat
variable {K : Type} [Field K] [LinearOrder K]

/-- The arithmetic of `Net.init`: `fl` is the rounding; `closer dx dy d` is the outcome of `np.linalg.norm([dx, dy]) < d` (`net.py:210,214`);
`sol f g` is `none` when the computed `np.linalg.det(UUt)` is zero, and otherwise the computed `np.linalg.solve(UUt, Ur)`
(`net.py:225-230`). -/
structure NetArith (K : Type) where
  fl : K → K
  closer : K → K → K → Bool
  sol : Fiber K → Fiber K → Option (K × K)

/-- `mat_` (`net.py:176-199`). -/
def periodicFibersR (fl : K → K) (size : K) (fs : List (Fiber K)) : List (Nat × Fiber K) :=
  let base := fs.zipIdx.map (fun p => (p.2, p.1))
  let l := maxLength fs                                                   -- 179
  let x1 := fl (-(size / 2)); let x2 := fl (size / 2)                     -- 180
  let y1 := fl (-(size / 2)); let y2 := fl (size / 2)                     -- 181
  base
  ++ (base.filter (fun p => p.2.x < fl (x1 + l))).map                     -- 182, 186-188
      (fun p => (p.1, { p.2 with x := fl (p.2.x + size) }))
  ++ (base.filter (fun p => p.2.y < fl (y1 + l))).map                     -- 183, 190-192
      (fun p => (p.1, { p.2 with y := fl (p.2.y + size) }))
  ++ (base.filter (fun p => p.2.x > fl (x2 - l) ∧ p.2.y > fl (y2 - l))).map -- 184, 194-197
      (fun p => (p.1, { p.2 with x := fl (p.2.x - size), y := fl (p.2.y - size) }))

/-- The work of `Net.init` for one pair of (label, fiber) (`net.py:208-248`). -/
def candidateR (N : NetArith K) (p : (Nat × Fiber K) × (Nat × Fiber K)) : Option (Cand K) :=
  let a := p.1
  let b := p.2
  if N.closer (N.fl (a.2.x - b.2.x)) (N.fl (a.2.y - b.2.y)) (N.fl (N.fl (a.2.l + b.2.l) / 2)) then   -- 208-214
    let R := (N.sol a.2 b.2).getD (N.fl (a.2.l / 2), N.fl (b.2.l / 2))                               -- 217-230
    let s := (R.1, -R.2)                                                                             -- 234
    if (|s.1| < N.fl (a.2.l / 2) ∧ |s.2| < N.fl (b.2.l / 2)) ∨ a.1 = b.1 then                        -- 238-240
      if a.1 ≤ b.1 then some ⟨a.1, b.1, s.1, s.2⟩ else some ⟨b.1, a.1, s.2, s.1⟩                     -- 246-248
    else none
  else none

/-- Points `X + abscissa * U` of the original fibers, by label (`net.py:254-265`). -/
def netRowR (fl : K → K) (fs : List (Fiber K)) (c : Cand K) : NetRow K :=
  let f := fs.getD c.A Fiber.zero
  let g := fs.getD c.B Fiber.zero
  { A := c.A, B := c.B, sA := c.sA, sB := c.sB
    xA := fl (f.x + fl (c.sA * f.u)), yA := fl (f.y + fl (c.sA * f.v)), zA := fl (f.z + fl (c.sA * f.w))
    xB := fl (g.x + fl (c.sB * g.u)), yB := fl (g.y + fl (c.sB * g.v)), zB := fl (g.z + fl (c.sB * g.w)) }

/-- `Net.init` (`net.py:145-272`).  `pairs = none` is the default. -/
def netInitR (N : NetArith K) (mat : Mat K) (periodic : Bool) (pairs : Option (List (Int × Int))) :
    Except Err (Net K) := do
  matCheck mat.frame                                                      -- 173
  let ext ← if periodic then                                              -- 176-201
      match mat.attrs.size with
      | some size => Except.ok (periodicFibersR N.fl size mat.fibers)
      | none => Except.error Err.keyError
    else Except.ok (plainFibers mat.fibers)
  let prs ← match pairs with                                              -- 204-205
    | none => Except.ok (triu ext)
    | some l => userPairs ext l
  let cands := sortDedup (prs.filterMap (candidateR N))                   -- 208-253
  return { rows := cands.map (netRowR N.fl mat.fibers)                    -- 254-265
           attrs := { mat.attrs with periodic := some periodic } }        -- 268-269

/-- `Net(mat, periodic=…, pairs=…)` (`net.py:135-140`): `Net.init` then `Net.check`. -/
def netNewR (N : NetArith K) (mat : Mat K) (periodic : Bool := true) (pairs : Option (List (Int × Int)) := none) :
    Except Err (Net K) := do
  let net ← netInitR N mat periodic pairs
  netCheck net.frame
  return net

/-- The normal equations solved exactly. -/
def NetArith.exact : NetArith K where
  fl := id
  closer dx dy d := decide (0 < d) && decide (dx ^ 2 + dy ^ 2 < d ^ 2)
  sol f g :=
    let d := detU f g
    if d ≠ 0 then
      some ((dotU g g * dotR f f g - dotU f g * dotR g f g) / d, (dotU f f * dotR g f g - dotU g f * dotR f f g) / d)
    else none

/-! ## Linear algebra of numpy (LAPACK `getrf`, `getrs`) for the normal equations -/

/-- Sum of products, one after the other: an entry of `U @ Ut` or of `U @ r` (`net.py:225-226`). -/
def dot3R (fl : K → K) (a b : K × K × K) : K := fl (fl (fl (a.1 * b.1) + fl (a.2.1 * b.2.1)) + fl (a.2.2 * b.2.2))

/-- Last pivot of the elimination of `[[a, b], [c, d]]` with `|c| ≤ |a|`: the column is multiplied by `1 / a` (`getrf`). -/
def lastPivotR (fl : K → K) (a b c d : K) : K := fl (d - fl (fl (c * fl (1 / a)) * b))

/-- Solution of `[[a, b], [c, d]] R = (p, q)` with `|c| ≤ |a|` by elimination, `none` if a pivot is zero. -/
def elimR (fl : K → K) (a b c d p q : K) : Option (K × K) :=
  if a = 0 then none
  else if lastPivotR fl a b c d = 0 then none
  else
    let y := fl (fl (q - fl (fl (c * fl (1 / a)) * p)) / lastPivotR fl a b c d)
    some (fl (fl (p - fl (b * y)) / a), y)

/-- `np.linalg.det` and `np.linalg.solve` of the normal equations (`net.py:221-230`), by elimination with exchange of rows when the
second one has a larger first entry.  Simplification: underflow is not modelled, so that the computed determinant is zero exactly when a
pivot is zero. -/
def lapack (fl : K → K) (f g : Fiber K) : Option (K × K) :=
  let U := (f.u, f.v, f.w)
  let V := (g.u, g.v, g.w)
  let r := (fl (g.x - f.x), fl (g.y - f.y), fl (g.z - f.z))
  let a := dot3R fl U U
  let b := dot3R fl U V
  let c := dot3R fl V U
  let d := dot3R fl V V
  let p := dot3R fl U r
  let q := dot3R fl V r
  if |a| < |c| then elimR fl c d a b q p else elimR fl a b c d p q

/-- `np.linalg.norm([dx, dy]) < d` (`net.py:210,214`): rounded square root `sq` of the sum of squares. -/
def normCloser (fl sq : K → K) (dx dy d : K) : Bool := decide (sq (fl (fl (dx * dx) + fl (dy * dy))) < d)

/-- Norm and linear algebra of numpy. -/
def numpyArith (fl sq : K → K) : NetArith K where
  fl := fl
  closer := normCloser fl sq
  sol := lapack fl

end Fibermat
