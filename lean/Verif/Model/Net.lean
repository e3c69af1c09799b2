import Verif.Model.Mat

/-! # Model of class `Net` in `/repo/src/fibermat/net.py` (lines 15-379) -/

namespace Fibermat
variable {K : Type}

/-- One row of a `Net` frame (`net.py:258-265`). -/
structure NetRow (K : Type) where
  A : Int
  B : Int
  sA : K
  sB : K
  xA : K
  yA : K
  zA : K
  xB : K
  yB : K
  zB : K
deriving DecidableEq, Repr

/-- Column names of a `Net` (`net.py:262,343`). -/
def netColumns : List String := ["A", "B", "sA", "sB", "xA", "yA", "zA", "xB", "yB", "zB"]

/-- A raw frame passed to `Net.check`; `intAB` says whether `net[["A","B"]].values.dtype == int`.
Simplification: row labels are integers; when `intAB` is false the values of `A`, `B` are meaningless
(the check stops before reading them). -/
structure NetFrame (K : Type) where
  columns : List String
  intAB : Bool
  rows : List (Int × NetRow K)
  attrs : Attrs K

/-- `Net.check` (`net.py:296-379`); also `Stack.check` (`net.py:615-655`).
Simplification: where the number of distinct labels differs from the number of rows, the elementwise comparison of
`net.py:356` fails (recent numpy: with a broadcasting ValueError); it is modelled as IndexError. -/
def netCheck [LinearOrder K] (f : NetFrame K) : Except Err Unit :=
  if f.attrs.skip then .ok ()                                             -- 335-339
  else if !netColumns.all (· ∈ f.columns) then .error .keyError           -- 342-345
  else match f.attrs.n, f.attrs.size, f.attrs.periodic with
    | none, _, _ => .error .attributeError                                -- 348-349
    | _, none, _ => .error .attributeError                                -- 350-351
    | _, _, none => .error .attributeError                                -- 352-353
    | some n, some _, some _ =>
      let index := f.rows.map Prod.fst
      let rows := f.rows.map Prod.snd
      if npUnique index ≠ arange f.rows.length then .error .indexError    -- 356-358
      else if index ≠ arange f.rows.length then .error .indexError        -- 359-360
      else if !f.intAB then .error .typeError                             -- 363-364
      else if !rows.all (fun r => decide (0 ≤ r.A) && decide (0 ≤ r.B)
          && decide (r.A < n) && decide (r.B < n)) then .error .valueError -- 367-370
      else if rows.length ≠ (dropDup (fun r : NetRow K => (r.A, r.B, r.sA, r.sB)) rows).length
        then .error .valueError                                           -- 371-374
      else if !rows.all (fun r => decide (r.A ≤ r.B)) then .error .valueError -- 375-376
      else .ok ()                                                         -- 379

/-- A `Net` object: rows labelled `0..m-1` in order, integer `A`, `B`, standard columns. -/
structure Net (K : Type) where
  rows : List (NetRow K)
  attrs : Attrs K

/-- The data frame of a `Net` object. -/
def Net.frame (m : Net K) : NetFrame K :=
  { columns := netColumns
    intAB := true
    rows := m.rows.zipIdx.map (fun p => ((p.2 : Int), p.1))
    attrs := m.attrs }

/-! ## `Net.init` -/

section
variable [Field K] [LinearOrder K]

/-- `mat.l.max()` (`net.py:179`); NaN on an empty mat in the code, where it is compared with nothing. -/
def maxLength : List (Fiber K) → K
  | [] => 0
  | f :: fs => fs.foldl (fun m g => max m g.l) f.l

/-- The mat with its periodic copies, `mat_` (`net.py:176-199`), as (label, fiber) pairs:
the fibers, then those near the lower x side moved by `+size` in x, those near the lower y
side moved by `+size` in y, those near the upper corner moved by `-size` in x and y. -/
def periodicFibers (size : K) (fs : List (Fiber K)) : List (Nat × Fiber K) :=
  let base := fs.zipIdx.map (fun p => (p.2, p.1))
  let l := maxLength fs                                                   -- 179
  let x1 := -(size / 2); let x2 := size / 2                               -- 180
  let y1 := -(size / 2); let y2 := size / 2                               -- 181
  base
  ++ (base.filter (fun p => p.2.x < x1 + l)).map                          -- 182, 186-188
      (fun p => (p.1, { p.2 with x := p.2.x + size }))
  ++ (base.filter (fun p => p.2.y < y1 + l)).map                          -- 183, 190-192
      (fun p => (p.1, { p.2 with y := p.2.y + size }))
  ++ (base.filter (fun p => p.2.x > x2 - l ∧ p.2.y > y2 - l)).map         -- 184, 194-197
      (fun p => (p.1, { p.2 with x := p.2.x - size, y := p.2.y - size }))

/-- `mat_` when `periodic` is false (`net.py:200-201`): the mat itself. -/
def plainFibers (fs : List (Fiber K)) : List (Nat × Fiber K) :=
  fs.zipIdx.map (fun p => (p.2, p.1))

/-- The pairs `np.c_[np.triu_indices(len(mat_))]` (`net.py:205`), row by row, as pairs of elements. -/
def triu {α : Type} : List α → List (α × α)
  | [] => []
  | a :: l => (a :: l).map (fun b => (a, b)) ++ triu l

/-- Numpy integer indexing `values[i]`: negative indices count from the end, out of range raises. -/
def npGet {α : Type} (l : List α) (i : Int) : Except Err α :=
  match l[(if i < 0 then i + l.length else i).toNat]? with
  | some a => if -(l.length : Int) ≤ i then .ok a else .error .indexError
  | none => .error .indexError

/-- `mat_.values[pairs]` for user-supplied pairs (`net.py:208-209`). -/
def userPairs {α : Type} (l : List α) : List (Int × Int) → Except Err (List (α × α))
  | [] => .ok []
  | p :: ps => do
    let a ← npGet l p.1
    let b ← npGet l p.2
    let r ← userPairs l ps
    return (a, b) :: r

/-- Spherical neighbourhood filter `distances < diameters` (`net.py:208-214`), the norm compared by squares. -/
def nearby (f g : Fiber K) : Bool :=
  let m := (f.l + g.l) / 2
  decide (0 < m) && decide ((f.x - g.x) ^ 2 + (f.y - g.y) ^ 2 < m ^ 2)

/-- Scalar product of two directions. -/
def dotU (f g : Fiber K) : K := f.u * g.u + f.v * g.v + f.w * g.w

/-- `U @ r` with `r = X_g - X_f` (`net.py:222,226`) for the direction of `e`. -/
def dotR (e f g : Fiber K) : K :=
  e.u * (g.x - f.x) + e.v * (g.y - f.y) + e.w * (g.z - f.z)

/-- `np.linalg.det(UUt)` (`net.py:225,228`). -/
def detU (f g : Fiber K) : K := dotU f f * dotU g g - dotU f g * dotU g f

/-- Abscissae of the nearest points (`net.py:224-234`): the solution `R` of the normal equations
`U Uᵀ R = U r` (Cramer's rule), or half lengths when the determinant is zero;
`abscissa = R * [[1], [-1]]`. -/
def abscissae (f g : Fiber K) : K × K :=
  let d := detU f g
  if d ≠ 0 then
    ((dotU g g * dotR f f g - dotU f g * dotR g f g) / d,
     -((dotU f f * dotR g f g - dotU g f * dotR f f g) / d))
  else (f.l / 2, -(g.l / 2))

/-- A connection before points are attached: sorted labels and abscissae (`net.py:246-249`). -/
structure Cand (K : Type) where
  A : Nat
  B : Nat
  sA : K
  sB : K
deriving DecidableEq, Repr

/-- The work of `Net.init` for one pair of (label, fiber): pre-filter (208-214), normal equations (217-234), finite
lines or equal labels (238-243), sort of the two labels (246-248). The half lengths of line 238 are read by label
from `mat_`, whose first rows are the original fibers; copies have the same length. -/
def candidate (p : (Nat × Fiber K) × (Nat × Fiber K)) : Option (Cand K) :=
  let a := p.1
  let b := p.2
  if nearby a.2 b.2 then
    let s := abscissae a.2 b.2
    if (|s.1| < a.2.l / 2 ∧ |s.2| < b.2.l / 2) ∨ a.1 = b.1 then
      if a.1 ≤ b.1 then some ⟨a.1, b.1, s.1, s.2⟩ else some ⟨b.1, a.1, s.2, s.1⟩
    else none
  else none

/-- Sort key of `sort_values(by=[0, 1])` (`net.py:250`). -/
def candLe (a b : Cand K) : Prop := a.A < b.A ∨ (a.A = b.A ∧ a.B ≤ b.B)

instance : DecidableRel (candLe (K := K)) := fun a b => by unfold candLe; infer_instance

/-- Sort and remove repeated nodes (`net.py:249-253`): stable sort, then `drop_duplicates([0, 1])`. -/
def sortDedup (l : List (Cand K)) : List (Cand K) :=
  dropDup (fun c : Cand K => (c.A, c.B)) (l.insertionSort candLe)

/-- A fiber used to totalise list access; never reached for labels of the mat. -/
def Fiber.zero : Fiber K := ⟨0, 0, 0, 0, 0, 0, 0, 0, 0, 0, ⊤⟩

/-- Points `X + abscissa * U` of the original fibers, by label (`net.py:254-265`). -/
def netRow (fs : List (Fiber K)) (c : Cand K) : NetRow K :=
  let f := fs.getD c.A Fiber.zero
  let g := fs.getD c.B Fiber.zero
  { A := c.A, B := c.B, sA := c.sA, sB := c.sB
    xA := f.x + c.sA * f.u, yA := f.y + c.sA * f.v, zA := f.z + c.sA * f.w
    xB := g.x + c.sB * g.u, yB := g.y + c.sB * g.v, zB := g.z + c.sB * g.w }

/-- `Net.init` (`net.py:145-272`).  `pairs = none` is the default. -/
def netInit (mat : Mat K) (periodic : Bool) (pairs : Option (List (Int × Int))) :
    Except Err (Net K) := do
  matCheck mat.frame                                                      -- 173
  let ext ← if periodic then                                              -- 176-201
      match mat.attrs.size with
      | some size => Except.ok (periodicFibers size mat.fibers)
      | none => Except.error Err.keyError
    else Except.ok (plainFibers mat.fibers)
  let prs ← match pairs with                                              -- 204-205
    | none => Except.ok (triu ext)
    | some l => userPairs ext l
  let cands := sortDedup (prs.filterMap candidate)                        -- 208-253
  return { rows := cands.map (netRow mat.fibers)                          -- 254-265
           attrs := { mat.attrs with periodic := some periodic } }        -- 268-269

/-- `Net(mat, periodic=…, pairs=…)` (`net.py:135-140`): `Net.init` then `Net.check`. -/
def netNew (mat : Mat K) (periodic : Bool := true) (pairs : Option (List (Int × Int)) := none) :
    Except Err (Net K) := do
  let net ← netInit mat periodic pairs
  netCheck net.frame
  return net

end
end Fibermat
