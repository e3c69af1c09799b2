import Verif.Model.Chain
import Mathlib.Algebra.Order.Floor.Defs

/-! # Model of the script `/repo/scripts/logo.py`

The call `solver(...)` of the script is a `TypeError` (the name is a module, see DESIGN.md); the model calls `solve`, as
`main.py` does. -/

namespace Fibermat
variable {σ K : Type} [Field K] [LinearOrder K]

/-- The picture of the letters (`logo.py:3-21`). -/
def logoPixels : List (List ℕ) :=
  [
    [0, 0, 0, 0, 0, 0, 0, 0, 0, 0, 0, 0, 0, 0, 0, 0, 0, 0, 0, 0, 0, 0, 0, 0, 0, 0, 0, 0, 0, 0, 0, 0, 0, 0, 0, 0, 0, 0, 0, 0, 0, 0, 0, 0, 0, 0, 0, 0, 0, 0, 0, 0, 0, 0, 0, 0, 0, 0, 0],
    [0, 0, 0, 0, 0, 0, 0, 0, 0, 0, 0, 0, 0, 0, 0, 0, 0, 0, 0, 0, 0, 0, 0, 0, 0, 0, 0, 0, 0, 0, 0, 0, 0, 0, 0, 0, 0, 0, 0, 0, 0, 0, 0, 0, 0, 0, 0, 0, 0, 0, 0, 0, 0, 0, 0, 0, 0, 0, 0],
    [1, 1, 1, 1, 1, 1, 1, 1, 0, 1, 1, 0, 1, 1, 0, 0, 0, 0, 0, 0, 0, 0, 0, 0, 0, 0, 0, 0, 0, 0, 0, 0, 0, 0, 1, 1, 1, 1, 0, 0, 0, 1, 1, 1, 1, 0, 0, 0, 0, 0, 0, 0, 0, 1, 1, 0, 0, 0, 0],
    [1, 1, 1, 1, 1, 1, 1, 1, 0, 1, 1, 0, 1, 1, 0, 0, 0, 0, 0, 0, 0, 0, 0, 0, 0, 0, 0, 0, 0, 0, 0, 0, 0, 0, 1, 1, 1, 1, 0, 0, 0, 1, 1, 1, 1, 0, 0, 0, 0, 0, 0, 0, 0, 1, 1, 0, 0, 0, 0],
    [1, 1, 0, 0, 0, 0, 0, 0, 0, 0, 0, 0, 1, 1, 0, 0, 0, 0, 0, 1, 1, 1, 1, 1, 1, 0, 1, 0, 1, 1, 1, 1, 0, 0, 1, 1, 0, 1, 1, 0, 1, 1, 0, 1, 1, 0, 0, 0, 0, 0, 0, 0, 0, 1, 1, 0, 0, 0, 0],
    [1, 1, 0, 0, 0, 0, 0, 0, 0, 0, 0, 0, 1, 1, 0, 0, 0, 0, 0, 1, 1, 1, 1, 1, 1, 0, 1, 0, 1, 1, 1, 1, 0, 0, 1, 1, 0, 1, 1, 0, 1, 1, 0, 1, 1, 0, 0, 0, 0, 0, 0, 0, 0, 1, 1, 0, 0, 0, 0],
    [1, 1, 1, 1, 1, 0, 0, 0, 0, 1, 1, 0, 1, 1, 1, 1, 1, 1, 0, 1, 1, 0, 0, 1, 1, 0, 1, 1, 0, 0, 0, 1, 0, 0, 1, 1, 0, 0, 1, 1, 1, 0, 0, 1, 1, 0, 1, 1, 1, 1, 1, 1, 0, 1, 1, 1, 1, 1, 0],
    [1, 1, 1, 1, 1, 0, 0, 0, 0, 1, 1, 0, 1, 1, 1, 1, 1, 1, 0, 1, 1, 0, 0, 1, 1, 0, 1, 1, 0, 0, 0, 1, 0, 0, 1, 1, 0, 0, 1, 1, 1, 0, 0, 1, 1, 0, 1, 1, 1, 1, 1, 1, 0, 1, 1, 1, 1, 1, 0],
    [1, 1, 0, 0, 0, 0, 0, 0, 0, 1, 1, 0, 1, 1, 0, 0, 1, 1, 0, 1, 1, 0, 0, 0, 0, 0, 1, 1, 0, 0, 0, 0, 0, 0, 1, 1, 0, 0, 0, 0, 0, 0, 0, 1, 1, 0, 1, 1, 0, 0, 1, 1, 0, 1, 1, 0, 0, 0, 0],
    [1, 1, 0, 0, 0, 0, 0, 0, 0, 1, 1, 0, 1, 1, 0, 0, 1, 1, 0, 1, 1, 0, 0, 0, 0, 0, 1, 1, 0, 0, 0, 0, 0, 0, 1, 1, 0, 0, 0, 0, 0, 0, 0, 1, 1, 0, 1, 1, 0, 0, 1, 1, 0, 1, 1, 0, 0, 0, 0],
    [1, 1, 0, 0, 0, 0, 0, 0, 0, 1, 1, 0, 1, 1, 1, 1, 1, 0, 0, 0, 1, 1, 1, 1, 1, 0, 1, 1, 0, 0, 0, 0, 0, 0, 1, 1, 0, 0, 0, 0, 0, 0, 0, 1, 1, 0, 1, 1, 1, 0, 1, 1, 0, 1, 1, 1, 1, 1, 0],
    [1, 1, 0, 0, 0, 0, 0, 0, 0, 1, 1, 0, 1, 1, 1, 1, 1, 0, 0, 0, 1, 1, 1, 1, 1, 0, 1, 1, 0, 0, 0, 0, 0, 0, 1, 1, 0, 0, 0, 0, 0, 0, 0, 1, 1, 0, 1, 1, 1, 0, 1, 1, 0, 1, 1, 1, 1, 1, 0],
    [0, 0, 0, 0, 0, 0, 0, 0, 0, 0, 0, 0, 0, 0, 0, 0, 0, 0, 0, 0, 0, 0, 0, 0, 0, 0, 0, 0, 0, 0, 0, 0, 0, 0, 0, 0, 0, 0, 0, 0, 0, 0, 0, 0, 0, 0, 0, 0, 0, 0, 0, 0, 0, 0, 0, 0, 0, 0, 0],
    [0, 0, 0, 0, 0, 0, 0, 0, 0, 0, 0, 0, 0, 0, 0, 0, 0, 0, 0, 0, 0, 0, 0, 0, 0, 0, 0, 0, 0, 0, 0, 0, 0, 0, 0, 0, 0, 0, 0, 0, 0, 0, 0, 0, 0, 0, 0, 0, 0, 0, 0, 0, 0, 0, 0, 0, 0, 0, 0]
  ]

/-- `np.array(…, dtype=bool)` (`logo.py:3-21`). -/
def logoMask : List (List Bool) := logoPixels.map (·.map (· != 0))

/-- `np.random.uniform(low, high, n)`: `low + (high - low) * random_sample()` (`logo.py:25-26`). -/
def Rng.uniformIn (g : Rng σ K) (low high : K) (n : ℕ) (s : σ) : List K × σ :=
  let r := g.draws n s
  (r.1.map (fun a => low + (high - low) * a), r.2)

/-- `mask[i, j]` for one pair of indices (`logo.py:29`): negative indices count from the end, IndexError out of range. -/
def maskAt (mask : List (List Bool)) (i j : Int) : Except Err Bool := do
  let row ← npGet mask i
  npGet row j

/-- `j = ((x + 29) // 1).astype(int)`, `i = ((y + 6) // 1).astype(int)`, and the points kept by
`x[mask[i, j]], y[mask[i, j]]` (`logo.py:27-29`). -/
def keepMasked [FloorRing K] (mask : List (List Bool)) : List (K × K) → Except Err (List (K × K))
  | [] => .ok []
  | p :: ps => do
    let b ← maskAt mask ⌊p.2 + 6⌋ ⌊p.1 + 29⌋
    let r ← keepMasked mask ps
    return if b then p :: r else r

/-- The random points kept by the script (`logo.py:23-29`), for any number of points and any seed. -/
def logoPoints [FloorRing K] (g : Rng σ K) (seed : Int) (n : ℕ) : Except Err (List (K × K) × σ) := do
  if !seedOk (some seed) then throw .valueError                           -- 23
  let s := g.seed seed                                                    -- 23
  let x := g.uniformIn (-29) 29 n s                                       -- 25
  let y := g.uniformIn (-6) 6 n x.2                                       -- 26
  let ps ← keepMasked logoMask (x.1.zip y.1)                              -- 27-29
  return (ps, y.2)

/-- `mat.x = x; mat.y = -y` (`logo.py:33-34`): the columns are replaced, row by row. -/
def replaceXY (mat : Mat K) (ps : List (K × K)) : Mat K :=
  { mat with fibers := (mat.fibers.zip ps).map (fun q => { q.1 with x := q.2.1, y := -q.2.2 }) }

/-- The set of fibers of the script (`logo.py:23-34`).  `theta` is the default `np.pi` (`mat.py:160`); the other
defaults are `psi=0`, `shear=1`, `seed=0`. -/
def logoMat [FloorRing K] (g : Rng σ K) (cos sin : K → K) (entropy : σ) (seed : Int) (n : ℕ) :
    Except Err (Mat K × σ) := do
  let p ← logoPoints g seed n                                             -- 23-29
  let r ← matNew g cos sin entropy                                        -- 32
    { n := p.1.length, length := 1, width := 1 / 10, thickness := 1 / 20, size := 60, theta := npPi, psi := 0, shear := 1
      tensile := ((400 : K) : WithTop K), seed := some 0 } p.2
  return (replaceXY r.1 p.1, r.2)                                         -- 33-34

/-- The script up to the solver (`logo.py:23-46`). -/
def logoProgram [FloorRing K] (g : Rng σ K) (cos sin : K → K) (entropy : σ) (lp : Linprog K) (seed : Int) (n : ℕ) (o : Opts K) :
    Except Err (Sys K × List (Rec K) × Stop) := do
  let m ← logoMat g cos sin entropy seed n                                -- 23-34
  chain lp false none (some (1 / 100)) none (99 / 100)                    -- 36-46
    { o with packing := .fin 4, itermax := 10000 } none m.1

end Fibermat
