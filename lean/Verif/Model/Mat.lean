import Verif.Model.Base

/-! # Model of `/repo/src/fibermat/mat.py` -/

namespace Fibermat
variable {K : Type}

/-- One row of a `Mat` frame, columns `lbhxyzuvwGE` (`mat.py:222-225`). -/
structure MatRow (V : Type) where
  l : V
  b : V
  h : V
  x : V
  y : V
  z : V
  u : V
  v : V
  w : V
  G : V
  E : V
deriving DecidableEq, Repr

/-- A raw data frame passed to `Mat.check`: the column names it has, its labelled rows and its
attributes.  (Values of absent columns are meaningless; they are never read, `mat.py:299-302`.)
Simplification: row labels are integers. -/
structure MatFrame (K : Type) where
  columns : List String
  rows : List (Int × MatRow (Cell K))
  attrs : Attrs K

/-- Column names of a `Mat` (`mat.py:224,300`). -/
def matColumns : List String := ["l", "b", "h", "x", "y", "z", "u", "v", "w", "G", "E"]

section
variable [Field K] [LinearOrder K]

/-- `x > 0` on one cell. -/
def Cell.pos (c : Cell K) : Bool := Cell.lt (.fin 0) c

/-- `mat[[*"lbh"]] > 0` for one row (`mat.py:323`). -/
def dimsOk (r : MatRow (Cell K)) : Bool := r.l.pos && r.b.pos && r.h.pos

/-- `-0.5*size <= mat[[*"xy"]] <= 0.5*size` for one row (`mat.py:325-326`). -/
def boxOk (size : K) (r : MatRow (Cell K)) : Bool :=
  Cell.le (.fin (-(size / 2))) r.x && Cell.le r.x (.fin (size / 2)) &&
  Cell.le (.fin (-(size / 2))) r.y && Cell.le r.y (.fin (size / 2))

/-- `atol + rtol * 1` of `np.allclose(norm, 1)` (`mat.py:332`): `1e-8 + 1e-5`. -/
def normTol : K := 1001 / 100000000

/-- `np.allclose(np.linalg.norm(mat[[*"uvw"]], axis=1), 1)` for one row (`mat.py:332`).
`|sqrt s - 1| ≤ t` with `s = u²+v²+w²` is written `(1-t)² ≤ s ≤ (1+t)²`
(equivalent for `0 ≤ t ≤ 1`; see `C01_unit_iff_sqrt`). Non-finite components give a non-finite norm, never close to 1. -/
def normOk (r : MatRow (Cell K)) : Bool :=
  match r.u, r.v, r.w with
  | .fin u, .fin v, .fin w =>
      decide ((1 - normTol) ^ 2 ≤ u ^ 2 + v ^ 2 + w ^ 2) &&
      decide (u ^ 2 + v ^ 2 + w ^ 2 ≤ (1 + normTol) ^ 2)
  | _, _, _ => false

/-- `mat[[*"GE"]] > 0` for one row (`mat.py:334`). -/
def moduliOk (r : MatRow (Cell K)) : Bool := r.G.pos && r.E.pos

/-- `Mat.check` (`mat.py:254-338`) on a frame: `ok ()` = returns True, `error e` = raises `e`. -/
def matCheck (f : MatFrame K) : Except Err Unit :=
  if f.attrs.skip then .ok ()                                             -- 292-296
  else if !matColumns.all (· ∈ f.columns) then .error .keyError           -- 299-302
  else match f.attrs.n, f.attrs.size with
    | none, _ => .error .attributeError                                   -- 305-306
    | _, none => .error .attributeError                                   -- 307-308
    | some n, some size =>
      let index := f.rows.map Prod.fst
      let rows := f.rows.map Prod.snd
      if (f.rows.length : Int) ≠ n then .error .valueError                -- 311-314
      else if (npUnique index).length ≠ f.rows.length
          ∨ npUnique index ≠ arange f.rows.length then .error .indexError -- 315-318
      else if index ≠ arange f.rows.length then .error .indexError        -- 319-320
      else if !rows.all dimsOk then .error .valueError                    -- 323-324
      else if !rows.all (boxOk size) then .error .valueError              -- 325-331
      else if !rows.all normOk then .error .valueError                    -- 332-333
      else if !rows.all moduliOk then .error .valueError                  -- 334-335
      else .ok ()                                                         -- 338
end

/-- A fiber with finite data; the tensile modulus may be infinite (`⊤`), the documented default
(`mat.py:160`). -/
structure Fiber (K : Type) where
  l : K
  b : K
  h : K
  x : K
  y : K
  z : K
  u : K
  v : K
  w : K
  G : K
  E : WithTop K

/-- A `Mat` object: its fibers, labelled `0..n-1` in order, and its attributes.
Simplification: the functions downstream of `Mat.check` are modelled on frames that have the standard columns and
labels and finite data (`E` excepted); `Mat.check` itself is modelled on arbitrary frames. -/
structure Mat (K : Type) where
  fibers : List (Fiber K)
  attrs : Attrs K

/-- Embedding of `E` in cells. -/
def topCell : WithTop K → Cell K
  | none => .pinf
  | some e => .fin e

/-- The row of cells of a fiber. -/
def Fiber.row (f : Fiber K) : MatRow (Cell K) :=
  ⟨.fin f.l, .fin f.b, .fin f.h, .fin f.x, .fin f.y, .fin f.z, .fin f.u, .fin f.v, .fin f.w,
   .fin f.G, topCell f.E⟩

/-- The data frame of a `Mat` object. -/
def Mat.frame (m : Mat K) : MatFrame K :=
  { columns := matColumns
    rows := m.fibers.zipIdx.map (fun p => ((p.2 : Int), p.1.row))
    attrs := m.attrs }

/-! ## `Mat.init` -/

/-- Numpy's global random generator, abstractly: seeding and one draw of `random_sample()`. -/
structure Rng (σ K : Type) where
  seed : Int → σ
  next : σ → K × σ

/-- `n` successive draws. -/
def Rng.draws {σ : Type} (g : Rng σ K) : Nat → σ → List K × σ
  | 0, s => ([], s)
  | n + 1, s =>
    let a := g.next s
    let r := g.draws n a.2
    (a.1 :: r.1, r.2)

/-- `np.random.uniform(-0.5, 0.5, n)`: `low + (high - low) * random_sample()`. -/
def Rng.uniform {σ : Type} [Field K] (g : Rng σ K) (n : Nat) (s : σ) : List K × σ :=
  let r := g.draws n s
  (r.1.map (fun a => -(1 / 2) + (1 / 2 - -(1 / 2)) * a), r.2)

/-- `np.random.seed(seed)` (`mat.py:199`) acting on the global generator state `_s`: the state is replaced, from the
given seed, or from operating-system entropy when `seed is None`. -/
def Rng.reseed {σ : Type} (g : Rng σ K) (entropy : σ) (seed : Option Int) (_s : σ) : σ :=
  match seed with
  | some k => g.seed k
  | none => entropy

/-- Seeds accepted by `np.random.seed`; others raise ValueError (numpy: "Seed must be between 0 and 2**32 - 1"). -/
def seedOk : Option Int → Bool
  | some k => decide (0 ≤ k) && decide (k < 4294967296)
  | none => true

/-- Arguments of `Mat.init` (`mat.py:159-160`); `seed = none` models `seed=None`. -/
structure MatArgs (K : Type) where
  n : Int
  length : K
  width : K
  thickness : K
  size : K
  theta : K
  psi : K
  shear : K
  tensile : WithTop K
  seed : Option Int

/-- `Mat.init` (`mat.py:159-232`).  `cos`, `sin` are parameters; `entropy` is the state the generator
gets from the operating system when `seed is None`; `s` is the global generator state
before the call.  Returns the mat and the new global generator state. A negative `n` makes `np.full` raise, and
`np.random.seed` refuses some seeds. -/
def matInit {σ : Type} [Field K] [LinearOrder K] (g : Rng σ K) (cos sin : K → K) (entropy : σ)
    (a : MatArgs K) (s : σ) : Except Err (Mat K × σ) :=
  let s0 := g.reseed entropy a.seed s                                    -- 199
  if !seedOk a.seed then .error .valueError                              -- 199
  else if a.n < 0 then .error .valueError                                     -- 202
  else
    let n := a.n.toNat
    let x := g.uniform n s0                                              -- 206
    let y := g.uniform n x.2                                             -- 207
    let z := g.uniform n y.2                                             -- 208
    let p := g.uniform n z.2                                             -- 211
    let q := g.uniform n p.2                                             -- 212
    let xs := x.1.map (· * a.size)
    let ys := y.1.map (· * a.size)
    let zs := (z.1.map (· * a.size)).insertionSort (· ≤ ·)               -- 209
    let ps := p.1.map (· * a.theta)
    let qs := q.1.map (· * a.psi)
    let fibers := (xs.zip (ys.zip (zs.zip (ps.zip qs)))).map             -- 214-225
      (fun (x, y, z, p, q) =>
        { l := a.length, b := a.width, h := a.thickness, x := x, y := y, z := z
          u := cos p * cos q, v := sin p * cos q, w := sin q
          G := a.shear, E := a.tensile : Fiber K })
    .ok ({ fibers := fibers, attrs := { n := some a.n, size := some a.size } }, q.2)  -- 228-229

/-- `Mat(n, ...)` (`mat.py:149-154`): `Mat.init` followed by `Mat.check`. -/
def matNew {σ : Type} [Field K] [LinearOrder K] (g : Rng σ K) (cos sin : K → K) (entropy : σ)
    (a : MatArgs K) (s : σ) : Except Err (Mat K × σ) := do
  let r ← matInit g cos sin entropy a s
  matCheck r.1.frame
  return r

end Fibermat
