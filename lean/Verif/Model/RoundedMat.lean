import Verif.Model.RoundedAssembly

/-! # Model of `Mat` and of the program `/repo/main.py` with rounded arithmetic

The same lines as in `Verif/Model/Mat.lean` and `Verif/Model/Main.lean`, every operation on numbers being followed by a rounding `fl`;
`cos`, `sin` and the square root `sq` are the computed ones.  Overflow, underflow and NaN are not modelled. -/

namespace Fibermat
variable {σ K : Type} [Field K] [LinearOrder K]

/-- `np.random.uniform(-0.5, 0.5, n)`: `low + (high - low) * random_sample()`. -/
def Rng.uniformR (fl : K → K) (g : Rng σ K) (n : Nat) (s : σ) : List K × σ :=
  let r := g.draws n s
  (r.1.map (fun a => fl (-(1 / 2) + fl (fl (1 / 2 - -(1 / 2)) * a))), r.2)

/-- `Mat.init` (`mat.py:159-232`). -/
def matInitR (fl : K → K) (g : Rng σ K) (cos sin : K → K) (entropy : σ) (a : MatArgs K) (s : σ) : Except Err (Mat K × σ) :=
  let s0 := g.reseed entropy a.seed s                                    -- 199
  if !seedOk a.seed then .error .valueError                              -- 199
  else if a.n < 0 then .error .valueError                                     -- 202
  else
    let n := a.n.toNat
    let x := g.uniformR fl n s0                                          -- 206
    let y := g.uniformR fl n x.2                                         -- 207
    let z := g.uniformR fl n y.2                                         -- 208
    let p := g.uniformR fl n z.2                                         -- 211
    let q := g.uniformR fl n p.2                                         -- 212
    let xs := x.1.map (fun t => fl (t * a.size))
    let ys := y.1.map (fun t => fl (t * a.size))
    let zs := (z.1.map (fun t => fl (t * a.size))).insertionSort (· ≤ ·) -- 209
    let ps := p.1.map (fun t => fl (t * a.theta))
    let qs := q.1.map (fun t => fl (t * a.psi))
    let fibers := (xs.zip (ys.zip (zs.zip (ps.zip qs)))).map             -- 214-225
      (fun (x, y, z, p, q) =>
        { l := a.length, b := a.width, h := a.thickness, x := x, y := y, z := z
          u := fl (cos p * cos q), v := fl (sin p * cos q), w := sin q
          G := a.shear, E := a.tensile : Fiber K })
    .ok ({ fibers := fibers, attrs := { n := some a.n, size := some a.size } }, q.2)  -- 228-229

/-- `-0.5*size <= mat[[*"xy"]] <= 0.5*size` for one row (`mat.py:325-326`). -/
def boxOkR (fl : K → K) (size : K) (r : MatRow (Cell K)) : Bool :=
  Cell.le (.fin (fl (-(size / 2)))) r.x && Cell.le r.x (.fin (fl (size / 2))) &&
  Cell.le (.fin (fl (-(size / 2)))) r.y && Cell.le r.y (.fin (fl (size / 2)))

/-- `np.allclose(np.linalg.norm(mat[[*"uvw"]], axis=1), 1)` for one row (`mat.py:332`): square root of the sum of squares, then
`|norm - 1| <= atol + rtol * |1|`. -/
def normOkR (fl sq : K → K) (r : MatRow (Cell K)) : Bool :=
  match r.u, r.v, r.w with
  | .fin u, .fin v, .fin w =>
      decide (|fl (sq (dot3R fl (u, v, w) (u, v, w)) - 1)| ≤ fl (fl (1 / 100000000) + fl (fl (1 / 100000) * 1)))
  | _, _, _ => false

/-- `Mat.check` (`mat.py:254-338`). -/
def matCheckR (fl sq : K → K) (f : MatFrame K) : Except Err Unit :=
  if f.attrs.skip then .ok ()                                             -- 292-296
  else if !matColumns.all (· ∈ f.columns) then .error .keyError           -- 299-302
  else match f.attrs.n, f.attrs.size with
    | none, _ => .error .attributeError                                   -- 305-306
    | _, none => .error .attributeError                                   -- 307-308
    | some n, some size =>
      let index := f.rows.map Prod.fst
      let rows := f.rows.map Prod.snd
      if (f.rows.length : Int) ≠ n then .error .valueError                -- 311-314
      else if (npUnique index).length ≠ f.rows.length
          ∨ npUnique index ≠ arange f.rows.length then .error .indexError -- 315-318
      else if index ≠ arange f.rows.length then .error .indexError        -- 319-320
      else if !rows.all dimsOk then .error .valueError                    -- 323-324
      else if !rows.all (boxOkR fl size) then .error .valueError          -- 325-331
      else if !rows.all (normOkR fl sq) then .error .valueError           -- 332-333
      else if !rows.all moduliOk then .error .valueError                  -- 334-335
      else .ok ()                                                         -- 338

/-- `Mat(n, ...)` (`mat.py:149-154`): `Mat.init` followed by `Mat.check`. -/
def matNewR (fl sq : K → K) (g : Rng σ K) (cos sin : K → K) (entropy : σ) (a : MatArgs K) (s : σ) : Except Err (Mat K × σ) := do
  let r ← matInitR fl g cos sin entropy a s
  matCheckR fl sq r.1.frame
  return r

/-- What the program has computed when it exports its result (`main.py:71-97`). -/
structure MainResultR (K : Type) where
  mat : Mat K
  stack : Net K
  mesh : Mesh K
  sys : Sys K
  recs : List (Rec K)
  stop : Stop

/-- The arithmetic of the solver: `np.linalg.norm(e) > errtol` with the square root `sq`. -/
def numpyFloats (fl sq : K → K) : Floats K := { fl := fl, tooBig := normGt fl sq }

/-- `main.py:71-97` with arbitrary arguments.  `order` stands for `reverse_cuthill_mckee`.  Simplifications: the picture of the system
(`main.py:89`) is left out; the checks of the mat by `Net`, `Stack`, `stiffness` and `constraint` are exact (`C94_checks`: those with
rounding have the same outcome). -/
def mainProgramR (fl sq : K → K) (g : Rng σ K) (cos sin : K → K) (entropy : σ) (lp : Linprog K) (order : Sys K → List Nat)
    (a : MatArgs K) (periodic : Bool) (threshold lmin lmax : Option K) (coupling : K) (o : Opts K) (s : σ) :
    Except Err (MainResultR K × σ) := do
  let r ← matNewR fl sq g cos sin entropy a s                              -- 72
  let net ← netNewR (numpyArith fl sq) r.1 periodic                        -- 74
  let st ← stackNewR (numpyArith fl sq) lp r.1 net threshold               -- 76
  let mesh ← meshNew st.2                                                  -- 78
  let Km ← stiffnessR fl st.1 mesh none none 1                             -- 81
  let cs ← constraintR fl st.1 mesh                                        -- 82
  let perm := order (assembleR fl Km cs)                                   -- 83-85
  let out ← solveR (numpyFloats fl sq) st.1 mesh lmin lmax coupling o (some perm) -- 93-97
  return ({ mat := st.1, stack := st.2, mesh := mesh, sys := out.1, recs := out.2.1, stop := out.2.2 }, r.2)

end Fibermat
