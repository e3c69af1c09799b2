import Verif.Model.Mesh
import Verif.Model.Coo

/-! # Model of `stiffness` and `constraint` in `/repo/src/fibermat/model.py` -/

namespace Fibermat
variable {K : Type} [Field K] [LinearOrder K]

/-! ## `stiffness` -/

/-- A beam element before its length is rescaled: nodes `i < j` and the fiber (`model.py:127-133`). -/
structure Beam (K : Type) where
  i : Nat
  j : Nat
  l : K
  fiber : Fiber K

/-- The beams of a mesh (`model.py:127-134`): rows with `index < beam`; the fiber is looked up in the mat and the
abscissae in the mesh, both by label (KeyError when absent). -/
def beams (mat : Mat K) (rows : List (MeshRow K)) : Except Err (List (Beam K)) :=
  (rows.zipIdx.filter (fun p => (p.2 : Int) < p.1.beam)).mapM (fun p =>
    match (if p.1.fiber < 0 then none else mat.fibers[p.1.fiber.toNat]?), rows[p.1.beam.toNat]? with
    | some f, some r => Except.ok ⟨p.2, p.1.beam.toNat, r.s - p.1.s, f⟩
    | _, _ => Except.error Err.keyError)

/-- Minimum of a non-empty list (`np.min`), ValueError on an empty one. -/
def npMin : List K → Except Err K
  | [] => .error .valueError
  | a :: l => .ok (l.foldl min a)

/-- Maximum of a non-empty list (`np.max`), ValueError on an empty one. -/
def npMax : List K → Except Err K
  | [] => .error .valueError
  | a :: l => .ok (l.foldl max a)

/-- `interp1d([x0, x1], [y0, y1])(t)` for `x0 ≤ t ≤ x1` (`model.py:139`), which scipy evaluates by `np.interp`. -/
def interp2 (x0 x1 y0 y1 t : K) : K :=
  if x1 ≤ t then y1
  else if t = x0 then y0
  else (y1 - y0) / (x1 - x0) * (t - x0) + y0

/-- Rescaled beam lengths (`model.py:135-139`). -/
def rescale (lmin lmax : Option K) (ls : List K) : Except Err (List K) := do
  let lo ← match lmin with | some a => Except.ok a | none => npMin ls     -- 135-136
  let hi ← match lmax with | some a => Except.ok a | none => npMax ls     -- 137-138
  let a ← npMin ls
  let b ← npMax ls
  return ls.map (interp2 (min a lo) (max b hi) lo hi)                     -- 139

/-- The coefficients `k0, k1, k2, k4` of one beam of length `l` (`model.py:142-149`), with IEEE special values. -/
structure Coeffs (K : Type) where
  k0 : Cell K
  k1 : Cell K
  k2 : Cell K
  k4 : Cell K

/-- `model.py:142-149` for one beam. -/
def coeffs (f : Fiber K) (l coupling : K) : Coeffs K :=
  let G : Cell K := .fin f.G
  let E : Cell K := topCell f.E
  let h : Cell K := .fin f.h
  let lc : Cell K := .fin l
  let k0 := Cell.fin (npPi / 4 * (f.G * f.b * f.h)) / lc                  -- 142
  let k0 := k0 / (Cell.fin 1 + (G / E) * ((lc / h) * (lc / h)))           -- 143
  let k1 := k0 * lc / Cell.fin 2                                          -- 144
  let k1 := k1 * Cell.fin coupling                                        -- 145
  let k2 := k0 * (lc * lc) / Cell.fin 3                                   -- 146
  let k2 := k2 + k0 * (E / G) * (h * h)                                   -- 147
  let k3 := k0 * (lc * lc) / Cell.fin 2                                   -- 148
  let k4 := k2 - k3                                                       -- 149
  ⟨k0, k1, k2, k4⟩

/-- The 16 triplets of one beam (`model.py:150-171`).
Simplification: the code lists the triplets block by block for all beams; here beam by beam. -/
def beamEntries (i j : Nat) (k : Coeffs K) : List (Nat × Nat × Cell K) :=
  let i := 2 * i                                                          -- 150
  let j := 2 * j                                                          -- 151
  [ (i, i, k.k0), (i, i + 1, k.k1), (i, j, -k.k0), (i, j + 1, k.k1),
    (i + 1, i, k.k1), (i + 1, i + 1, k.k2), (i + 1, j, -k.k1), (i + 1, j + 1, -k.k4),
    (j, i, -k.k0), (j, i + 1, -k.k1), (j, j, k.k0), (j, j + 1, -k.k1),
    (j + 1, i, k.k1), (j + 1, i + 1, -k.k4), (j + 1, j, -k.k1), (j + 1, j + 1, k.k2) ]

/-- `stiffness(mat, mesh, lmin, lmax, coupling)` (`model.py:12-183`): the matrix `K`.
The vectors `u, F, du, dF` returned with it are zero vectors of length `2 * len(mesh)` (`model.py:177-181`). -/
def stiffness (mat : Mat K) (mesh : Mesh K) (lmin lmax : Option K) (coupling : K) :
    Except Err (Coo (Cell K)) := do
  matCheck mat.frame                                                      -- 123
  meshCheck mesh.frame                                                    -- 124
  let bs ← beams mat mesh.rows                                            -- 127-134
  let ls ← rescale lmin lmax (bs.map (·.l))                               -- 135-139
  return { nrows := 2 * mesh.rows.length
           ncols := 2 * mesh.rows.length
           entries := (bs.zip ls).flatMap (fun p =>
             beamEntries p.1.i p.1.j (coeffs p.1.fiber p.2 coupling)) }   -- 142-175

/-! ## `constraint` -/

/-- A contact: node `i`, its partner `j` and their positions and thicknesses (`model.py:258-270`). -/
structure Contact (K : Type) where
  i : Nat
  j : Nat
  zi : K
  zj : K
  hi : K
  hj : K

/-- Output of `constraint`: matrix `C`, bounds `H` (possibly `+inf`), increments `dH`, the top position `Z` (used by the
solver) and the mesh with its new column `h`.  The returned `f`, `df` are zero vectors of length `C.shape[0]`. -/
structure ConstraintSys (K : Type) where
  C : Coo K
  H : List (Cell K)
  dH : List K
  Z : K
  mesh : Mesh K

/-- `mat.h.loc[mesh.fiber].values` (`model.py:266`); KeyError when a fiber label is absent. -/
def nodeThickness (mat : Mat K) (rows : List (MeshRow K)) : Except Err (List K) :=
  rows.mapM (fun r =>
    match (if r.fiber < 0 then none else mat.fibers[r.fiber.toNat]?) with
    | some f => Except.ok f.h
    | none => Except.error Err.keyError)

/-- The contacts of a mesh (`model.py:258-270`): rows with `index ≤ constraint`. -/
def contacts (rows : List (MeshRow K)) (h : List K) : Except Err (List (Contact K)) :=
  ((rows.zip h).zipIdx.filter (fun p => (p.2 : Int) ≤ p.1.1.constraint)).mapM (fun p =>
    match (rows.zip h)[p.1.1.constraint.toNat]? with
    | some q => Except.ok ⟨p.2, p.1.1.constraint.toNat, p.1.1.z, q.1.z, p.1.2, q.2⟩
    | none => Except.error Err.keyError)

/-- The four triplets of contact number `k` (`model.py:272-279`); listed contact by contact. -/
def contactEntries (k i j : Nat) : List (Nat × Nat × K) :=
  [(3 * k, 2 * i, -1), (3 * k + 1, 2 * i, 1), (3 * k + 1, 2 * j, -1), (3 * k + 2, 2 * j, 1)]

/-- The three bounds of one contact (`model.py:286-298`). -/
def contactBounds (Z : K) (c : Contact K) : List (Cell K) :=
  [ .fin (c.zi - c.hi / 2),                                               -- 291
    if c.i = c.j then .pinf else .fin (c.zj - c.zi - (c.hi + c.hj) / 2),  -- 293, 298
    .fin (Z - c.zj - c.hj / 2) ]                                          -- 295

/-- `constraint(mat, mesh)` (`model.py:186-300`). -/
def constraint (mat : Mat K) (mesh : Mesh K) : Except Err (ConstraintSys K) := do
  matCheck mat.frame                                                      -- 254
  meshCheck mesh.frame                                                    -- 255
  let h ← nodeThickness mat mesh.rows                                     -- 266
  let cs ← contacts mesh.rows h                                           -- 258-260, 267-270
  let Z ← npMax ((mesh.rows.zip h).map (fun p => p.1.z + p.2 / 2))        -- 271
  return { C := { nrows := 3 * cs.length
                  ncols := 2 * mesh.rows.length
                  entries := cs.zipIdx.flatMap (fun p => contactEntries p.2 p.1.i p.1.j) }
           H := cs.flatMap (contactBounds Z)                              -- 287-298
           dH := cs.flatMap (fun _ => [0, 0, 1])                          -- 289, 296
           Z := Z
           mesh := { mesh with h := some h } }

end Fibermat
