import Verif.Model.Assembly

/-! # Model of the element matrices printed by the main block of `/repo/src/fibermat/model.py` -/

namespace Fibermat
variable {σ K : Type} [Field K] [LinearOrder K]

/-- `A.todense()` of a sparse matrix: all the entries, row by row (`model.py:411,419,427`). -/
def Coo.dense {V : Type} [Add V] [Zero V] (A : Coo V) : List (List V) :=
  (List.range A.nrows).map (fun r => (List.range A.ncols).map (A.get r))

/-- The lines `mat = Mat(…)`, `net = Net(mat)`, `mesh = Mesh(net)` and the matrix
`4 / np.pi * stiffness(mat, mesh, coupling=1)[0].todense()` (`model.py:406-411`, `414-419`, `422-427`, also the examples of the
documentation of `stiffness`, `model.py:83-114`), with arbitrary arguments of `Mat`. -/
def elementDemo (g : Rng σ K) (cos sin : K → K) (entropy : σ) (a : MatArgs K) (s : σ) :
    Except Err (List (List (Cell K)) × σ) := do
  let r ← matNew g cos sin entropy a s                                    -- 407
  let net ← netNew r.1                                                    -- 408
  let mesh ← meshNew net                                                  -- 409
  let Km ← stiffness r.1 mesh none none 1                                 -- 411
  return (Km.dense.map (·.map (fun c => Cell.fin (4 / npPi) * c)), r.2)   -- 411

end Fibermat
