import Verif.Model.Base

/-! # Sparse matrices in coordinate format (`scipy.sparse.coo_matrix`) -/

namespace Fibermat

/-- `sp.sparse.coo_matrix((data, (row, col)), shape=(nrows, ncols))`: the triplets. -/
structure Coo (V : Type) where
  nrows : Nat
  ncols : Nat
  entries : List (Nat × Nat × V)

/-- The matrix entry: duplicate triplets are summed. -/
def Coo.get {V : Type} [Add V] [Zero V] (M : Coo V) (r c : Nat) : V :=
  ((M.entries.filter (fun e => e.1 = r ∧ e.2.1 = c)).map (fun e => e.2.2)).sum

/-- The `coo_matrix` constructor raises ValueError when an index is outside the shape. -/
def Coo.inShape {V : Type} (M : Coo V) : Bool :=
  M.entries.all (fun e => decide (e.1 < M.nrows) && decide (e.2.1 < M.ncols))

end Fibermat
