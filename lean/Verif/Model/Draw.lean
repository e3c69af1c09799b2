import Verif.Model.Mesh

/-! # Model of the drawings made by the main blocks of `/repo/src/fibermat/mesh.py` and `/repo/src/fibermat/solver.py` -/

namespace Fibermat
variable {K : Type}

/-- `mesh.iloc[k]`: negative positions count from the end, others raise IndexError (`mesh.py:357`). -/
def ilocAt {α : Type} (rows : List α) (k : Int) : Except Err α :=
  match (if 0 ≤ k then rows[k.toNat]? else if -(rows.length : Int) ≤ k then rows[(rows.length + k).toNat]? else none) with
  | some r => .ok r
  | none => .error Err.indexError

/-- What is drawn: full lines (with the number of their colour), dashed lines, crosses. -/
structure MeshPicture (K : Type) where
  beams : List ((K × K × K) × (K × K × K) × Int)
  contacts : List ((K × K × K) × (K × K × K))
  ends : List ((K × K × K) × (K × K × K))
deriving DecidableEq, Repr

/-- Coordinates of a node (`mesh.py:357`). -/
def MeshRow.pos (r : MeshRow K) : K × K × K := (r.x, r.y, r.z)

/-- One turn of the loop (`mesh.py:354-368`, `solver.py:240-254`). The label `i` is the position of the row (`C24`). -/
def drawNode [LinearOrder K] (rows : List (MeshRow K)) (P : MeshPicture K) (r : MeshRow K) : Except Err (MeshPicture K) := do
  let b ← ilocAt rows r.beam                                                        -- 357
  let c ← ilocAt rows r.constraint                                                  -- 357
  return { beams := if r.s < b.s then P.beams ++ [(r.pos, b.pos, r.fiber % 10)] else P.beams      -- 358-361
           contacts := if r.z < c.z then P.contacts ++ [(r.pos, c.pos)] else P.contacts           -- 362-365
           ends := if r.fiber = c.fiber then P.ends ++ [(r.pos, c.pos)] else P.ends }             -- 366-368

/-- The loop (`mesh.py:352-368`, `solver.py:238-254`); nothing is drawn for an empty mesh. -/
def drawMesh [LinearOrder K] (m : Mesh K) : Except Err (MeshPicture K) :=
  m.rows.foldlM (drawNode m.rows) ⟨[], [], []⟩

end Fibermat
