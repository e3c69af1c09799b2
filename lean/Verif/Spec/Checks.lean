import Verif.Model.Mesh
import Verif.Spec.Frames

/-! # Specification of `Net.check` and `Mesh.check`

The documentation (`net.py:296-333`, `mesh.py:223-253`) lists conditions with the exception raised when one fails. -/

namespace Fibermat.Spec
variable {K : Type}

/-- The outcome of testing conditions one after the other: the first that fails decides the exception. -/
inductive Decides : List (Prop × Err) → Except Err Unit → Prop
  | done : Decides [] (.ok ())
  | fails {p : Prop} {e : Err} {l} : ¬p → Decides ((p, e) :: l) (.error e)
  | holds {p : Prop} {e : Err} {l} {r} : p → Decides l r → Decides ((p, e) :: l) r

/-- The attributes documented for nets and meshes exist. -/
structure HasAttrs (a : Attrs K) : Prop where
  n : ∃ v, a.n = some v
  size : ∃ v, a.size = some v
  periodic : ∃ v, a.periodic = some v

/-- The columns of a net (documentation of `net.py:15-90`). -/
def netCols : List String := ["A", "B", "sA", "sB", "xA", "yA", "zA", "xB", "yB", "zB"]

/-- `A` and `B` are labels of fibers. -/
def FiberLabels (a : Attrs K) (rows : List (Int × NetRow K)) : Prop :=
  ∀ r ∈ rows, ∀ n, a.n = some n → 0 ≤ r.2.A ∧ r.2.A < n ∧ 0 ≤ r.2.B ∧ r.2.B < n

/-- No two rows describe the same connection. -/
def NoRepeat (rows : List (Int × NetRow K)) : Prop :=
  rows.Pairwise (fun p q => ¬ (p.2.A = q.2.A ∧ p.2.B = q.2.B ∧ p.2.sA = q.2.sA ∧ p.2.sB = q.2.sB))

/-- The conditions of `Net.check`, in order. -/
def netConditions (f : NetFrame K) : List (Prop × Err) :=
  [(HasColumns netCols f.columns, .keyError),
   (HasAttrs f.attrs, .attributeError),
   (LabelsInOrder f.rows, .indexError),
   (f.intAB = true, .typeError),
   (FiberLabels f.attrs f.rows, .valueError),
   (NoRepeat f.rows, .valueError),
   (∀ r ∈ f.rows, r.2.A ≤ r.2.B, .valueError)]

/-- A frame that is a correct description of a fiber network. -/
structure ValidNet (f : NetFrame K) : Prop where
  columns : HasColumns netCols f.columns
  attrs : HasAttrs f.attrs
  labels : LabelsInOrder f.rows
  int : f.intAB = true
  range : FiberLabels f.attrs f.rows
  distinct : NoRepeat f.rows
  ordered : ∀ r ∈ f.rows, r.2.A ≤ r.2.B

/-! ## Meshes -/

/-- The columns of a mesh (documentation of `mesh.py:62-82`). -/
def meshCols : List String := ["fiber", "s", "x", "y", "z", "beam", "constraint"]

/-- Nodes sorted by fiber, then by abscissa. -/
def NodesSorted [LinearOrder K] (rows : List (MeshRow K)) : Prop :=
  rows.Pairwise (fun p q => p.fiber < q.fiber ∨ (p.fiber = q.fiber ∧ p.s ≤ q.s))

/-- Node `i` is the first one listed on its fiber. -/
def FirstOnFiber (rows : List (MeshRow K)) (i : Nat) : Prop :=
  ∃ r, rows[i]? = some r ∧ ∀ j p, j < i → rows[j]? = some p → p.fiber ≠ r.fiber

/-- Node `i` is the last one listed on its fiber. -/
def LastOnFiber (rows : List (MeshRow K)) (i : Nat) : Prop :=
  ∃ r, rows[i]? = some r ∧ ∀ j p, i < j → rows[j]? = some p → p.fiber ≠ r.fiber

/-- `j` is the cyclic successor of node `i` on its fiber: the next node if it is on the same
fiber, otherwise the first node of the fiber. -/
def CyclicNext (rows : List (MeshRow K)) (i j : Nat) : Prop :=
  ∃ r p, rows[i]? = some r ∧ rows[j]? = some p ∧ p.fiber = r.fiber ∧
    ((¬ LastOnFiber rows i ∧ j = i + 1) ∨ (LastOnFiber rows i ∧ FirstOnFiber rows j))

/-- Each beam label is the cyclic successor of its node. -/
def BeamsCyclic (rows : List (MeshRow K)) : Prop :=
  ∀ (i : Nat) (r : MeshRow K), rows[i]? = some r → ∃ j : Nat, r.beam = (j : Int) ∧ CyclicNext rows i j

/-- The constraint labels form an involution. -/
def ConstraintsReciprocal (rows : List (MeshRow K)) : Prop :=
  ∀ (i : Nat) (r : MeshRow K), rows[i]? = some r → ∃ (j : Nat) (p : MeshRow K),
    r.constraint = (j : Int) ∧ rows[j]? = some p ∧ p.constraint = (i : Int)

/-- The first and last node of each fiber are constrained to themselves. -/
def EndsFree (rows : List (MeshRow K)) : Prop :=
  ∀ (i : Nat) (r : MeshRow K), rows[i]? = some r → FirstOnFiber rows i ∨ LastOnFiber rows i → r.constraint = (i : Int)

/-- The conditions of `Mesh.check`, in order. -/
def meshConditions [LinearOrder K] (f : MeshFrame K) : List (Prop × Err) :=
  let rows := f.rows.map Prod.snd
  [(HasColumns meshCols f.columns, .keyError),
   (HasAttrs f.attrs, .attributeError),
   (LabelsInOrder f.rows, .indexError),
   (f.intFiber = true ∧ f.intNodes = true, .typeError),
   (∀ r ∈ rows, ∀ n, f.attrs.n = some n → 0 ≤ r.fiber ∧ r.fiber < n, .valueError),
   (∀ r ∈ rows, 0 ≤ r.beam ∧ r.beam < rows.length, .valueError),
   (∀ r ∈ rows, 0 ≤ r.constraint ∧ r.constraint < rows.length, .valueError),
   (NodesSorted rows, .valueError),
   (BeamsCyclic rows, .valueError),
   (ConstraintsReciprocal rows, .valueError),
   (EndsFree rows, .valueError)]

/-- A frame that is a correct description of a fiber mesh. -/
structure ValidMesh [LinearOrder K] (f : MeshFrame K) : Prop where
  columns : HasColumns meshCols f.columns
  attrs : HasAttrs f.attrs
  labels : LabelsInOrder f.rows
  intFiber : f.intFiber = true
  intNodes : f.intNodes = true
  fiber : ∀ r ∈ f.rows, ∀ n, f.attrs.n = some n → 0 ≤ r.2.fiber ∧ r.2.fiber < n
  sorted : NodesSorted (f.rows.map Prod.snd)
  beams : BeamsCyclic (f.rows.map Prod.snd)
  constraints : ConstraintsReciprocal (f.rows.map Prod.snd)
  ends : EndsFree (f.rows.map Prod.snd)

end Fibermat.Spec
