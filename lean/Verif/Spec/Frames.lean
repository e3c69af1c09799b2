import Verif.Model.Mat

/-! # Specification of valid frames, independent of the checking code

These predicates say, in plain logical terms, what the documentation of `Mat.check` asks (`mat.py:254-290`). -/

namespace Fibermat.Spec
variable {K : Type} [Field K] [LinearOrder K]

/-- A cell that is a positive number or `+inf`. -/
def Positive (c : Cell K) : Prop := (∃ a : K, c = .fin a ∧ 0 < a) ∨ c = .pinf

/-- A finite cell whose value lies in `[lo, hi]`. -/
def Between (lo hi : K) (c : Cell K) : Prop := ∃ a : K, c = .fin a ∧ lo ≤ a ∧ a ≤ hi

/-- Three finite cells forming a vector whose length is 1 up to `t`, lengths being compared by squares. -/
def UnitUpTo (t : K) (u v w : Cell K) : Prop :=
  ∃ a b c : K, u = .fin a ∧ v = .fin b ∧ w = .fin c ∧
    (1 - t) ^ 2 ≤ a ^ 2 + b ^ 2 + c ^ 2 ∧ a ^ 2 + b ^ 2 + c ^ 2 ≤ (1 + t) ^ 2

/-- The row labels of a frame are `0, 1, 2, …` in order. -/
def LabelsInOrder {α : Type} (rows : List (Int × α)) : Prop :=
  ∀ i (h : i < rows.length), (rows[i]).1 = (i : Int)

/-- A frame has all the columns named. -/
def HasColumns (cols present : List String) : Prop := ∀ c ∈ cols, c ∈ present

/-- The columns of a mat (documentation of `mat.py:45-90`). -/
def matCols : List String := ["l", "b", "h", "x", "y", "z", "u", "v", "w", "G", "E"]

/-- A set `skip_check` flag. -/
def Skipped {K : Type} (a : Attrs K) : Prop := a.skipCheck = some true

/-- Conditions on the data of a row of a mat in a box of side `size`. -/
structure GoodMatRow (size : K) (r : MatRow (Cell K)) : Prop where
  l : Positive r.l
  b : Positive r.b
  h : Positive r.h
  x : Between (-(size / 2)) (size / 2) r.x
  y : Between (-(size / 2)) (size / 2) r.y
  dir : UnitUpTo (1 / 10 ^ 5 + 1 / 10 ^ 8) r.u r.v r.w
  G : Positive r.G
  E : Positive r.E

/-- A frame that is a correct description of a set of fibers. -/
structure ValidMat (f : MatFrame K) : Prop where
  columns : HasColumns matCols f.columns
  n : f.attrs.n = some (f.rows.length : Int)
  labels : LabelsInOrder f.rows
  size : ∃ S, f.attrs.size = some S ∧ ∀ r ∈ f.rows, GoodMatRow S r.2

end Fibermat.Spec

namespace Fibermat.Spec
variable {K : Type} [Field K] [LinearOrder K]

/-- Valid data of a fiber with finite entries (the tensile modulus may be infinite). -/
structure GoodFiber (size : K) (f : Fiber K) : Prop where
  l : 0 < f.l
  b : 0 < f.b
  h : 0 < f.h
  x1 : -(size / 2) ≤ f.x
  x2 : f.x ≤ size / 2
  y1 : -(size / 2) ≤ f.y
  y2 : f.y ≤ size / 2
  dir1 : (1 - (1 / 10 ^ 5 + 1 / 10 ^ 8)) ^ 2 ≤ f.u ^ 2 + f.v ^ 2 + f.w ^ 2
  dir2 : f.u ^ 2 + f.v ^ 2 + f.w ^ 2 ≤ (1 + (1 / 10 ^ 5 + 1 / 10 ^ 8)) ^ 2
  G : 0 < f.G
  E : 0 < f.E

/-- A valid set of fibers. -/
structure GoodMat (m : Mat K) : Prop where
  n : m.attrs.n = some (m.fibers.length : Int)
  size : ∃ S, m.attrs.size = some S ∧ ∀ f ∈ m.fibers, GoodFiber S f

end Fibermat.Spec
