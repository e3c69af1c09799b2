import Mathlib.Algebra.Order.Field.Basic
import Mathlib.Data.List.Sort

/-!
# Base vocabulary of the model

Exceptions as values, float-like cells, attribute dictionaries, and the numpy/pandas list
primitives used by several functions of `/repo/src/fibermat`.
-/

namespace Fibermat

/-- Python exceptions raised by the modelled code (as values).
`unmodelled` marks a path the model does not follow (documented where it is used). -/
inductive Err where
  | keyError | attributeError | indexError | typeError | valueError | unmodelled
deriving DecidableEq, Repr

/-- A float cell: an exact number, `±inf` or NaN.  Simplification: finite floats are exact numbers of an
ordered field `K` (no rounding, no signed zero). -/
inductive Cell (K : Type) where
  | fin (a : K)
  | pinf
  | ninf
  | nan
deriving DecidableEq, Repr

namespace Cell
variable {K : Type}

section order
variable [LinearOrder K]

/-- IEEE `<`: false as soon as a NaN is involved. -/
def lt : Cell K → Cell K → Bool
  | fin a, fin b => decide (a < b)
  | fin _, pinf => true
  | ninf, fin _ => true
  | ninf, pinf => true
  | _, _ => false

/-- IEEE `<=`: false as soon as a NaN is involved. -/
def le : Cell K → Cell K → Bool
  | fin a, fin b => decide (a ≤ b)
  | fin _, pinf => true
  | ninf, fin _ => true
  | ninf, pinf => true
  | pinf, pinf => true
  | ninf, ninf => true
  | _, _ => false
end order

section arith
variable [Field K] [LinearOrder K]

/-- IEEE addition (exact on finite values). -/
protected def add : Cell K → Cell K → Cell K
  | nan, _ => nan
  | _, nan => nan
  | fin a, fin b => fin (a + b)
  | fin _, pinf => pinf
  | fin _, ninf => ninf
  | pinf, fin _ => pinf
  | ninf, fin _ => ninf
  | pinf, pinf => pinf
  | ninf, ninf => ninf
  | pinf, ninf => nan
  | ninf, pinf => nan

/-- IEEE negation. -/
protected def neg : Cell K → Cell K
  | fin a => fin (-a)
  | pinf => ninf
  | ninf => pinf
  | nan => nan

/-- IEEE multiplication (exact on finite values; `0 * inf = NaN`). -/
protected def mul : Cell K → Cell K → Cell K
  | nan, _ => nan
  | _, nan => nan
  | fin a, fin b => fin (a * b)
  | fin a, pinf => if a = 0 then nan else if 0 < a then pinf else ninf
  | fin a, ninf => if a = 0 then nan else if 0 < a then ninf else pinf
  | pinf, fin a => if a = 0 then nan else if 0 < a then pinf else ninf
  | ninf, fin a => if a = 0 then nan else if 0 < a then ninf else pinf
  | pinf, pinf => pinf
  | ninf, ninf => pinf
  | pinf, ninf => ninf
  | ninf, pinf => ninf

/-- IEEE division (exact on finite values; division by zero gives `±inf` or NaN, the zero
being taken as `+0`). -/
protected def div : Cell K → Cell K → Cell K
  | nan, _ => nan
  | _, nan => nan
  | fin a, fin b =>
      if b = 0 then (if a = 0 then nan else if 0 < a then pinf else ninf) else fin (a / b)
  | fin _, pinf => fin 0
  | fin _, ninf => fin 0
  | pinf, fin a => if 0 ≤ a then pinf else ninf
  | ninf, fin a => if 0 ≤ a then ninf else pinf
  | _, _ => nan

/-- Absolute value. -/
protected def abs : Cell K → Cell K
  | fin a => fin |a|
  | pinf => pinf
  | ninf => pinf
  | nan => nan

instance : Zero (Cell K) := ⟨fin 0⟩
instance : Add (Cell K) := ⟨Cell.add⟩
instance : Neg (Cell K) := ⟨Cell.neg⟩
instance : Mul (Cell K) := ⟨Cell.mul⟩
instance : Div (Cell K) := ⟨Cell.div⟩
instance : Sub (Cell K) := ⟨fun a b => a + -b⟩

end arith
end Cell

/-- The attribute dictionary of a frame: the keys `n`, `size`, `periodic`, `skip_check` that the
code reads (`mat.py:292,305-311`, `net.py:335,348-353`, `mesh.py:259,272-277`); `none` = key absent.
Simplification: `size` is a finite number. -/
structure Attrs (K : Type) where
  n : Option Int := none
  size : Option K := none
  periodic : Option Bool := none
  skipCheck : Option Bool := none
deriving DecidableEq, Repr

/-- `"skip_check" in attrs.keys() and attrs["skip_check"]` (`mat.py:292`, `net.py:335`, `mesh.py:259`). -/
def Attrs.skip {K : Type} (a : Attrs K) : Bool := a.skipCheck == some true

/-- `np.arange(n)` as row labels. -/
def arange (n : Nat) : List Int := (List.range n).map Int.ofNat

/-- `np.unique` on labels: sorted, without duplicates. -/
def npUnique (l : List Int) : List Int := l.dedup.insertionSort (· ≤ ·)

/-- The double `np.pi` as an exact rational, `884279719003555 / 2^48`. -/
def npPi {K : Type} [Field K] : K := 884279719003555 / 281474976710656

/-- `np.roll(x, -1)`. -/
def roll {α : Type} : List α → List α
  | [] => []
  | a :: l => l ++ [a]

/-- `np.argsort(p)` (stable): positions of the entries of `p` in increasing order. -/
def argsort (p : List Nat) : List Nat :=
  (p.zipIdx.insertionSort (fun a b => a.1 ≤ b.1)).map Prod.snd

/-- `DataFrame.drop_duplicates(keys)` with `keep='first'`, given the keys already seen. -/
def dropDupAux {α β : Type} [DecidableEq β] (key : α → β) (seen : List β) : List α → List α
  | [] => []
  | a :: l => if key a ∈ seen then dropDupAux key seen l
              else a :: dropDupAux key (key a :: seen) l

/-- `DataFrame.drop_duplicates(keys)` with `keep='first'` (`net.py:251,372`). -/
def dropDup {α β : Type} [DecidableEq β] (key : α → β) (l : List α) : List α :=
  dropDupAux key [] l

end Fibermat
