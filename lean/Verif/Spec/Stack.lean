import Verif.Model.Stack
import Verif.Spec.Net
import Mathlib.Algebra.BigOperators.Group.Finset.Basic

/-! # Specification of linear programs and of stacked fibers -/

namespace Fibermat.Spec
variable {K : Type} [Field K] [LinearOrder K]

/-- Component of a vector. -/
def comp (z : List K) (i : ℕ) : K := z.getD i 0

/-- A point satisfying the constraints of a linear program `C z ≤ H`, `z ≥ lower`. -/
structure Feasible (p : LP K) (z : List K) : Prop where
  size : z.length = p.f.length
  lower : ∀ i, i < p.f.length → comp p.lower i ≤ comp z i
  rows : ∀ k, k < p.C.nrows → ∑ j ∈ Finset.range p.f.length, p.C.get k j * comp z j ≤ comp p.H k

/-- The value `f · z` to be minimised. -/
def objective (p : LP K) (z : List K) : K := ∑ j ∈ Finset.range p.f.length, comp p.f j * comp z j

/-- A solution of the linear program. -/
def Optimal (p : LP K) (z : List K) : Prop := Feasible p z ∧ ∀ y, Feasible p y → objective p z ≤ objective p y

/-- A correct linear programming solver: it returns an optimum whenever there is one. -/
def GoodLinprog (lin : Linprog K) : Prop := ∀ p, (∃ z, Optimal p z) → ∃ z, lin p = some z ∧ Optimal p z

/-- Thickness of fiber `i`. -/
def thick (m : Mat K) (i : ℕ) : K := ((m.fibers[i]?).map (·.h)).getD 0

/-- All connections are between fibers of the mat, the lower label first. -/
def OverMat (m : Mat K) (rows : List (NetRow K)) : Prop :=
  ∀ r ∈ rows, 0 ≤ r.A ∧ r.A ≤ r.B ∧ r.B < (m.fibers.length : Int)

/-- Heights at which no fiber goes through the floor or through a fiber connected to it. -/
structure NoOverlap (m : Mat K) (rows : List (NetRow K)) (z : ℕ → K) : Prop where
  floor : ∀ i, i < m.fibers.length → thick m i / 2 ≤ z i
  gap : ∀ r ∈ rows, r.A < r.B → (thick m r.A.toNat + thick m r.B.toNat) / 2 ≤ z r.B.toNat - z r.A.toNat

/-- The lowest heights without overlap. -/
def Lowest (m : Mat K) (rows : List (NetRow K)) (z : ℕ → K) : Prop :=
  NoOverlap m rows z ∧ ∀ y, NoOverlap m rows y → ∀ i, i < m.fibers.length → z i ≤ y i

/-- One pass over the connections: each lifts its upper fiber onto its lower one when needed. -/
def greedy (m : Mat K) : List (NetRow K) → (ℕ → K) → (ℕ → K)
  | [], z => z
  | r :: rest, z =>
    if r.A < r.B then
      greedy m rest (fun i => if i = r.B.toNat then
        max (z r.B.toNat) (z r.A.toNat + (thick m r.A.toNat + thick m r.B.toNat) / 2) else z i)
    else greedy m rest z

/-- A fiber lies on the floor or on a fiber connected to it. -/
def Supported (m : Mat K) (rows : List (NetRow K)) (z : ℕ → K) (i : ℕ) : Prop :=
  z i = thick m i / 2 ∨
    ∃ r ∈ rows, r.A < r.B ∧ r.B = (i : Int) ∧ z i = z r.A.toNat + (thick m r.A.toNat + thick m r.B.toNat) / 2

/-- Height of fiber `i`. -/
def heightOf (m : Mat K) (i : ℕ) : K := ((m.fibers[i]?).map (·.z)).getD 0

/-- The columns of a net other than heights. -/
def planColumns (rows : List (NetRow K)) : List (Int × Int × K × K × K × K × K × K) :=
  rows.map (fun r => (r.A, r.B, r.sA, r.sB, r.xA, r.yA, r.xB, r.yB))

/-- The threshold, if any, is at least the distance between the axes of two fibers that touch. -/
def KeepsTouching (m : Mat K) (threshold : Option K) : Prop :=
  ∀ t, threshold = some t → ∀ f ∈ m.fibers, f.h ≤ t

end Fibermat.Spec
