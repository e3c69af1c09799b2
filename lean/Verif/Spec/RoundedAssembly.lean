import Verif.Spec.Rounded
import Verif.Spec.Stack
import Verif.Model.RoundedAssembly

/-! # Specification of the computation with rounded arithmetic -/

namespace Fibermat.Spec
variable {K : Type} [Field K] [LinearOrder K]

/-- A point satisfying the constraints of a linear program up to `ε`. -/
structure NearFeasible (ε : K) (p : LP K) (z : List K) : Prop where
  size : z.length = p.f.length
  lower : ∀ i, i < p.f.length → comp p.lower i - ε ≤ comp z i
  rows : ∀ k, k < p.C.nrows → ∑ j ∈ Finset.range p.f.length, p.C.get k j * comp z j ≤ comp p.H k + ε

/-- A linear programming solver whose answers satisfy the constraints up to `ε`; they need not be optimal. -/
def NearLinprog (ε : K) (lin : Linprog K) : Prop := ∀ p z, lin p = some z → NearFeasible ε p z

/-- A linear programming solver that answers when the costs are not negative and when there are points that satisfy the constraints and
whose components are numbers of the format. -/
def Answers (fl : K → K) (lin : Linprog K) : Prop :=
  ∀ p : LP K, (∀ c ∈ p.f, 0 ≤ c) → (∃ z, Feasible p z ∧ ∀ c ∈ z, fl c = c) → ∃ z, lin p = some z

/-- There are equidistant numbers in the format, at any distance. -/
def Grid (fl : K → K) (n : ℕ) : Prop := ∀ B : K, ∃ H, B ≤ H ∧ ∀ k : ℕ, k ≤ n → fl (k * H) = k * H

/-- The nodes do not go through the floor by more than `ε`. -/
def OffFloor (mat : Mat K) (rows : List (MeshRow K)) (ε : K) : Prop :=
  ∀ i, i < rows.length → nodeThick mat rows i / 2 - ε ≤ nodeHeight rows i

/-- Nodes resting on each other and on the floor up to overlaps of `ε`. -/
structure RestsUpTo (mat : Mat K) (rows : List (MeshRow K)) (ε : K) : Prop where
  floor : OffFloor mat rows ε
  pair : ∀ i j, IsPair rows i j → i ≠ j → -ε ≤ pairGap mat rows (fun _ => 0) i j

/-- The least length wanted for the beams is not more than the greatest one; both are numbers of the format. -/
structure OrderedLengths (fl : K → K) (rows : List (MeshRow K)) (lmin lmax : Option K) : Prop where
  both : ∀ a b, lmin = some a → lmax = some b → a ≤ b
  lo : ∀ a, lmin = some a → lmax = none → fl a = a ∧ ((∃ i, StartsBeam rows i) → ∃ i, StartsBeam rows i ∧ a ≤ beamLength rows i)
  hi : ∀ b, lmin = none → lmax = some b → fl b = b ∧ ((∃ i, StartsBeam rows i) → ∃ i, StartsBeam rows i ∧ beamLength rows i ≤ b)

end Fibermat.Spec
