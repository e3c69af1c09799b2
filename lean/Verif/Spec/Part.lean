import Verif.Spec.Linked

/-! # Forces on a part of the mat -/

namespace Fibermat.Spec
variable {K : Type} [Field K] [LinearOrder K]

/-- With each of its nodes, the set contains all nodes a chain of beams and closed contacts leads to. -/
def WholeParts (mat : Mat K) (rows : List (MeshRow K)) (tol : K) (u : ℕ → K) (A : Finset ℕ) : Prop :=
  ∀ i j, Chained mat rows tol u i j → (i ∈ A ↔ j ∈ A)

/-- The nodes `A` move by one, without rotation; the other nodes do not move. -/
def shift (A : Finset ℕ) (r : ℕ) : K := if r % 2 = 0 ∧ r / 2 ∈ A then 1 else 0

/-- Vertical force of the floor (`d = 0`, upwards), or of the upper plate (`d = 2`, downwards), on the nodes `A`: the forces of the rows
`j` with `j % 3 = d`, of which those on the nodes `A` have an entry -1 or 1 there. -/
def partForce (C : Coo K) (f : ℕ → K) (A : Finset ℕ) (d : ℕ) : K :=
  ∑ j ∈ Finset.range C.nrows, if j % 3 = d then |rowDot C j (shift A)| * f j else 0

end Fibermat.Spec
