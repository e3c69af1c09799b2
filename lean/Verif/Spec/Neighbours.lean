import Verif.Spec.Chance
import Mathlib.Data.Nat.Choose.Basic

/-! # Specification: neighbours of a fiber -/

namespace Fibermat.Spec

/-- The number of connections of fiber `i` with other fibers. -/
def degree {K : Type} (net : Net K) (i : ℕ) : ℕ := (net.rows.filter (fun r => decide (r.A ≠ r.B ∧ (r.A = (i : ℤ) ∨ r.B = (i : ℤ))))).length

/-- Fibers `i` and `j` are connected, whatever the order of their numbers. -/
def Linked {K : Type} (net : Net K) (i j : ℕ) : Prop := AreConnected net i j ∨ AreConnected net j i

/-- The binomial law: probability of `k` successes in `n` trials of probability `p`. -/
noncomputable def binomial (n : ℕ) (p : ℝ) (k : ℕ) : ℝ := n.choose k * p ^ k * (1 - p) ^ (n - k)

/-- Pairs of fibers without cycle: in each pair one of the two fibers does not occur in the pairs after it. -/
inductive Forest : List (ℕ × ℕ) → Prop
  | nil : Forest []
  | left {i j l} : i ≠ j → (∀ p ∈ l, i ≠ p.1 ∧ i ≠ p.2) → Forest l → Forest ((i, j) :: l)
  | right {i j l} : i ≠ j → (∀ p ∈ l, j ≠ p.1 ∧ j ≠ p.2) → Forest l → Forest ((i, j) :: l)

end Fibermat.Spec
