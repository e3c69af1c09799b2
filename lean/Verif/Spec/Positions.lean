import Verif.Spec.Chance
import Verif.Model.Mesh
import Mathlib.Data.Nat.Factorial.Basic
import Mathlib.Algebra.BigOperators.Group.List.Basic

/-! # Specification: places of the connections along a fiber -/

namespace Fibermat.Spec

/-- Fiber `i` is connected with fiber `j` at a point of fiber `i` of abscissa strictly between `α` and `β`. -/
def LinkedIn {K : Type} [LT K] (net : Net K) (i j : ℕ) (α β : K) : Prop :=
  ∃ r ∈ net.rows, (r.A = (i : ℤ) ∧ r.B = (j : ℤ) ∧ α < r.sA ∧ r.sA < β) ∨ (r.A = (j : ℤ) ∧ r.B = (i : ℤ) ∧ α < r.sB ∧ r.sB < β)

/-- The number of nodes of fiber `i` of abscissa strictly between `α` and `β`. -/
noncomputable def nodesBetween {K : Type} [LT K] (rows : List (MeshRow K)) (i : ℕ) (α β : K) : ℕ := by
  classical exact (rows.filter (fun r => decide (r.fiber = (i : ℤ) ∧ α < r.s ∧ r.s < β))).length

/-- The multinomial law: probability that among `n` independent trials each outcome of a list of pairs (probability, number) comes out exactly that
number of times. -/
noncomputable def multinomial (n : ℕ) (L : List (ℝ × ℕ)) : ℝ :=
  if (L.map (·.2)).sum ≤ n then
    n.factorial / ((L.map (fun p => (p.2.factorial : ℝ))).prod * (n - (L.map (·.2)).sum).factorial) *
      (L.map (fun p => p.1 ^ p.2)).prod * (1 - (L.map (·.1)).sum) ^ (n - (L.map (·.2)).sum)
  else 0

/-- Segments of which no two overlap. -/
def DisjointParts (L : List ((ℝ × ℝ) × ℕ)) : Prop := L.Pairwise (fun p q => p.1.2 ≤ q.1.1 ∨ q.1.2 ≤ p.1.1)

end Fibermat.Spec
