import Verif.Model.Coo
import Mathlib.Algebra.BigOperators.Group.Finset.Basic
import Mathlib.Algebra.BigOperators.Ring.Finset
import Mathlib.Algebra.BigOperators.Group.Finset.Piecewise
import Mathlib.Tactic.Ring

/-! Products of coordinate matrices. -/

namespace Fibermat
variable {K : Type} [Field K]

theorem coo_get_cons (n m : Nat) (e : Nat × Nat × K) (es : List (Nat × Nat × K)) (r c : Nat) :
    Coo.get ⟨n, m, e :: es⟩ r c = (if e.1 = r ∧ e.2.1 = c then e.2.2 else 0) + Coo.get ⟨n, m, es⟩ r c := by
  unfold Coo.get
  by_cases h : e.1 = r ∧ e.2.1 = c
  · simp [h]
  · simp [h]

/-- Product of a row with a vector. -/
theorem coo_row_dot (n m N : Nat) (es : List (Nat × Nat × K)) (hN : ∀ e ∈ es, e.2.1 < N) (r : Nat) (z : ℕ → K) :
    ∑ j ∈ Finset.range N, Coo.get ⟨n, m, es⟩ r j * z j =
      ((es.filter (fun e => e.1 = r)).map (fun e => e.2.2 * z e.2.1)).sum := by
  induction es with
  | nil => simp [Coo.get]
  | cons e es ih =>
    have ih := ih (fun e' he' => hN e' (List.mem_cons_of_mem _ he'))
    simp only [coo_get_cons, add_mul, Finset.sum_add_distrib, ih]
    have he : e.2.1 < N := hN e (by simp)
    by_cases h : e.1 = r
    · simp only [h, true_and, ite_mul, zero_mul, decide_true, List.filter_cons_of_pos, List.map_cons, List.sum_cons]
      rw [Finset.sum_ite_eq]
      simp [he]
    · simp [h]

end Fibermat
