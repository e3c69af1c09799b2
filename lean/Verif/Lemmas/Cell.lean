import Verif.Model.Base
import Mathlib.Algebra.BigOperators.Group.List.Basic
import Mathlib.Tactic.Ring

/-! Arithmetic of float cells. -/

namespace Fibermat
namespace Cell
variable {K : Type} [Field K] [LinearOrder K]

@[simp] theorem fin_add_fin (a b : K) : (fin a + fin b : Cell K) = fin (a + b) := rfl
@[simp] theorem fin_mul_fin (a b : K) : (fin a * fin b : Cell K) = fin (a * b) := rfl
@[simp] theorem neg_fin (a : K) : (-(fin a) : Cell K) = fin (-a) := rfl
@[simp] theorem fin_sub_fin (a b : K) : (fin a - fin b : Cell K) = fin (a - b) := by
  rw [sub_eq_add_neg]; rfl
theorem sub_def (a b : Cell K) : a - b = a + -b := rfl
theorem zero_def : (0 : Cell K) = fin 0 := rfl
theorem fin_div_fin {b : K} (h : b ≠ 0) (a : K) : (fin a / fin b : Cell K) = fin (a / b) := by
  change Cell.div _ _ = _
  simp [Cell.div, h]
@[simp] theorem nan_add (a : Cell K) : nan + a = nan := by cases a <;> rfl
@[simp] theorem add_nan (a : Cell K) : a + nan = nan := by cases a <;> rfl

instance : AddCommMonoid (Cell K) where
  add := (· + ·)
  zero := 0
  add_assoc a b c := by
    cases a <;> cases b <;> cases c <;>
      first | rfl | (change fin _ = fin _; rw [add_assoc])
  zero_add a := by cases a <;> first | rfl | (change fin _ = fin _; rw [zero_add])
  add_zero a := by cases a <;> first | rfl | (change fin _ = fin _; rw [add_zero])
  add_comm a b := by cases a <;> cases b <;> first | rfl | (change fin _ = fin _; rw [add_comm])
  nsmul := nsmulRec

theorem sum_fin (l : List K) : (l.map fin).sum = (fin l.sum : Cell K) := by
  induction l with
  | nil => rfl
  | cons a l ih => rw [List.map_cons, List.sum_cons, ih, List.sum_cons]; rfl

theorem sum_nan {l : List (Cell K)} (h : (nan : Cell K) ∈ l) : l.sum = nan := by
  induction l with
  | nil => simp at h
  | cons a l ih =>
    rw [List.sum_cons]
    rcases List.mem_cons.1 h with h | h
    · rw [← h]; simp
    · rw [ih h]; simp

theorem le_fin_iff {a b : K} : Cell.le (fin a) (fin b) = true ↔ a ≤ b := by simp [Cell.le]
theorem lt_fin_iff {a b : K} : Cell.lt (fin a) (fin b) = true ↔ a < b := by simp [Cell.lt]

end Cell
end Fibermat
