import Verif.Lemmas.Cell
import Mathlib.Tactic.Ring
import Mathlib.Tactic.Linarith
import Mathlib.Tactic.FieldSimp
import Mathlib.Algebra.Order.Field.Basic

/-! Multiplication of cells by positive numbers. -/

set_option linter.unusedSectionVars false

namespace Fibermat.Cell
variable {K : Type} [Field K] [LinearOrder K] [IsStrictOrderedRing K]

/-- A cell in another unit. -/
def sc (c : K) : Cell K → Cell K
  | fin a => fin (c * a)
  | pinf => pinf
  | ninf => ninf
  | nan => nan

@[simp] theorem sc_fin (c a : K) : sc c (fin a) = fin (c * a) := rfl

theorem sc_one (x : Cell K) : sc 1 x = x := by cases x <;> simp [sc]

theorem sc_zero_cell (c : K) : sc c (0 : Cell K) = 0 := by simp [zero_def]

theorem sc_sc (a b : K) (x : Cell K) : sc a (sc b x) = sc (a * b) x := by cases x <;> simp [sc, mul_assoc]

theorem sc_add {c : K} (x y : Cell K) : sc c x + sc c y = sc c (x + y) := by
  cases x <;> cases y <;> first | rfl | (simp only [sc, fin_add_fin]; congr 1; ring)

theorem sc_neg {c : K} (x : Cell K) : -(sc c x) = sc c (-x) := by
  cases x <;> first | rfl | (simp only [sc, neg_fin]; congr 1; ring)

theorem sc_sub {c : K} (x y : Cell K) : sc c x - sc c y = sc c (x - y) := by rw [sub_def, sub_def, sc_neg, sc_add]

theorem sc_sum {c : K} (l : List (Cell K)) : (l.map (sc c)).sum = sc c l.sum := by
  induction l with
  | nil => simp [sc_zero_cell]
  | cons a t ih => simp only [List.map_cons, List.sum_cons, ih, sc_add]

theorem sc_mul {a b : K} (ha : 0 < a) (hb : 0 < b) (x y : Cell K) : sc a x * sc b y = sc (a * b) (x * y) := by
  have ha0 := ha.ne'
  have hb0 := hb.ne'
  cases x with
  | fin p =>
    cases y with
    | fin q => simp only [sc, fin_mul_fin]; congr 1; ring
    | nan => rfl
    | pinf =>
      show (if a * p = 0 then _ else if 0 < a * p then _ else _) = sc _ (if p = 0 then _ else if 0 < p then _ else _)
      simp only [mul_eq_zero, ha0, false_or, mul_pos_iff_of_pos_left ha]
      split_ifs <;> rfl
    | ninf =>
      show (if a * p = 0 then _ else if 0 < a * p then _ else _) = sc _ (if p = 0 then _ else if 0 < p then _ else _)
      simp only [mul_eq_zero, ha0, false_or, mul_pos_iff_of_pos_left ha]
      split_ifs <;> rfl
  | nan => cases y <;> rfl
  | pinf =>
    cases y with
    | fin q =>
      show (if b * q = 0 then _ else if 0 < b * q then _ else _) = sc _ (if q = 0 then _ else if 0 < q then _ else _)
      simp only [mul_eq_zero, hb0, false_or, mul_pos_iff_of_pos_left hb]
      split_ifs <;> rfl
    | _ => rfl
  | ninf =>
    cases y with
    | fin q =>
      show (if b * q = 0 then _ else if 0 < b * q then _ else _) = sc _ (if q = 0 then _ else if 0 < q then _ else _)
      simp only [mul_eq_zero, hb0, false_or, mul_pos_iff_of_pos_left hb]
      split_ifs <;> rfl
    | _ => rfl

theorem sc_div {a b : K} (ha : 0 < a) (hb : 0 < b) (x y : Cell K) : sc a x / sc b y = sc (a / b) (x / y) := by
  have ha0 := ha.ne'
  have hb0 := hb.ne'
  cases x with
  | fin p =>
    cases y with
    | fin q =>
      show (if b * q = 0 then (if a * p = 0 then _ else if 0 < a * p then _ else _) else _) =
        sc _ (if q = 0 then (if p = 0 then _ else if 0 < p then _ else _) else _)
      simp only [mul_eq_zero, hb0, ha0, false_or, mul_pos_iff_of_pos_left ha]
      split_ifs
      · rfl
      · rfl
      · rfl
      · simp only [sc]; congr 1; field_simp
    | nan => rfl
    | pinf => simp only [sc]; show fin 0 = sc _ (fin 0); simp
    | ninf => simp only [sc]; show fin 0 = sc _ (fin 0); simp
  | nan => cases y <;> rfl
  | pinf =>
    cases y with
    | fin q =>
      show (if 0 ≤ b * q then _ else _) = sc _ (if 0 ≤ q then _ else _)
      simp only [mul_nonneg_iff_of_pos_left hb]
      split_ifs <;> rfl
    | _ => rfl
  | ninf =>
    cases y with
    | fin q =>
      show (if 0 ≤ b * q then _ else _) = sc _ (if 0 ≤ q then _ else _)
      simp only [mul_nonneg_iff_of_pos_left hb]
      split_ifs <;> rfl
    | _ => rfl

theorem sc_le {c : K} (hc : 0 < c) (x y : Cell K) : Cell.le (sc c x) (sc c y) = Cell.le x y := by
  cases x <;> cases y <;> first | rfl | (simp only [sc, Cell.le, mul_le_mul_iff_right₀ hc])

theorem sc_lt {c : K} (hc : 0 < c) (x y : Cell K) : Cell.lt (sc c x) (sc c y) = Cell.lt x y := by
  cases x <;> cases y <;> first | rfl | (simp only [sc, Cell.lt, mul_lt_mul_iff_right₀ hc])

theorem sc_abs {c : K} (hc : 0 < c) (x : Cell K) : (sc c x).abs = sc c x.abs := by
  cases x <;> first | rfl | (simp only [sc, Cell.abs, abs_mul, abs_of_pos hc])

end Fibermat.Cell
