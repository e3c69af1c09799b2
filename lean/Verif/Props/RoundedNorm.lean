import Verif.Props.Rounded
import Verif.Lemmas.RoundedAssembly


/-! # C89: the computed norm -/

namespace Fibermat
open Spec
set_option linter.unusedSectionVars false
variable {K : Type} [Field K] [LinearOrder K] [IsStrictOrderedRing K] {fl root : K → K} {u : K}

/-- Sum of the squares of numbers, with rounding: at most the fraction `2 (n + 1) u` above the exact one. -/
theorem sumSquares_le (hr : Rounds fl u) (l : List K) (z : K) (hz : 0 ≤ z) : ∃ s, (l.map Cell.fin).foldl
    (fun acc c => (acc + (c * c).round fl).round fl) (.fin z) = .fin s ∧ 0 ≤ s ∧
    s ≤ (1 + u) ^ l.length * z + (1 + u) ^ (l.length + 1) * (l.map (fun e => e ^ 2)).sum := by
  have hu0 := hr.u_nonneg
  induction l generalizing z with
  | nil => exact ⟨z, rfl, hz, by simp⟩
  | cons y l ih =>
    have hy : 0 ≤ fl (y * y) := hr.nonneg (mul_self_nonneg y)
    have hy' : fl (y * y) ≤ (1 + u) * y ^ 2 := by
      have := (abs_le.1 (hr.err (y * y))).2
      rw [abs_of_nonneg (mul_self_nonneg y)] at this
      nlinarith
    have h1 : fl (z + fl (y * y)) ≤ (1 + u) * (z + (1 + u) * y ^ 2) := by
      have := (abs_le.1 (hr.err (z + fl (y * y)))).2
      rw [abs_of_nonneg (by linarith)] at this
      have h2 : (1 + u) * (z + fl (y * y)) ≤ (1 + u) * (z + (1 + u) * y ^ 2) := mul_le_mul_of_nonneg_left (by linarith) (by linarith)
      linarith
    obtain ⟨s, e1, e2, e3⟩ := ih (fl (z + fl (y * y))) (hr.nonneg (by linarith))
    refine ⟨s, ?_, e2, ?_⟩
    · rw [List.map_cons, List.foldl_cons, ← e1]
      rfl
    · simp only [List.length_cons, List.map_cons, List.sum_cons]
      have hS : 0 ≤ (l.map (fun e => e ^ 2)).sum := List.sum_nonneg (by
        intro x hx
        obtain ⟨w, -, rfl⟩ := List.mem_map.1 hx
        positivity)
      have p0 : 0 ≤ (1 + u) ^ l.length := by positivity
      calc s ≤ (1 + u) ^ l.length * fl (z + fl (y * y)) + (1 + u) ^ (l.length + 1) * (l.map (fun e => e ^ 2)).sum := e3
        _ ≤ (1 + u) ^ l.length * ((1 + u) * (z + (1 + u) * y ^ 2)) + (1 + u) ^ (l.length + 1) * (1 + u) * (l.map (fun e => e ^ 2)).sum := by
          have a1 := mul_le_mul_of_nonneg_left h1 p0
          have a2 : (1 + u) ^ (l.length + 1) * (l.map (fun e => e ^ 2)).sum ≤
              (1 + u) ^ (l.length + 1) * (1 + u) * (l.map (fun e => e ^ 2)).sum := by
            apply mul_le_mul_of_nonneg_right _ hS
            have : 0 ≤ (1 + u) ^ (l.length + 1) := by positivity
            nlinarith
          linarith
        _ = _ := by ring

theorem pow_near {n : ℕ} (hu : 0 ≤ u) (h : (n : K) * u ≤ 1 / 2) : (1 + u) ^ n ≤ 1 + 2 * n * u := by
  induction n with
  | zero => simp
  | succ n ih =>
    push_cast at h ⊢
    have h1 := ih (by nlinarith)
    rw [pow_succ]
    have h2 : (1 + u) ^ n * (1 + u) ≤ (1 + 2 * n * u) * (1 + u) := mul_le_mul_of_nonneg_right h1 (by linarith)
    have h3 : (n : K) * u * u ≤ 1 / 2 * u := mul_le_mul_of_nonneg_right (by nlinarith) hu
    nlinarith

/-- C89: errors of norm at most `99/100 errtol` are accepted by the computed test. -/
theorem C89_norm_small (hr : Rounds fl u) {es : List K} (hn : ((es.length : K) + 1) * u ≤ 1 / 1000)
    (hroot : ∀ s, 0 ≤ s → 0 ≤ root s ∧ root s ^ 2 ≤ (1 + 4 * u) * s) {errtol : K} (h0 : 0 ≤ errtol)
    (h : (es.map (fun e => e ^ 2)).sum ≤ (99 / 100 * errtol) ^ 2) : normGt fl root errtol (es.map Cell.fin) = false := by
  have hu0 := hr.u_nonneg
  obtain ⟨s, e1, e2, e3⟩ := sumSquares_le hr es 0 le_rfl
  unfold normGt
  rw [e1]
  simp only [decide_eq_false_iff_not, not_lt]
  obtain ⟨r1, r2⟩ := hroot s e2
  have hS : 0 ≤ (es.map (fun e => e ^ 2)).sum := List.sum_nonneg (by
    intro x hx
    obtain ⟨w, -, rfl⟩ := List.mem_map.1 hx
    positivity)
  have hp : (1 + u) ^ (es.length + 1) ≤ 1 + 2 / 1000 := by
    have := pow_near (n := es.length + 1) hu0 (by push_cast; linarith)
    push_cast at this
    linarith
  have hu : u ≤ 1 / 1000 := by
    have : 0 ≤ (es.length : K) * u := by positivity
    linarith
  have h1 : s ≤ (1 + 2 / 1000) * (es.map (fun e => e ^ 2)).sum := by
    have := mul_le_mul_of_nonneg_right hp hS
    simp only [mul_zero, zero_add] at e3
    linarith
  have h2 : root s ^ 2 ≤ errtol ^ 2 := by
    have h3 : (1 + 4 * u) * s ≤ (1 + 4 / 1000) * s := mul_le_mul_of_nonneg_right (by linarith) e2
    nlinarith [sq_nonneg errtol]
  exact le_of_sq_le_sq h2 h0

omit [IsStrictOrderedRing K] in
theorem fold_nan (fl : K → K) (l : List (Cell K)) : l.foldl (fun acc c => (acc + (c * c).round fl).round fl) .nan = .nan := by
  induction l with
  | nil => rfl
  | cons c l ih => rw [List.foldl_cons]; exact ih

theorem square_cases (fl : K → K) (c : Cell K) : (c = .nan ∧ (c * c).round fl = .nan) ∨ ((c = .pinf ∨ c = .ninf) ∧ (c * c).round fl = .pinf) ∨
    ∃ a, c = .fin a ∧ (c * c).round fl = .fin (fl (a * a)) := by
  cases c with
  | fin a => exact Or.inr (Or.inr ⟨a, rfl, rfl⟩)
  | pinf => exact Or.inr (Or.inl ⟨Or.inl rfl, rfl⟩)
  | ninf => exact Or.inr (Or.inl ⟨Or.inr rfl, rfl⟩)
  | nan => exact Or.inl ⟨rfl, rfl⟩

theorem fold_pinf (fl : K → K) {l : List (Cell K)} (h : .nan ∉ l) : l.foldl (fun acc c => (acc + (c * c).round fl).round fl) .pinf = .pinf := by
  induction l with
  | nil => rfl
  | cons c l ih =>
    rw [List.mem_cons, not_or] at h
    rw [List.foldl_cons]
    rcases square_cases fl c with ⟨e, -⟩ | ⟨-, e⟩ | ⟨a, -, e⟩
    · exact absurd e.symm h.1
    all_goals rw [e]; exact ih h.2

theorem fold_inf (fl : K → K) {l : List (Cell K)} (h : .nan ∉ l) (hi : .pinf ∈ l ∨ .ninf ∈ l) (z : K) :
    l.foldl (fun acc c => (acc + (c * c).round fl).round fl) (.fin z) = .pinf := by
  induction l generalizing z with
  | nil => simp at hi
  | cons c l ih =>
    rw [List.mem_cons, not_or] at h
    rw [List.foldl_cons]
    rcases square_cases fl c with ⟨e, -⟩ | ⟨-, e⟩ | ⟨a, ea, e⟩
    · exact absurd e.symm h.1
    · rw [e]; exact fold_pinf fl h.2
    · rw [e]
      refine ih h.2 ?_ _
      subst ea
      simpa using hi

theorem fold_has_nan (fl : K → K) {l : List (Cell K)} (h : .nan ∈ l) (z : Cell K) (hz : z ≠ .ninf) :
    l.foldl (fun acc c => (acc + (c * c).round fl).round fl) z = .nan := by
  induction l generalizing z with
  | nil => simp at h
  | cons c l ih =>
    rw [List.foldl_cons]
    rcases square_cases fl c with ⟨-, e⟩ | ⟨ec, e⟩ | ⟨a, ec, e⟩
    · rw [e]
      cases z <;> exact fold_nan fl l
    · rw [e]
      refine ih (by rcases ec with rfl | rfl <;> simpa using h) _ ?_
      cases z <;> simp_all [Cell.round] <;> (intro hh; cases hh)
    · rw [e]
      refine ih (by subst ec; simpa using h) _ ?_
      cases z <;> simp_all [Cell.round] <;> (intro hh; cases hh)

/-- C89: an infinite error is too large; with a NaN the comparison is false, as in IEEE arithmetic. -/
theorem C89_norm_special (fl root : K → K) (errtol : K) (e : List (Cell K)) :
    (.nan ∉ e → .pinf ∈ e ∨ .ninf ∈ e → normGt fl root errtol e = true) ∧ (.nan ∈ e → normGt fl root errtol e = false) := by
  constructor
  · intro h1 h2
    unfold normGt
    rw [fold_inf fl h1 h2]
  · intro h
    unfold normGt
    rw [fold_has_nan fl h _ (by simp)]

/-- Both outcomes occur, with 12 bits: an error of norm 5, and errors with infinite and missing entries. -/
example : normGt (binary 12) (fun x => x / 5) 5 ([3, -4].map Cell.fin : List (Cell ℚ)) = false ∧
    normGt (binary 12) (fun x => x / 5) (49 / 10) ([3, -4].map Cell.fin : List (Cell ℚ)) = true ∧
    normGt (binary 12) (fun x => x / 5) 5 ([.fin 3, .ninf] : List (Cell ℚ)) = true ∧
    normGt (binary 12) (fun x => x / 5) 5 ([.nan, .pinf] : List (Cell ℚ)) = false := by decide +kernel

end Fibermat
