import Verif.Props.RoundedResults
import Verif.Props.RoundedExamples
import Verif.Props.RoundedMainExamples

/-! # Concrete cases for C95 -/

namespace Fibermat
open Spec

/-- With doubles, rows: the value at 1 is not the last record (0.1), but near it; a vector gives it exactly. -/
example : interpolateR (binary 53 : ℚ → ℚ) true .linear [.fin 0, .fin 60, .fin (binary 53 (1 / 10))] none 1 =
      .fin (14073748835533 / 140737488355328) ∧ binary 53 (1 / 10 : ℚ) = 3602879701896397 / 36028797018963968 ∧
    (14073748835533 / 140737488355328 : ℚ) ≠ 3602879701896397 / 36028797018963968 ∧
    interpolateR (binary 53 : ℚ → ℚ) false .linear [.fin 0, .fin 60, .fin (binary 53 (1 / 10))] none 1 =
      .fin (3602879701896397 / 36028797018963968) := by
  decide +kernel

/-- Hypotheses of `C95_weights`: doubles, 1001 records, 100 samples. -/
example : ∃ w : ℕ → ℚ, (∀ k, 0 ≤ w k) ∧ ∑ k ∈ Finset.range 1001, w k = 1 ∧ ∀ y : List ℚ, y.length = 1001 → (∀ v ∈ y, |v| ≤ 50) →
    ∃ r, interpolateR (binary 53 : ℚ → ℚ) true .linear (y.map Cell.fin) (some 100) (1 / 3) = .fin r ∧
      |r - ∑ k ∈ Finset.range 1001, w k * y.getD k 0| ≤ 30 * (1 / 2 ^ 53) * 50 := by
  obtain ⟨w, h1, h2, -, -, h3⟩ := C95_weights (K := ℚ) (binary_rounds (p := 53) (by norm_num)) (by norm_num) (n := 1001) (by norm_num) (some 100)
    (by intro k hk; cases hk; norm_num) (by norm_num) (by intro k hk; cases hk; norm_num) (t := 1 / 3) (by norm_num) (by norm_num)
  exact ⟨w, h1, h2, fun y hy hM => h3 true y 50 hy hM⟩

/-- Infinite bounds, and one infinite bound among finite ones. -/
example : interpolateR (binary 12 : ℚ → ℚ) true .linear [.pinf, .pinf] none 1 = .nan ∧
    interpolateR (binary 12 : ℚ → ℚ) false .linear [.pinf, .pinf] none (1 / 2) = .pinf ∧
    interpolateR (binary 12 : ℚ → ℚ) true .linear [.fin 1, .pinf, .fin 1] none 1 = .nan ∧
    interpolateR (binary 12 : ℚ → ℚ) true .previous [.fin 1, .pinf, .fin 1] none (3 / 4) = .pinf := by
  decide +kernel

/-- One record: NaN at 0 (rows), up to the second sample when resampled, at all times with two samples. -/
example : interpolateR (binary 12 : ℚ → ℚ) true .linear [.fin 3] none 0 = .nan ∧
    interpolateR (binary 12 : ℚ → ℚ) true .linear [.fin 3] none 1 = .fin 3 ∧
    interpolateR (binary 12 : ℚ → ℚ) true .linear [.fin 3] (some 5) (1 / 5) = .nan ∧
    interpolateR (binary 12 : ℚ → ℚ) true .linear [.fin 3] (some 5) (1 / 3) = .fin 3 ∧
    interpolateR (binary 12 : ℚ → ℚ) true .linear [.fin 3] (some 2) 1 = .nan ∧
    interpolateR (binary 12 : ℚ → ℚ) false .linear [.fin 3] (some 2) 1 = .fin 3 ∧
    interpolateR (binary 12 : ℚ → ℚ) true .linear [.fin 3, .fin 4] (some 1) 0 = .nan ∧
    interpolateR (binary 12 : ℚ → ℚ) true .linear [.fin 3, .fin 4] (some 1) (1 / 2) = .fin 4 ∧
    interpolateR (binary 12 : ℚ → ℚ) true .linear [.fin 3, .fin 4] none 2 = .fin 4 := by
  decide +kernel

/-- Hypotheses of `C95_bounds`: three records, an end node. -/
example : ∃ S : Sys ℚ, (S.runR short { archOpts with perm := List.range 27 }).1.length = 3 ∧ S.q0 13 = .pinf ∧
    resultQ short.fl (S.runR short { archOpts with perm := List.range 27 }).1 (some 100) 1 13 = .nan := by
  obtain ⟨Km, cs, hK, hC, -, -, -, -, h1, -⟩ := short_run
  have hl : ((assemble Km cs).runR short { archOpts with perm := List.range 27 }).1.length = 3 := by
    simpa using congrArg List.length h1
  have hq : (assemble Km cs).q0 13 = .pinf := by
    have : ((stiffness duoMat archMesh none none (1 / 2)).toOption.bind (fun Km => (constraint duoMat archMesh).toOption.map (fun cs =>
        (assemble Km cs).q0 13))) = some .pinf := by decide +kernel
    rw [hK, hC] at this
    simpa [Except.toOption] using this
  refine ⟨assemble Km cs, hl, hq, C95_bounds _ short _ short_rounds hq (by omega) (some 100) (by intro k hk; cases hk; norm_num) ?_ ?_
    (by norm_num) le_rfl⟩
  · rw [hl]; norm_num
  · intro k hk; cases hk; norm_num

/-- Hypotheses of `C95_clear` and `C95_deformed` on the mesh of two fibers. -/
example : ∃ (recs : List (Rec ℚ)) (x : ℕ → ℚ) (Z : ℚ), recs.length = 2 ∧ (∀ c, resultX (binary 12) recs none (1 / 3) c = .fin (x c)) ∧
    resultZ (binary 12) recs none (1 / 3) = .fin Z ∧ ClearUpTo duoMat archMesh.rows (60 * (1 / 2 ^ 12) * 4) Z x := by
  have hc : ClearUpTo duoMat archMesh.rows 0 3 (fun _ => 0) := by
    intro i j hij
    obtain ⟨h1, h2, h3⟩ := arch_clear i j hij
    refine ⟨h1, h2, ?_⟩
    simp only [roofGap] at h3 ⊢
    linarith
  obtain ⟨x, Z, h1, h2, h3⟩ := C95_clear (K := ℚ) (binary_rounds (p := 12) (by norm_num)) (by norm_num) (mat := duoMat) (rows := archMesh.rows)
    (recs := [⟨fun _ => 0, fun _ => .fin 0, 3, .fin 1, fun _ => true, .fin 0⟩, ⟨fun _ => 0, fun _ => .fin 0, 11 / 4, .fin 1, fun _ => true, .fin 0⟩]) (by simp) none
    (by simp) (by norm_num) (by simp) (ε := 0) (M := 4) (by
      intro b hb
      simp only [List.mem_cons, List.not_mem_nil, or_false] at hb
      rcases hb with rfl | rfl
      · exact hc
      · exact arch_clear) (by
      intro b hb
      simp only [List.mem_cons, List.not_mem_nil, or_false] at hb
      rcases hb with rfl | rfl <;> norm_num [abs_of_pos]) (t := 1 / 3) (by norm_num) (by norm_num)
  exact ⟨_, x, Z, rfl, h1, h2, by simpa using h3⟩

example : ClearUpTo duoMat (archMesh.deformR (binary 12) (fun _ => 0)).rows (0 + 2 * (1 / 2 ^ 12) * 3) (11 / 4) (fun _ => 0) := by
  refine C95_deformed (binary_rounds (p := 12) (by norm_num)) duoMat_good ?_ le_rfl arch_clear (by norm_num [abs_of_pos])
  rintro i j ⟨hij, r, hr, hj⟩
  have hi : i < 6 := (List.getElem?_eq_some_iff.1 hr).1
  interval_cases i <;> simp [archMesh] at hr <;> subst hr <;> simp only at hj <;> simp [archMesh] <;> omega

/-- Hypotheses of `C95_main_py`. -/
example : ∃ R s' Z, ∃ (x : ℕ → ℝ) (Z1 : ℝ),
    mainProgramR dbl (fun x => dbl (Real.sqrt x)) (⟨fun k => k, fun s => (1 / ((s : ℝ) ^ 2 + 2), s + 1)⟩ : Rng ℤ ℝ)
      (fun t => dbl (Real.cos t)) (fun t => dbl (Real.sin t)) 0 (someAnswer dbl (1 / 1000)) (fun _ => []) mainArgs true
      (some 10) (some (dbl (1 / 100))) none (dbl (99 / 100)) (mainOpts (fun _ _ => none)) 0 = .ok (R, s') ∧
    IsTop R.mat R.mesh.rows Z ∧ (∀ c, resultX dbl R.recs (some 100) 1 c = .fin (x c)) ∧ resultZ dbl R.recs (some 100) 1 = .fin Z1 ∧
    ClearUpTo R.mat R.mesh.rows (1 / 1000 + 1 / 10 ^ 5 * Z) Z1 x := by
  obtain ⟨h1, h2, h3⟩ := someAnswer_good dbl (ε := 1 / 1000) (by norm_num)
  exact C95_main_py (g := (⟨fun k => k, fun s => (1 / ((s : ℝ) ^ 2 + 2), s + 1)⟩ : Rng ℤ ℝ)) (by
    intro s
    refine ⟨by positivity, ?_⟩
    rw [div_lt_one (by positivity)]
    nlinarith [sq_nonneg (s : ℝ)]) h1 h2 h3 (by norm_num) (by norm_num) (fun _ _ => none) (fun _ => []) 0 0

end Fibermat
