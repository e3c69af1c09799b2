import Verif.Props.NeighbourNodes
import Verif.Props.ChanceExamples
import Mathlib.Analysis.Real.Pi.Bounds

/-! # C121: the hypotheses are met -/

namespace Fibermat
open Spec MeasureTheory ProbabilityTheory Set

theorem standardArgs_chance : crossChance standardArgs.length standardArgs.size Real.pi = 1 / (2 * Real.pi) := by
  have hπ := Real.pi_pos.ne'
  rw [C118_isotropic]
  simp only [standardArgs]
  field_simp
  norm_num

/-- Four pairs of fibers without cycle. -/
theorem forest_four : Forest [(4, 2), (0, 1), (0, 2), (2, 3)] :=
  .left (by simp) (by simp) (.right (by simp) (by simp) (.left (by simp) (by simp) (.left (by simp) (by simp) .nil)))

/-- The pairs of a triangle are not such a list. -/
theorem not_forest_triangle : ¬ Forest [(0, 1), (0, 2), (1, 2)] := by
  intro h
  cases h with
  | left _ h _ => simp at h
  | right _ h _ => simp at h

/-- In a random mat of a hundred fibers four given connections without cycle exist together with the probability `(1 / (2 π))⁴`. -/
example : ∃ (Ω : Type) (_ : MeasurableSpace Ω) (P : Measure Ω) (d : ℕ → Ω → ℝ), UniformDraws P d ∧
    P {ω | ∃ m s' net, matNew (stream (fun k => d k ω)) Real.cos Real.sin 0 standardArgs 0 = .ok (m, s') ∧ netNew m true = .ok net ∧
      ∀ p ∈ [(4, 2), (0, 1), (0, 2), (2, 3)], Linked net p.1 p.2} = ENNReal.ofReal (1 / (2 * Real.pi)) ^ 4 := by
  obtain ⟨g1, g2, g3, g4, g5, g6, g7, g8, g9⟩ := standardArgs_good
  have hd := uniformDraws_exist
  refine ⟨_, _, _, _, hd, ?_⟩
  rw [C121_forest (e := 0) (s := 0) hd g1 g2 g3 g4 g5 g6 rfl forest_four (by simp [standardArgs]), standardArgs_chance]
  rfl

/-- Its fiber 7 is isolated with the probability `(1 - 1 / (2 π))⁹⁹`, and has exactly two connections, hence four nodes in the mesh of the stacked
mat, with the probability `4851 (1 / (2 π))² (1 - 1 / (2 π))⁹⁷`. -/
example : ∃ (lp : Linprog ℝ) (Ω : Type) (_ : MeasurableSpace Ω) (P : Measure Ω) (d : ℕ → Ω → ℝ), GoodLinprog lp ∧ UniformDraws P d ∧
    P {ω | ∃ m s' net, matNew (stream (fun k => d k ω)) Real.cos Real.sin 0 standardArgs 0 = .ok (m, s') ∧ netNew m true = .ok net ∧
      ∀ j : ℕ, j ≠ 7 → ¬ Linked net 7 j} = ENNReal.ofReal ((1 - 1 / (2 * Real.pi)) ^ 99) ∧
    P {ω | ∃ m s' net, matNew (stream (fun k => d k ω)) Real.cos Real.sin 0 standardArgs 0 = .ok (m, s') ∧ netNew m true = .ok net ∧
      degree net 7 = 2} = ENNReal.ofReal (4851 * (1 / (2 * Real.pi)) ^ 2 * (1 - 1 / (2 * Real.pi)) ^ 97) ∧
    P {ω | ∃ m s' net m' st mesh, matNew (stream (fun k => d k ω)) Real.cos Real.sin 0 standardArgs 0 = .ok (m, s') ∧
      netNew m true = .ok net ∧ stackNew lp m net none = .ok (m', st) ∧ meshNew st = .ok mesh ∧ (nodesOf mesh.rows (7 : ℕ)).card = 2 + 2} =
      ENNReal.ofReal (4851 * (1 / (2 * Real.pi)) ^ 2 * (1 - 1 / (2 * Real.pi)) ^ 97) := by
  obtain ⟨g1, g2, g3, g4, g5, g6, g7, g8, g9⟩ := standardArgs_good
  have hd := uniformDraws_exist
  obtain ⟨lp, hlp⟩ := exists_goodLinprog (K := ℝ)
  have h7 : ((7 : ℕ) : ℤ) < standardArgs.n := by simp [standardArgs]
  have hb : binomial (standardArgs.n.toNat - 1) (crossChance standardArgs.length standardArgs.size Real.pi) 2 =
      4851 * (1 / (2 * Real.pi)) ^ 2 * (1 - 1 / (2 * Real.pi)) ^ 97 := by
    rw [standardArgs_chance]
    have : standardArgs.n.toNat - 1 = 99 := rfl
    rw [this]
    unfold binomial
    rw [show Nat.choose 99 2 = 4851 by decide +kernel]
    norm_num
  refine ⟨lp, _, _, _, _, hlp, hd, ?_, ?_, ?_⟩
  · rw [C121_isolated (e := 0) (s := 0) hd g1 g2 g4 g5 g6 rfl h7, ← C118_isotropic, standardArgs_chance]
    rfl
  · rw [C121_binomial (e := 0) (s := 0) hd g1 g2 g4 g5 g6 rfl h7, hb]
  · rw [C121_mesh (e := 0) (s := 0) hd g1 g2 g4 g5 g6 rfl hlp h7, hb]

/-- With a probability of at least 0.988 the fraction of connected pairs among its 4950 is closer than 0.05 to `1 / (2 π)`. -/
example : ∃ (Ω : Type) (_ : MeasurableSpace Ω) (P : Measure Ω) (d : ℕ → Ω → ℝ) (N : Ω → Net ℝ), UniformDraws P d ∧
    (∀ ω, ∃ m s', matNew (stream (fun k => d k ω)) Real.cos Real.sin 0 standardArgs 0 = .ok (m, s') ∧ netNew m true = .ok (N ω)) ∧
    P {ω | 1 / 20 ≤ |(((N ω).rows.length : ℝ) - 100) / 4950 - 1 / (2 * Real.pi)|} ≤ ENNReal.ofReal (12 / 1000) := by
  obtain ⟨g1, g2, g3, g4, g5, g6, g7, g8, g9⟩ := standardArgs_good
  have hd := uniformDraws_exist
  have hex := C118_exists (e := 0) (s := 0) hd g1 g3 g9.le g4 true
  choose m s' N h1 h2 using hex
  have hN : ∀ ω : ℕ → Ico (0 : ℝ) 1, ∃ m s', matNew (stream (fun k => (ω k : ℝ))) Real.cos Real.sin 0 standardArgs 0 = .ok (m, s') ∧
      netNew m true = .ok (N ω) := fun ω => ⟨m ω, s' ω, h1 ω, h2 ω⟩
  refine ⟨_, _, _, _, N, hd, hN, ?_⟩
  have h := C121_concentration (e := 0) (s := 0) hd g1 g2 (by simp [standardArgs]) g4 g5 g6 rfl hN (c := 1 / 20) (by norm_num)
  rw [standardArgs_chance] at h
  have hn : (standardArgs.n : ℝ) = 100 := by simp [standardArgs]
  rw [hn, show (100 * (100 - 1) / 2 : ℝ) = 4950 by norm_num] at h
  refine h.trans (ENNReal.ofReal_le_ofReal ?_)
  have hp : (0 : ℝ) < 1 / (2 * Real.pi) := by have := Real.pi_pos; positivity
  have hp2 : 1 / (2 * Real.pi) ≤ 1 / 6 := by
    have := Real.pi_gt_three
    exact one_div_le_one_div_of_le (by norm_num) (by linarith)
  generalize 1 / (2 * Real.pi) = p at hp hp2
  rw [div_le_iff₀ (by norm_num)]
  nlinarith

end Fibermat
