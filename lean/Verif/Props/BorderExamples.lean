import Verif.Props.Border
import Verif.Props.LargeMatsExamples

/-! # C125: the hypotheses are met -/

namespace Fibermat
open Spec MeasureTheory ProbabilityTheory Set Filter Topology

/-- For a hundred fibers with the default arguments, in an open box, the network has in the mean between `100 + 4950 / (8 π)` and `100 + 4950 / (2 π)`
rows, and two given fibers are connected with a probability of at least `1 / (8 π)`. -/
example : ∃ (Ω : Type) (_ : MeasurableSpace Ω) (P : Measure Ω) (d : ℕ → Ω → ℝ) (N : Ω → Net ℝ), UniformDraws P d ∧
    (∀ ω, ∃ m s', matNew (stream (fun k => d k ω)) Real.cos Real.sin 0 standardArgs 0 = .ok (m, s') ∧ netNew m false = .ok (N ω)) ∧
    100 + 4950 / (8 * Real.pi) ≤ ∫ ω, ((N ω).rows.length : ℝ) ∂P ∧ ∫ ω, ((N ω).rows.length : ℝ) ∂P ≤ 100 + 4950 / (2 * Real.pi) ∧
    ENNReal.ofReal (1 / (8 * Real.pi)) ≤ P {ω | ∃ m s' net, matNew (stream (fun k => d k ω)) Real.cos Real.sin 0 standardArgs 0 = .ok (m, s') ∧
      netNew m false = .ok net ∧ AreConnected net 3 7} := by
  obtain ⟨g1, g2, g3, g4, g5, g6, g7, g8, g9⟩ := standardArgs_good
  have hd := uniformDraws_exist
  have hex := C118_exists (e := 0) (s := 0) hd g1 g3 g9.le g4 false
  choose m s' N h1 h2 using hex
  have hπ := Real.pi_pos.ne'
  have hc : crossChance standardArgs.length standardArgs.size standardArgs.theta = 1 / (2 * Real.pi) := by
    rw [show standardArgs.theta = Real.pi from rfl, C118_isotropic]
    simp only [standardArgs]
    field_simp
    norm_num
  have hb : (1 - standardArgs.length / standardArgs.size) ^ 2 = 1 / 4 := by norm_num [standardArgs]
  obtain ⟨b1, b2⟩ := C125_mean (e := 0) (s := 0) hd g2 g3 g4 g5 (by linarith) g7 g8 (fun ω => ⟨m ω, s' ω, h1 ω, h2 ω⟩)
  obtain ⟨b3, -⟩ := C125_connected (e := 0) (s := 0) hd g1 g2 g4 g5 (by linarith) g7 g8 (i := 3) (j := 7) (by norm_num)
    (by simp [standardArgs])
  have hn : (standardArgs.n : ℝ) = 100 := by simp [standardArgs]
  rw [hc, hb, hn] at b1
  rw [hc, hn] at b2
  rw [hc, hb] at b3
  refine ⟨_, _, _, _, N, hd, fun ω => ⟨m ω, s' ω, h1 ω, h2 ω⟩, le_trans (le_of_eq ?_) b1, b2.trans (le_of_eq ?_), le_trans (le_of_eq ?_) b3⟩
  · ring
  · ring
  · congr 1
    field_simp
    norm_num

/-- For one fiber of length 1 for 4 units of area, the mean number of rows per fiber in open boxes tends to `1 + 1 / (4 π)`. -/
example : ∃ (Ω : Type) (_ : MeasurableSpace Ω) (P : Measure Ω) (d : ℕ → Ω → ℝ) (N : ℕ → Ω → Net ℝ), UniformDraws P d ∧
    (∀ t ω, ∃ m s', matNew (stream (fun k => d k ω)) Real.cos Real.sin 0 (growingArgs t) 0 = .ok (m, s') ∧ netNew m false = .ok (N t ω)) ∧
    Tendsto (fun t : ℕ => (∫ ω, ((N t ω).rows.length : ℝ) ∂P) / (t + 1)) atTop (𝓝 (1 + 1 / (4 * Real.pi))) := by
  have hd := uniformDraws_exist
  have h := growingArgs_good
  have hex := fun t => C118_exists (e := 0) (s := 0) hd (h.seed t).1 (by rw [h.n t]; omega) (h.size_pos t).le (h.positive t) false
  choose m s' N h1 h2 using hex
  have key := C125_limit (e := 0) (s := 0) hd h (N := N) (fun t ω => ⟨_, _, h1 t ω, h2 t ω⟩)
  have e1 : meanNeighbours 1 (1 / 4) / 2 = 1 / (4 * Real.pi) := by
    have := Real.pi_pos.ne'
    unfold meanNeighbours
    field_simp
  rw [e1] at key
  exact ⟨_, _, _, _, N, hd, fun t ω => ⟨_, _, h1 t ω, h2 t ω⟩, key⟩

end Fibermat
