import Verif.Props.PositionsLaw
import Verif.Props.NeighboursExamples
import Verif.Props.LargeMatsExamples

/-! # C124: the hypotheses are met -/

namespace Fibermat
open Spec MeasureTheory ProbabilityTheory Set Filter Topology

/-- Two halves of a fiber of length 25 do not overlap. -/
theorem halves_apart (k k' : ℕ) : DisjointParts [((-(25 / 2), 0), k), ((0, 25 / 2), k')] := by simp [DisjointParts]

/-- In a random mat of a hundred fibers of length 25, fiber 7 is connected with fiber 3 in its first half and with fiber 9 in its last fifth, and not
connected with fiber 50, with the probability `1 / (4 π) · 1 / (10 π) · (1 - 1 / (2 π))`. -/
example : ∃ (Ω : Type) (_ : MeasurableSpace Ω) (P : Measure Ω) (d : ℕ → Ω → ℝ), UniformDraws P d ∧
    P {ω | ∃ m s' net, matNew (stream (fun k => d k ω)) Real.cos Real.sin 0 standardArgs 0 = .ok (m, s') ∧ netNew m true = .ok net ∧
      (∀ j ∈ ({3, 9} : Finset ℕ), LinkedIn net 7 j (if j = 3 then -(25 / 2) else 15 / 2) (if j = 3 then 0 else 25 / 2)) ∧
      ∀ j ∈ ({50} : Finset ℕ), ¬ Linked net 7 j} = ENNReal.ofReal (1 / (4 * Real.pi) * (1 / (10 * Real.pi)) * (1 - 1 / (2 * Real.pi))) := by
  obtain ⟨g1, g2, g3, g4, g5, g6, g7, g8, g9⟩ := standardArgs_good
  have hd := uniformDraws_exist
  have hπ := Real.pi_pos.ne'
  refine ⟨_, _, _, _, hd, ?_⟩
  rw [C124_uniform (e := 0) (s := 0) hd g1 g2 g4 g5 g6 rfl (i := 7) (by simp [standardArgs]) (U := {3, 9}) (V := {50}) (by simp)
    (by simp [standardArgs]) (α := fun j => if j = 3 then -(25 / 2) else 15 / 2) (β := fun j => if j = 3 then 0 else 25 / 2)
    (by simp [standardArgs]; norm_num), standardArgs_chance]
  congr 1
  rw [Finset.prod_insert (by simp), Finset.prod_singleton, Finset.card_singleton]
  simp only [standardArgs]
  norm_num
  field_simp
  norm_num

/-- It has one node in the first half of fiber 7 and two in the second half with the probability `99! / (1! 2! 96!) (1 / (4 π))³ (1 - 1 / (2 π))⁹⁶`,
and none in its middle fifth with the probability `(1 - 1 / (10 π))⁹⁹`. -/
example : ∃ (lp : Linprog ℝ) (Ω : Type) (_ : MeasurableSpace Ω) (P : Measure Ω) (d : ℕ → Ω → ℝ), GoodLinprog lp ∧ UniformDraws P d ∧
    P {ω | ∃ m s' net m' st mesh, matNew (stream (fun k => d k ω)) Real.cos Real.sin 0 standardArgs 0 = .ok (m, s') ∧
      netNew m true = .ok net ∧ stackNew lp m net none = .ok (m', st) ∧ meshNew st = .ok mesh ∧
      ∀ p ∈ [((-(25 / 2 : ℝ), (0 : ℝ)), 1), ((0, 25 / 2), 2)], nodesBetween mesh.rows 7 p.1.1 p.1.2 = p.2} =
      ENNReal.ofReal (470547 * (1 / (4 * Real.pi)) ^ 3 * (1 - 1 / (2 * Real.pi)) ^ 96) ∧
    P {ω | ∃ m s' net m' st mesh, matNew (stream (fun k => d k ω)) Real.cos Real.sin 0 standardArgs 0 = .ok (m, s') ∧
      netNew m true = .ok net ∧ stackNew lp m net none = .ok (m', st) ∧ meshNew st = .ok mesh ∧
      ∀ r ∈ mesh.rows, r.fiber = ((7 : ℕ) : ℤ) → ¬ (-(5 / 2) < r.s ∧ r.s < 5 / 2)} = ENNReal.ofReal ((1 - 1 / (10 * Real.pi)) ^ 99) := by
  obtain ⟨g1, g2, g3, g4, g5, g6, g7, g8, g9⟩ := standardArgs_good
  have hd := uniformDraws_exist
  have hπ := Real.pi_pos.ne'
  obtain ⟨lp, hlp⟩ := exists_goodLinprog (K := ℝ)
  have h7 : ((7 : ℕ) : ℤ) < standardArgs.n := by simp [standardArgs]
  have hn : standardArgs.n.toNat - 1 = 99 := rfl
  refine ⟨lp, _, _, _, _, hlp, hd, ?_, ?_⟩
  · rw [C124_joint (e := 0) (s := 0) hd g1 g2 g4 g5 g6 rfl hlp h7 (by simp [standardArgs]; norm_num) (halves_apart 1 2), standardArgs_chance, hn,
      ← multi_eq]
    congr 1
    simp only [List.map_cons, List.map_nil, multi]
    rw [show Nat.choose 99 1 = 99 by decide +kernel, show Nat.choose (99 - 1) 2 = 4753 by decide +kernel]
    have e1 : 1 / (2 * Real.pi) * ((0 - -(25 / 2)) / standardArgs.length) = 1 / (4 * Real.pi) := by
      simp only [standardArgs]
      field_simp
      norm_num
    have e2 : 1 / (2 * Real.pi) * ((25 / 2 - 0) / standardArgs.length) = 1 / (4 * Real.pi) := by
      simp only [standardArgs]
      field_simp
      norm_num
    rw [e1, e2, show (0 : ℝ) + 1 / (4 * Real.pi) + 1 / (4 * Real.pi) = 1 / (2 * Real.pi) by field_simp; norm_num]
    have : 99 - 1 - 2 = 96 := rfl
    rw [this]
    generalize (1 - 1 / (2 * Real.pi)) ^ 96 = x
    generalize 1 / (4 * Real.pi) = y
    push_cast
    ring
  · rw [C124_free (e := 0) (s := 0) hd g1 g2 g4 g5 g6 rfl hlp h7 (by simp [standardArgs]; norm_num) (by norm_num) (by simp [standardArgs]; norm_num), hn]
    congr 3
    simp only [standardArgs]
    field_simp
    norm_num

/-- In larger and larger mats with one fiber of length 1 for 4 units of area, the first fiber tends to have one node in its first half and none in the
second with the probability `exp (-1 / (2 π)) / (4 π)`. -/
example : ∃ (lp : Linprog ℝ) (Ω : Type) (_ : MeasurableSpace Ω) (P : Measure Ω) (d : ℕ → Ω → ℝ), GoodLinprog lp ∧ UniformDraws P d ∧
    Tendsto (fun t => P {ω | ∃ m s' net m' st mesh, matNew (stream (fun k => d k ω)) Real.cos Real.sin 0 (growingArgs t) 0 = .ok (m, s') ∧
      netNew m true = .ok net ∧ stackNew lp m net none = .ok (m', st) ∧ meshNew st = .ok mesh ∧
      ∀ p ∈ [((-(1 / 2 : ℝ), (0 : ℝ)), 1), ((0, 1 / 2), 0)], nodesBetween mesh.rows 0 p.1.1 p.1.2 = p.2})
      atTop (𝓝 (ENNReal.ofReal (Real.exp (-(1 / (2 * Real.pi))) / (4 * Real.pi)))) := by
  have hd := uniformDraws_exist
  have hπ := Real.pi_pos.ne'
  obtain ⟨lp, hlp⟩ := exists_goodLinprog (K := ℝ)
  refine ⟨lp, _, _, _, _, hlp, hd, ?_⟩
  have h := C124_poisson (e := 0) (s := 0) hd growingArgs_good hlp (i := fun _ => 0) (fun _ => Nat.zero_le _)
    (L := [((-(1 / 2 : ℝ), (0 : ℝ)), 1), ((0, 1 / 2), 0)]) (by simp) (by simp [DisjointParts])
  have e1 : ([((-(1 / 2 : ℝ), (0 : ℝ)), 1), ((0, 1 / 2), 0)].map
      (fun p : (ℝ × ℝ) × ℕ => poisson (2 * (1 / 4) * 1 / Real.pi * (p.1.2 - p.1.1)) p.2)).prod =
      Real.exp (-(1 / (2 * Real.pi))) / (4 * Real.pi) := by
    simp only [List.map_cons, List.map_nil, List.prod_cons, List.prod_nil, poisson, Nat.factorial, pow_zero, pow_one, mul_one, Nat.cast_one, div_one]
    rw [show -(1 / (2 * Real.pi)) = -(2 * (1 / 4) / Real.pi * (0 - -(1 / 2))) + -(2 * (1 / 4) / Real.pi * (1 / 2 - 0)) by field_simp; norm_num,
      Real.exp_add]
    field_simp
    norm_num
  rw [e1] at h
  exact h

end Fibermat
