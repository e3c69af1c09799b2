import Verif.Props.RoundedRender
import Verif.Lemmas.Binary

/-! # C126: nodes too close to each other, and the hypotheses are met -/

namespace Fibermat
open Spec

/-- C126: two nodes of a fiber closer to each other than the rounding of their distance to a point of the picture: both are nearest nodes for the tree, and if it
answers with the first one the node coordinate of the point is larger than `2 ^ 70`, for a mesh of four nodes. Displacements of the nodes between 0 and 1 are then shown
as a displacement of more than `2 ^ 200` downwards. -/
theorem C126_close : ∃ (s y d : List ℚ) (x t : ℚ), s.Pairwise (· < ·) ∧ (∀ a ∈ x :: (s ++ y ++ d), binary 53 a = a) ∧ s.getD 0 0 < x ∧ x < s.getD 3 0 ∧
    s.length = 4 ∧ y.length = 4 ∧ d = [0, 0, 0, 0] ∧ (∀ a ∈ y, 0 ≤ a ∧ a ≤ 1) ∧
    (∀ j, j < s.length → distR (binary 53) (s.getD 1 0) x ≤ distR (binary 53) (s.getD j 0) x) ∧
    nodeCoordR (binary 53) s 0 x 1 = .ok (.fin t) ∧ 2 ^ 70 < t ∧ hermiteR (binary 53) y d t < -2 ^ 200 := by
  refine ⟨[-1 / 2, 0, 1 / 2 ^ 80, 1 / 2], [0, 0, 0, 1], [0, 0, 0, 0], 13 / 64, binary 53 (13 * 2 ^ 74 + 1), ?_, ?_, ?_, ?_, rfl, rfl, rfl, ?_, ?_, ?_, ?_, ?_⟩ <;> decide +kernel

/-- Doubles: integers up to `2 ^ 53` are numbers of the format. -/
theorem double_integers : ∀ n : ℕ, n ≤ 2 ^ 53 → binary 53 (n : ℚ) = n := by
  intro n hn
  have := binary_exact (K := ℚ) (p := 53) (by norm_num) n 0 (by rw [abs_of_nonneg (by positivity)]; exact_mod_cast hn)
  simpa using this

/-- A fiber of length 1 with four nodes, the second one of a mesh of eight nodes, and a point of its picture. -/
example : Rounds (binary 53 : ℚ → ℚ) (1 / 2 ^ 53) ∧ Spaced (4 * (1 / 2 ^ 53) : ℚ) [-1 / 2, -1 / 4, 1 / 8, 1 / 2] ∧
    NearlyNearest (4 * (1 / 2 ^ 53) : ℚ) [-1 / 2, -1 / 4, 1 / 8, 1 / 2] (shrinkR (binary 53) 1 (1 / 4)) 2 ∧
    (∀ i, i < 8 → |([0, 0, 0, 0, -1, -3, -2, -1] : List ℚ).getD i 0| ≤ 3) ∧
    nodeCoordR (binary 53) [-1 / 2, -1 / 4, 1 / 8, 1 / 2] 4 (shrinkR (binary 53) 1 (1 / 4)) 2 =
      .ok (.fin (binary 53 (binary 53 (binary 53 (shrinkR (binary 53) 1 (1 / 4) - 1 / 8) / (3 / 8)) + 6 : ℚ))) := by
  refine ⟨binary_rounds (by norm_num), ?_, ?_, ?_, ?_⟩
  · intro j hj
    have hj' : j < 3 := by simpa using Nat.lt_of_succ_lt_succ hj
    revert j
    have : ∀ j < 3, ([-1 / 2, -1 / 4, 1 / 8, 1 / 2] : List ℚ).getD j 0 < ([-1 / 2, -1 / 4, 1 / 8, 1 / 2] : List ℚ).getD (j + 1) 0 ∧
        4 * (1 / 2 ^ 53) * (([-1 / 2, -1 / 4, 1 / 8, 1 / 2] : List ℚ).getD (4 - 1) 0 - ([-1 / 2, -1 / 4, 1 / 8, 1 / 2] : List ℚ).getD 0 0) <
          ([-1 / 2, -1 / 4, 1 / 8, 1 / 2] : List ℚ).getD (j + 1) 0 - ([-1 / 2, -1 / 4, 1 / 8, 1 / 2] : List ℚ).getD j 0 := by
      decide +kernel
    exact fun j _ hj' => this j hj'
  · unfold NearlyNearest
    decide +kernel
  · decide +kernel
  · decide +kernel

end Fibermat
