import Verif.Model.Logo
import Verif.Spec.Random

/-! # Specification of the points drawn in the letters of `scripts/logo.py` -/

namespace Fibermat.Spec
variable {σ K : Type} [Field K] [LinearOrder K]

/-- A stroke of a letter: the rectangle `left ≤ x < right`, `top ≤ y < bottom`, in pixels from the upper left corner of the
picture. -/
structure Stroke where
  (left right top bottom : ℕ)
  deriving DecidableEq

/-- The strokes of the letters F, i, b, e, r, M, a, t. -/
def strokes : List Stroke :=
  [⟨0, 2, 2, 12⟩, ⟨0, 8, 2, 4⟩, ⟨0, 5, 6, 8⟩,
   ⟨9, 11, 2, 4⟩, ⟨9, 11, 6, 12⟩,
   ⟨12, 14, 2, 12⟩, ⟨12, 18, 6, 8⟩, ⟨16, 18, 6, 10⟩, ⟨12, 17, 10, 12⟩,
   ⟨19, 25, 4, 6⟩, ⟨19, 21, 4, 10⟩, ⟨23, 25, 4, 8⟩, ⟨20, 25, 10, 12⟩,
   ⟨26, 27, 4, 12⟩, ⟨27, 28, 6, 12⟩, ⟨28, 32, 4, 6⟩, ⟨31, 32, 4, 8⟩,
   ⟨34, 36, 2, 12⟩, ⟨34, 38, 2, 4⟩, ⟨37, 39, 4, 6⟩, ⟨38, 41, 6, 8⟩, ⟨40, 42, 4, 6⟩, ⟨41, 45, 2, 4⟩, ⟨43, 45, 2, 12⟩,
   ⟨46, 52, 6, 8⟩, ⟨46, 48, 6, 12⟩, ⟨50, 52, 6, 12⟩, ⟨46, 49, 10, 12⟩,
   ⟨53, 55, 2, 12⟩, ⟨53, 58, 6, 8⟩, ⟨53, 58, 10, 12⟩]

/-- The point is in a stroke of a letter; the upper left corner of the picture is at `(-29, -6)`. -/
def InLetter (p : K × K) : Prop :=
  ∃ q ∈ strokes, (q.left : K) ≤ p.1 + 29 ∧ p.1 + 29 < q.right ∧ (q.top : K) ≤ p.2 + 6 ∧ p.2 + 6 < q.bottom

/-- The random points of the script before the selection. -/
def logoDrawn (g : Rng σ K) (s : σ) (n : ℕ) : List (K × K) :=
  (List.range n).map (fun k => (-29 + 58 * drawn g s k, -6 + 12 * drawn g s (n + k)))

end Fibermat.Spec
