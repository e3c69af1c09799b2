import Mathlib.Algebra.Field.Defs
import Mathlib.Data.Nat.Bitwise

/-! # Specification of the Mersenne Twister MT19937, as a recurrence on natural numbers -/

namespace Fibermat.Spec

/-- The words of the generator started with `seed`: 624 words by a congruential generator, each next word from the highest bit of
the word 624 places before, the other bits of its successor, and the word 227 places before. -/
structure Twister (seed : ℕ) (x : ℕ → ℕ) : Prop where
  start : x 0 = seed
  fill : ∀ i, i < 623 → x (i + 1) = (1812433253 * (x i ^^^ x i / 2 ^ 30) + (i + 1)) % 2 ^ 32
  twist : ∀ k, x (k + 624) = x (k + 397) ^^^ (x k / 2 ^ 31 * 2 ^ 31 + x (k + 1) % 2 ^ 31) / 2 ^^^
    (if x (k + 1) % 2 = 1 then 0x9908b0df else 0)

/-- The tempering of a word. -/
def temper (y : ℕ) : ℕ :=
  let a := y ^^^ y / 2 ^ 11
  let b := a ^^^ (a * 2 ^ 7 &&& 0x9d2c5680)
  let c := b ^^^ (b * 2 ^ 15 &&& 0xefc60000)
  c ^^^ c / 2 ^ 18

/-- The numerator over `2^53` of the `k`-th number: 27 bits of one tempered word, 26 bits of the next one; the first 624 words are
not given out. -/
def numerator (x : ℕ → ℕ) (k : ℕ) : ℕ :=
  temper (x (624 + 2 * k)) / 2 ^ 5 * 2 ^ 26 + temper (x (624 + 2 * k + 1)) / 2 ^ 6

end Fibermat.Spec
