import Verif.Model.Mat

/-! # Specification of a random stream -/

namespace Fibermat.Spec
variable {σ K : Type}

/-- The generator state after `n` draws. -/
def stateAfter (g : Rng σ K) : Nat → σ → σ
  | 0, s => s
  | n + 1, s => stateAfter g n (g.next s).2

/-- The `i`-th number drawn from state `s`. -/
def drawn (g : Rng σ K) (s : σ) (i : Nat) : K := (g.next (stateAfter g i s)).1

/-- A generator of numbers in `[0, 1)`. -/
def UnitInterval [Field K] [LinearOrder K] (g : Rng σ K) : Prop :=
  ∀ s, 0 ≤ (g.next s).1 ∧ (g.next s).1 < 1

/-- Cosine and sine up to an error `ε` on `cos² + sin² = 1` (`ε = 0` for exact functions). -/
def NearUnit [Field K] [LinearOrder K] (cos sin : K → K) (ε : K) : Prop := ∀ t, |cos t ^ 2 + sin t ^ 2 - 1| ≤ ε

/-- Seeds a user may give: none, or an unsigned number of 32 bits. -/
def GoodSeed (seed : Option Int) : Prop := ∀ k, seed = some k → 0 ≤ k ∧ k < 2 ^ 32

end Fibermat.Spec
