import Verif.Spec.Loads

/-! # Specification of the answers of a simplex method, and of a tree of supports -/

namespace Fibermat.Spec
variable {K : Type} [Field K] [LinearOrder K]

/-- A vector of a set that is not the middle of two others. A simplex method returns such a vector of the set of optimal answers. -/
def Vertex (S : List K → Prop) (d : List K) : Prop :=
  S d ∧ ∀ d₁ d₂, S d₁ → S d₂ → (∀ k, comp d₁ k + comp d₂ k = 2 * comp d k) → d₁ = d₂

/-- Forces that hold the fibers together with some reactions of the floor. -/
def Holding (m : Mat K) (rows : List (NetRow K)) (F : List K) : Prop := ∃ N, Held m rows F N

/-- Fiber `i` lies on the floor. -/
abbrev OnFloor (m : Mat K) (i : ℕ) : Prop := heightOf m i = thick m i / 2

/-- Loaded contacts. -/
def loaded (rows : List (NetRow K)) (F : List K) : List (NetRow K × K) := (rows.zip F).filter (fun p => p.2 ≠ 0)

/-- Loaded contacts under fiber `i`. -/
def loadedUnder (rows : List (NetRow K)) (F : List K) (i : ℕ) : List (NetRow K × K) := (loaded rows F).filter (fun p => p.1.B = (i : Int))

end Fibermat.Spec
