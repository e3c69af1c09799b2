import Verif.Spec.Chance
import Verif.Spec.Stack
import Mathlib.Data.Finset.Sort
import Mathlib.Data.Finset.Powerset

/-! # Specification: piles of fibers -/

namespace Fibermat.Spec

/-- Fibers lying one on the other, from the lowest to the highest: each is connected to the next, which has a larger number. -/
def PileOf {K : Type} (net : Net K) (l : List ℕ) : Prop := l.IsChain (fun i j => i < j ∧ AreConnected net i j)

/-- The sum of the thicknesses of the fibers of a pile. -/
def pileThickness {K : Type} [Field K] [LinearOrder K] (m : Mat K) (l : List ℕ) : K := (l.map (thick m)).sum

/-- Height of the top of fiber `i`. -/
def topOf {K : Type} [Field K] [LinearOrder K] (m : Mat K) (i : ℕ) : K := heightOf m i + thick m i / 2

/-- The number of piles of `c` fibers among the first `n`. -/
noncomputable def pileCount {K : Type} (net : Net K) (n c : ℕ) : ℕ :=
  open Classical in (((Finset.range n).powersetCard c).filter (fun U => PileOf net U.sort)).card

/-- The number of fibers lying on the floor. -/
noncomputable def floorCount {K : Type} [Field K] [LinearOrder K] (m : Mat K) : ℕ :=
  ((Finset.range m.fibers.length).filter (fun i => heightOf m i = thick m i / 2)).card

end Fibermat.Spec
