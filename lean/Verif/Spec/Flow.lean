import Verif.Spec.Bound
import Mathlib.Order.Interval.Finset.Nat

/-! # Flows of force from the upper plate to the lower one -/

namespace Fibermat.Spec
variable {K : Type} [Field K] [LinearOrder K]

open Classical in
/-- What leaves node `m` minus what arrives, when `θ i` goes along the beam that starts at node `i`, from its start to its end. -/
noncomputable def outflow (rows : List (MeshRow K)) (θ : ℕ → K) (m : ℕ) : K :=
  ∑ i ∈ Finset.range rows.length, if StartsBeam rows i then
    (if m = i then θ i else 0) - (if m = succNode rows i then θ i else 0)
  else 0

open Classical in
/-- `θ` carries one unit along the beams from the nodes pressed by the upper plate to the nodes resting on the lower one, in the
state `u` with the plate at height `Z`: nothing is lost or added at the other nodes, where two nodes that touch each other count as
one. -/
structure UnitFlow (mat : Mat K) (rows : List (MeshRow K)) (tol Z : K) (u θ : ℕ → K) : Prop where
  single : ∀ i j m, IsPair rows i j → (i ≠ j → tol < pairGap mat rows u i j) → m = i ∨ m = j →
    ¬ Pressed mat rows tol Z u m → ¬ Grounded mat rows tol u m → outflow rows θ m = 0
  touching : ∀ i j, IsPair rows i j → i ≠ j → pairGap mat rows u i j ≤ tol →
    ¬ Pressed mat rows tol Z u i → ¬ Grounded mat rows tol u i → outflow rows θ i + outflow rows θ j = 0
  unit : ∑ m ∈ Finset.range rows.length, (if Pressed mat rows tol Z u m then outflow rows θ m else 0) = 1

open Classical in
/-- Sum of the squares of the flow divided by the transverse stiffnesses of the beams. -/
noncomputable def flowCost (mat : Mat K) (rows : List (MeshRow K)) (L θ : ℕ → K) : K :=
  ∑ i ∈ Finset.range rows.length, if StartsBeam rows i then
    match nodeFiber mat rows i with
    | none => 0
    | some f => θ i ^ 2 / transverse f (L i)
  else 0

/-- Sum of the inverses of the transverse stiffnesses of the beams between nodes `i` and `j`. -/
noncomputable def chainCost (mat : Mat K) (rows : List (MeshRow K)) (L : ℕ → K) (i j : ℕ) : K :=
  ∑ m ∈ Finset.Ico i j, match nodeFiber mat rows m with
    | none => 0
    | some f => 1 / transverse f (L m)

end Fibermat.Spec
