import Verif.Spec.Energy

/-! # The beams that carry the force of the plate -/

namespace Fibermat.Spec
variable {K : Type} [Field K] [LinearOrder K]

/-- The upper plate, at height `Z`, presses node `m`: it touches it, or it touches the node that lies on `m`. -/
def Pressed (mat : Mat K) (rows : List (MeshRow K)) (tol Z : K) (u : ℕ → K) (m : ℕ) : Prop :=
  ∃ i j, IsPair rows i j ∧ roofGap mat rows Z u j ≤ tol ∧ (m = j ∨ (m = i ∧ pairGap mat rows u i j ≤ tol))

/-- Node `m` rests on the lower plate: it touches it, or it touches a node under it that does. -/
def Grounded (mat : Mat K) (rows : List (MeshRow K)) (tol : K) (u : ℕ → K) (m : ℕ) : Prop :=
  ∃ i j, IsPair rows i j ∧ floorGap mat rows u i ≤ tol ∧ (m = i ∨ (m = j ∧ pairGap mat rows u i j ≤ tol))

open Classical in
/-- Sum of the transverse stiffnesses (lengths `L`) of the beams one end of which, but not the other, lies in `P`. -/
noncomputable def cutStiffness (mat : Mat K) (rows : List (MeshRow K)) (L : ℕ → K) (P : ℕ → Prop) : K :=
  ∑ i ∈ Finset.range rows.length, if StartsBeam rows i ∧ ¬ (P i ↔ P (succNode rows i)) then
    match nodeFiber mat rows i with
    | none => 0
    | some f => transverse f (L i)
  else 0

open Classical in
/-- Sum of the transverse stiffnesses of all the beams. -/
noncomputable def allStiffness (mat : Mat K) (rows : List (MeshRow K)) (L : ℕ → K) : K :=
  ∑ i ∈ Finset.range rows.length, if StartsBeam rows i then
    match nodeFiber mat rows i with
    | none => 0
    | some f => transverse f (L i)
  else 0

end Fibermat.Spec
