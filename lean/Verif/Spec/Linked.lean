import Verif.Spec.Energy
import Mathlib.Logic.Relation

/-! # Chains of beams and closed contacts -/

namespace Fibermat.Spec
variable {K : Type} [Field K] [LinearOrder K]

/-- A beam goes from node `i` to node `j`, or the two nodes of a connection touch each other (gap at most `tol`) in the state `u`. -/
def Joined (mat : Mat K) (rows : List (MeshRow K)) (tol : K) (u : ℕ → K) (i j : ℕ) : Prop :=
  (StartsBeam rows i ∧ j = succNode rows i) ∨ (IsPair rows i j ∧ i ≠ j ∧ pairGap mat rows u i j ≤ tol)

/-- A chain of beams and closed contacts leads from one node to the other. -/
def Chained (mat : Mat K) (rows : List (MeshRow K)) (tol : K) (u : ℕ → K) : ℕ → ℕ → Prop :=
  Relation.ReflTransGen (fun i j => Joined mat rows tol u i j ∨ Joined mat rows tol u j i)

/-- The upper plate, at height `Z`, touches node `m`, the upper node of a connection or the end of a fiber. -/
def TouchesPlate (mat : Mat K) (rows : List (MeshRow K)) (tol Z : K) (u : ℕ → K) (m : ℕ) : Prop :=
  ∃ i, IsPair rows i m ∧ roofGap mat rows Z u m ≤ tol

/-- Node `m`, the lower node of a connection or the end of a fiber, touches the lower plate. -/
def TouchesFloor (mat : Mat K) (rows : List (MeshRow K)) (tol : K) (u : ℕ → K) (m : ℕ) : Prop :=
  ∃ j, IsPair rows m j ∧ floorGap mat rows u m ≤ tol

/-- Node `m` is linked with the upper plate. -/
def Hung (mat : Mat K) (rows : List (MeshRow K)) (tol Z : K) (u : ℕ → K) (m : ℕ) : Prop :=
  ∃ n, TouchesPlate mat rows tol Z u n ∧ Chained mat rows tol u m n

/-- Node `m` is linked with the lower plate. -/
def Based (mat : Mat K) (rows : List (MeshRow K)) (tol : K) (u : ℕ → K) (m : ℕ) : Prop :=
  ∃ n, TouchesFloor mat rows tol u n ∧ Chained mat rows tol u m n

/-- A chain of beams and closed contacts connects the two plates. -/
def Bridged (mat : Mat K) (rows : List (MeshRow K)) (tol Z : K) (u : ℕ → K) : Prop :=
  ∃ m, Hung mat rows tol Z u m ∧ Based mat rows tol u m

end Fibermat.Spec
