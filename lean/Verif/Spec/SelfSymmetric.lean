import Verif.Spec.Relabel
import Verif.Spec.Symmetry

/-! # Specification of symmetric mats -/

namespace Fibermat.Spec
variable {K : Type} [Field K] [LinearOrder K]

/-- The mat is unchanged when it is moved: fiber `i` is brought onto fiber `φ i`, its direction being reversed when `d i` is true.
`move f f'` says that `f'` is the moved `f`. -/
structure SymmetricMat (move : Fiber K → Fiber K → Prop) (φ : ℕ → ℕ) (d : ℕ → Bool) (m : Mat K) : Prop where
  inj : ∀ i j, i < m.fibers.length → j < m.fibers.length → φ i = φ j → i = j
  moved : ∀ (i : ℕ) (f : Fiber K), m.fibers[i]? = some f → ∃ g, m.fibers[φ i]? = some g ∧ move f (turnFiber (d i) g)

/-- The nodes of a mesh are exchanged by `τ`: node `τ i` is on fiber `φ k` when node `i` is on fiber `k`, at the same abscissa (the
opposite one when the direction is reversed) and height; connections are kept. -/
structure SymmetricNodes (φ : ℕ → ℕ) (d : ℕ → Bool) (rows : List (MeshRow K)) (τ : ℕ → ℕ) : Prop where
  lt : ∀ i, i < rows.length → τ i < rows.length
  inj : ∀ i j, i < rows.length → j < rows.length → τ i = τ j → i = j
  node : ∀ (i : ℕ) (r : MeshRow K), rows[i]? = some r → ∃ r' : MeshRow K, rows[τ i]? = some r' ∧ r'.fiber = (φ r.fiber.toNat : Int) ∧
    r'.s = turned (d r.fiber.toNat) r.s ∧ r'.z = r.z ∧ r'.constraint = (τ r.constraint.toNat : Int)

/-- A recorded state is symmetric: nodes exchanged by `τ` have the same displacement, the same rotation (the opposite one when the
direction is reversed) and the same contact forces, gaps and active rows. -/
structure SymmetricState (d : ℕ → Bool) (rows : List (MeshRow K)) (τ : ℕ → ℕ) (a : Rec K) : Prop where
  displacement : ∀ i, i < rows.length → a.x (2 * τ i) = a.x (2 * i)
  rotation : ∀ (i : ℕ) (r : MeshRow K), rows[i]? = some r → a.x (2 * τ i + 1) = turned (d r.fiber.toNat) (a.x (2 * i + 1))
  mask : ∀ i, i < rows.length → ∀ e, e < 2 → a.mask (2 * τ i + e) = a.mask (2 * i + e)
  contact : ∀ k i j, (connections rows)[k]? = some (i, j) → ∃ k' : ℕ, (connections rows)[k']? = some (τ i, τ j) ∧ ∀ e, e < 3 →
    a.x (2 * rows.length + (3 * k' + e)) = a.x (2 * rows.length + (3 * k + e)) ∧
    a.q (2 * rows.length + (3 * k' + e)) = a.q (2 * rows.length + (3 * k + e)) ∧
    a.mask (2 * rows.length + (3 * k' + e)) = a.mask (2 * rows.length + (3 * k + e))

end Fibermat.Spec
