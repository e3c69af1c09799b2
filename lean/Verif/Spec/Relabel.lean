import Verif.Spec.Direction

/-! # Specification of the labels of fibers

Fibers are numbered from the bottom to the top: of two crossing fibers the one with the larger number lies above. Otherwise numbers have
no meaning. -/

namespace Fibermat.Spec
variable {K : Type} [Field K] [LinearOrder K]

/-- The same fibers with other numbers: fiber `i` of the first mat is fiber `φ i` of the second. -/
structure RelabelledMat (φ : ℕ → ℕ) (m m' : Mat K) : Prop where
  attrs : m'.attrs = m.attrs
  count : m'.fibers.length = m.fibers.length
  inj : ∀ i j, i < m.fibers.length → j < m.fibers.length → φ i = φ j → i = j
  fiber : ∀ i, i < m.fibers.length → m'.fibers[φ i]? = m.fibers[i]?

/-- Crossing fibers are numbered in the same order. -/
def KeepsOrder (φ : ℕ → ℕ) (rows : List (NetRow K)) : Prop := ∀ r ∈ rows, r.A < r.B → φ r.A.toNat < φ r.B.toNat

/-- A row of a net with other numbers. -/
def relabelRow (φ : ℕ → ℕ) (r : NetRow K) : NetRow K := { r with A := (φ r.A.toNat : Int), B := (φ r.B.toNat : Int) }

/-- The same net (or stack) with other numbers, in some order. -/
structure RelabelledNet (φ : ℕ → ℕ) (n n' : Net K) : Prop where
  attrs : n'.attrs = n.attrs
  rows : n'.rows.Perm (n.rows.map (relabelRow φ))

/-- The nodes of two meshes are the same, node `i` of the first being node `σ i` of the second: same fiber, abscissa, place and
connections. -/
structure RelabelledMesh (φ : ℕ → ℕ) (rows rows' : List (MeshRow K)) (σ : ℕ → ℕ) : Prop where
  count : rows'.length = rows.length
  lt : ∀ i, i < rows.length → σ i < rows.length
  inj : ∀ i j, i < rows.length → j < rows.length → σ i = σ j → i = j
  node : ∀ (i : ℕ) (r : MeshRow K), rows[i]? = some r → ∃ r' : MeshRow K, rows'[σ i]? = some r' ∧ r'.fiber = (φ r.fiber.toNat : Int) ∧
    r'.s = r.s ∧ r'.x = r.x ∧ r'.y = r.y ∧ r'.z = r.z ∧ r'.constraint = (σ r.constraint.toNat : Int)

/-- Connected nodes of a mesh are on fibers numbered in the same order. -/
def KeepsOrderMesh (φ : ℕ → ℕ) (rows : List (MeshRow K)) : Prop :=
  ∀ (i j : ℕ) (r p : MeshRow K), rows[i]? = some r → rows[j]? = some p → r.constraint = (j : Int) → i < j → φ r.fiber.toNat < φ p.fiber.toNat

/-- Two recorded states are the same: same displacements and rotations of the nodes, contact forces, gaps and active rows, height of the
plate and packing. -/
structure RelabelledState (rows rows' : List (MeshRow K)) (σ : ℕ → ℕ) (a a' : Rec K) : Prop where
  node : ∀ i, i < rows.length → ∀ e, e < 2 → a'.x (2 * σ i + e) = a.x (2 * i + e) ∧ a'.mask (2 * σ i + e) = a.mask (2 * i + e)
  contact : ∀ k i j, (connections rows)[k]? = some (i, j) → ∃ k' : ℕ, (connections rows')[k']? = some (σ i, σ j) ∧ ∀ e, e < 3 →
    a'.x (2 * rows.length + (3 * k' + e)) = a.x (2 * rows.length + (3 * k + e)) ∧
    a'.q (2 * rows.length + (3 * k' + e)) = a.q (2 * rows.length + (3 * k + e)) ∧
    a'.mask (2 * rows.length + (3 * k' + e)) = a.mask (2 * rows.length + (3 * k + e))
  Z : a'.Z = a.Z
  rlambda : a'.rlambda = a.rlambda
  errSq : a'.errSq = a.errSq

end Fibermat.Spec
