import Verif.Spec.Relabel
import Verif.Spec.Assembly

/-! # Specification of a mat turned upside down

The plates at heights `0` and `Z` play the same part: seen from below, the lower plate moves towards the upper one. -/

namespace Fibermat.Spec
variable {K : Type} [Field K] [LinearOrder K]

/-- A fiber turned upside down: reflected in the plane at half the height `Z`. -/
def turnedOver (Z : K) (f : Fiber K) : Fiber K := { f with z := Z - f.z, w := -f.w }

/-- The second mat is the first one turned upside down: fiber `i` of the first is fiber `φ i` of the second. -/
structure MirroredMat (φ : ℕ → ℕ) (Z : K) (m m' : Mat K) : Prop where
  attrs : m'.attrs = m.attrs
  count : m'.fibers.length = m.fibers.length
  inj : ∀ i j, i < m.fibers.length → j < m.fibers.length → φ i = φ j → i = j
  fiber : ∀ i, i < m.fibers.length → m'.fibers[φ i]? = (m.fibers[i]?).map (turnedOver Z)

/-- The mat turned upside down, fibers listed in reverse order: from the bottom to the top again. -/
def upsideDown (Z : K) (m : Mat K) : Mat K := { m with fibers := (m.fibers.map (turnedOver Z)).reverse }

/-- Numbers in reverse order. -/
def reversed (n i : ℕ) : ℕ := n - 1 - i

/-- Crossing fibers are numbered in the opposite order. -/
def ReversesOrder (φ : ℕ → ℕ) (rows : List (NetRow K)) : Prop := ∀ r ∈ rows, r.A < r.B → φ r.B.toNat < φ r.A.toNat

/-- A row of a net turned upside down: the lower fiber becomes the upper one. -/
def mirrorRow (φ : ℕ → ℕ) (Z : K) (r : NetRow K) : NetRow K :=
  if r.A = r.B then { r with A := (φ r.A.toNat : Int), B := (φ r.B.toNat : Int), zA := Z - r.zA, zB := Z - r.zB }
  else { A := (φ r.B.toNat : Int), B := (φ r.A.toNat : Int), sA := r.sB, sB := r.sA, xA := r.xB, yA := r.yB, zA := Z - r.zB,
         xB := r.xA, yB := r.yA, zB := Z - r.zA }

/-- The second net is the first one turned upside down, in some order. -/
structure MirroredNet (φ : ℕ → ℕ) (Z : K) (n n' : Net K) : Prop where
  attrs : n'.attrs = n.attrs
  rows : n'.rows.Perm (n.rows.map (mirrorRow φ Z))

/-- The second mesh is the first one turned upside down between plates at heights `0` and `Z`: node `i` of the first is node `σ i` of the
second, on fiber `φ f` instead of `f`, at height `Z - z` instead of `z`. -/
structure MirroredMesh (φ : ℕ → ℕ) (Z : K) (rows rows' : List (MeshRow K)) (σ : ℕ → ℕ) : Prop where
  count : rows'.length = rows.length
  lt : ∀ i, i < rows.length → σ i < rows.length
  inj : ∀ i j, i < rows.length → j < rows.length → σ i = σ j → i = j
  node : ∀ (i : ℕ) (r : MeshRow K), rows[i]? = some r → ∃ r' : MeshRow K, rows'[σ i]? = some r' ∧ r'.fiber = (φ r.fiber.toNat : Int) ∧
    r'.s = r.s ∧ r'.x = r.x ∧ r'.y = r.y ∧ r'.z = Z - r.z ∧ r'.constraint = (σ r.constraint.toNat : Int)

/-- Connected nodes of a mesh are on fibers numbered in the opposite order. -/
def ReversesOrderMesh (φ : ℕ → ℕ) (rows : List (MeshRow K)) : Prop :=
  ∀ (i j : ℕ) (r p : MeshRow K), rows[i]? = some r → rows[j]? = some p → r.constraint = (j : Int) → i < j → φ p.fiber.toNat < φ r.fiber.toNat

/-- The lowest nodes lie on the floor. -/
def RestsOnFloor (mat : Mat K) (rows : List (MeshRow K)) : Prop :=
  (∃ i, i < rows.length ∧ nodeHeight rows i = nodeThick mat rows i / 2) ∧ ∀ i, i < rows.length → nodeThick mat rows i / 2 ≤ nodeHeight rows i

/-- The second recorded state is the first one upside down, the upper plate being at height `a.Z` in both: node `σ i` is as far below
the upper plate as node `i` is above the lower one, rotations are opposite, contact forces between fibers are the same, and the forces
on the two plates are exchanged. -/
structure MirroredState (rows rows' : List (MeshRow K)) (σ : ℕ → ℕ) (a a' : Rec K) : Prop where
  place : ∀ i, i < rows.length → nodeHeight rows' (σ i) + a'.x (2 * σ i) = a.Z - (nodeHeight rows i + a.x (2 * i))
  rotation : ∀ i, i < rows.length → a'.x (2 * σ i + 1) = - a.x (2 * i + 1)
  mask : ∀ i, i < rows.length → ∀ e, e < 2 → a'.mask (2 * σ i + e) = a.mask (2 * i + e)
  contact : ∀ k i j, (connections rows)[k]? = some (i, j) → ∃ k' : ℕ, (connections rows')[k']? = some (σ j, σ i) ∧ ∀ e, e < 3 →
    a'.x (2 * rows.length + (3 * k' + (2 - e))) = a.x (2 * rows.length + (3 * k + e)) ∧
    a'.mask (2 * rows.length + (3 * k' + (2 - e))) = a.mask (2 * rows.length + (3 * k + e))
  Z : a'.Z = a.Z
  rlambda : a'.rlambda = a.rlambda
  errSq : a'.errSq = a.errSq

end Fibermat.Spec
