import Verif.Model.Solver

/-! # Specification of the choice of a direction along each fiber

A fiber is a segment; which of its two ends comes first, i.e. the sign of its direction, is arbitrary. -/

namespace Fibermat.Spec
variable {K : Type} [Field K] [LinearOrder K]

/-- A number counted in the other direction, when `b` is true. -/
def turned (b : Bool) (s : K) : K := if b then -s else s

/-- The same segment, run through from its other end when `b` is true. -/
def turnFiber (b : Bool) (f : Fiber K) : Fiber K := { f with u := turned b f.u, v := turned b f.v, w := turned b f.w }

/-- The same mat, with the direction of the fibers of `d` reversed. -/
def turnMat (d : ℕ → Bool) (m : Mat K) : Mat K := { m with fibers := m.fibers.mapIdx (fun i f => turnFiber (d i) f) }

/-- A row of the net after reversal: points of contact are the same, with opposite abscissae on the reversed fibers; the two ends of a
reversed fiber, at abscissae `l / 2` and `-l / 2`, are exchanged. -/
def turnRow (d : ℕ → Bool) (r : NetRow K) : NetRow K :=
  if r.A = r.B then
    if d r.A.toNat then { r with xA := r.xB, yA := r.yB, zA := r.zB, xB := r.xA, yB := r.yA, zB := r.zA } else r
  else { r with sA := turned (d r.A.toNat) r.sA, sB := turned (d r.B.toNat) r.sB }

/-- A net (or stack) after reversal. -/
def turnNet (d : ℕ → Bool) (n : Net K) : Net K := { n with rows := n.rows.map (turnRow d) }

/-- No two nodes of a fiber at the same abscissa. -/
def DistinctNodes (rows : List (MeshRow K)) : Prop :=
  ∀ (i j : ℕ) (r p : MeshRow K), rows[i]? = some r → rows[j]? = some p → r.fiber = p.fiber → r.s = p.s → i = j

/-- Nodes constrained to each other are on different fibers. -/
def OtherFiber (rows : List (MeshRow K)) : Prop :=
  ∀ (i j : ℕ) (r p : MeshRow K), rows[i]? = some r → rows[j]? = some p → r.constraint = (j : Int) → i ≠ j → r.fiber ≠ p.fiber

/-- The nodes of two meshes are the same, node `i` of the first being node `σ i` of the second: same fiber, same place, opposite
abscissae on reversed fibers, same connections. -/
structure TurnedMesh (d : ℕ → Bool) (rows rows' : List (MeshRow K)) (σ : ℕ → ℕ) : Prop where
  count : rows'.length = rows.length
  lt : ∀ i, i < rows.length → σ i < rows.length
  inj : ∀ i j, i < rows.length → j < rows.length → σ i = σ j → i = j
  node : ∀ (i : ℕ) (r : MeshRow K), rows[i]? = some r → ∃ r' : MeshRow K, rows'[σ i]? = some r' ∧ r'.fiber = r.fiber ∧
    r'.s = turned (d r.fiber.toNat) r.s ∧ r'.x = r.x ∧ r'.y = r.y ∧ r'.z = r.z ∧ r'.constraint = (σ r.constraint.toNat : Int)

/-- The connections of a mesh, in the order of the contact forces: nodes `i ≤ j` constrained to each other. -/
def connections (rows : List (MeshRow K)) : List (ℕ × ℕ) :=
  (rows.zipIdx.filter (fun p => (p.2 : Int) ≤ p.1.constraint)).map (fun p => (p.2, p.1.constraint.toNat))

/-- Two recorded states are the same: same displacements, rotations counted in the other direction on reversed fibers, same contact
forces, gaps and active rows, same height of the plate and packing. -/
structure TurnedState (d : ℕ → Bool) (rows rows' : List (MeshRow K)) (σ : ℕ → ℕ) (a a' : Rec K) : Prop where
  displacement : ∀ i, i < rows.length → a'.x (2 * σ i) = a.x (2 * i)
  rotation : ∀ (i : ℕ) (r : MeshRow K), rows[i]? = some r → a'.x (2 * σ i + 1) = turned (d r.fiber.toNat) (a.x (2 * i + 1))
  mask : ∀ i, i < rows.length → ∀ e, e < 2 → a'.mask (2 * σ i + e) = a.mask (2 * i + e)
  contact : ∀ k i j, (connections rows)[k]? = some (i, j) → ∃ k' : ℕ, (connections rows')[k']? = some (σ i, σ j) ∧ ∀ e, e < 3 →
    a'.x (2 * rows.length + (3 * k' + e)) = a.x (2 * rows.length + (3 * k + e)) ∧
    a'.q (2 * rows.length + (3 * k' + e)) = a.q (2 * rows.length + (3 * k + e)) ∧
    a'.mask (2 * rows.length + (3 * k' + e)) = a.mask (2 * rows.length + (3 * k + e))
  Z : a'.Z = a.Z
  rlambda : a'.rlambda = a.rlambda
  errSq : a'.errSq = a.errSq

end Fibermat.Spec
