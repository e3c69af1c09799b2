import Verif.Spec.Relabel
import Verif.Spec.Symmetry

/-! # Specification of repeated mats

A periodic mat can be repeated: each fiber of a cell stands for several fibers of a larger mat, at other places. -/

namespace Fibermat.Spec
variable {K : Type} [Field K] [LinearOrder K]

/-- Each fiber of the second mat is a copy, at another place, of a fiber of the first one, and all fibers are copied. -/
structure CoverMat (φ : ℕ → ℕ) (m m' : Mat K) : Prop where
  lt : ∀ i, i < m'.fibers.length → φ i < m.fibers.length
  surj : ∀ k, k < m.fibers.length → ∃ i, i < m'.fibers.length ∧ φ i = k
  fiber : ∀ (i : ℕ) (f' : Fiber K), m'.fibers[i]? = some f' → ∃ f, m.fibers[φ i]? = some f ∧ SameButPlace f f'

/-- Each connection of the second net, between two fibers, is a copy of a connection of the first one: `r'` is a copy of `r`. -/
structure CopyRow (φ : ℕ → ℕ) (r r' : NetRow K) : Prop where
  A : r.A = (φ r'.A.toNat : Int)
  B : r.B = (φ r'.B.toNat : Int)
  less : r'.A < r'.B ↔ r.A < r.B
  sA : r'.sA = r.sA
  sB : r'.sB = r.sB
  zA : r'.zA = r.zA
  zB : r'.zB = r.zB

/-- Connections are copies of connections, and each copy of a fiber has exactly one copy of each connection of the fiber. -/
structure CoverNet (φ : ℕ → ℕ) (n : ℕ) (rows rows' : List (NetRow K)) (κ : ℕ → ℕ) : Prop where
  copy : ∀ (k : ℕ) (r' : NetRow K), rows'[k]? = some r' → ∃ r, rows[κ k]? = some r ∧ CopyRow φ r r'
  liftA : ∀ (k a : ℕ) (r : NetRow K), rows[k]? = some r → a < n → (φ a : Int) = r.A → ∃ (k' : ℕ) (r' : NetRow K), rows'[k']? = some r' ∧
    κ k' = k ∧ r'.A = (a : Int)
  liftB : ∀ (k b : ℕ) (r : NetRow K), rows[k]? = some r → b < n → (φ b : Int) = r.B → ∃ (k' : ℕ) (r' : NetRow K), rows'[k']? = some r' ∧
    κ k' = k ∧ r'.B = (b : Int)
  uniqueA : ∀ (j k : ℕ) (r q : NetRow K), rows'[j]? = some r → rows'[k]? = some q → κ j = κ k → r.A = q.A → j = k
  uniqueB : ∀ (j k : ℕ) (r q : NetRow K), rows'[j]? = some r → rows'[k]? = some q → κ j = κ k → r.B = q.B → j = k

/-- Node `i` of the second mesh is a copy of node `π i` of the first one: same abscissa and height, on a copy of the fiber, connected to a
copy of the node connected. Each copy of a fiber has each node of the fiber once. -/
structure CoverMesh (φ : ℕ → ℕ) (rows rows' : List (MeshRow K)) (π : ℕ → ℕ) : Prop where
  surj : ∀ i, i < rows.length → ∃ i', i' < rows'.length ∧ π i' = i
  node : ∀ (i : ℕ) (r' : MeshRow K), rows'[i]? = some r' → ∃ r : MeshRow K, rows[π i]? = some r ∧ r.fiber = (φ r'.fiber.toNat : Int) ∧
    r'.s = r.s ∧ r'.z = r.z ∧ r.constraint = (π r'.constraint.toNat : Int) ∧ ((i : Int) ≤ r'.constraint ↔ (π i : Int) ≤ r.constraint)
  lift : ∀ (i j : ℕ) (r' p : MeshRow K), rows'[i]? = some r' → rows[j]? = some p → p.fiber = (φ r'.fiber.toNat : Int) →
    ∃ (j' : ℕ) (p' : MeshRow K), rows'[j']? = some p' ∧ π j' = j ∧ p'.fiber = r'.fiber
  inj : ∀ (i j : ℕ) (r p : MeshRow K), rows'[i]? = some r → rows'[j]? = some p → r.fiber = p.fiber → π i = π j → i = j

/-- The copies of the nodes have the same displacements and rotations, their contacts the same forces, gaps and activity; the plate is at the same height. -/
structure CoveredState (rows rows' : List (MeshRow K)) (π : ℕ → ℕ) (a a' : Rec K) : Prop where
  node : ∀ i, i < rows'.length → ∀ e, e < 2 → a'.x (2 * i + e) = a.x (2 * π i + e) ∧ a'.mask (2 * i + e) = a.mask (2 * π i + e)
  contact : ∀ k i j, (connections rows')[k]? = some (i, j) → ∃ k0 : ℕ, (connections rows)[k0]? = some (π i, π j) ∧ ∀ e, e < 3 →
    a'.x (2 * rows'.length + (3 * k + e)) = a.x (2 * rows.length + (3 * k0 + e)) ∧
    a'.q (2 * rows'.length + (3 * k + e)) = a.q (2 * rows.length + (3 * k0 + e)) ∧
    a'.mask (2 * rows'.length + (3 * k + e)) = a.mask (2 * rows.length + (3 * k0 + e))
  Z : a'.Z = a.Z
  rlambda : a'.rlambda = a.rlambda
  errSq : a'.errSq = a.errSq

/-- Fiber `i` of the second mat, whose box is `p` times larger, is fiber `φ i` of the first one moved by `cx i` and `cy i` boxes (and by a
common distance): each fiber is copied once at each of the `p × p` places of the larger box. -/
structure Tiling (p : ℕ) (φ : ℕ → ℕ) (cx cy : ℕ → ℤ) (m m' : Mat K) : Prop where
  pos : 0 < p
  size : ∃ S, m.attrs.size = some S ∧ m'.attrs.size = some (p * S) ∧ ∃ ox oy : K, ∀ (i : ℕ) (f' : Fiber K), m'.fibers[i]? = some f' →
    ∃ f, m.fibers[φ i]? = some f ∧ f' = { f with x := f.x + cx i * S + ox, y := f.y + cy i * S + oy }
  order : ∀ i j, i ≤ j → j < m'.fibers.length → φ i ≤ φ j
  once : ∀ k, k < m.fibers.length → ∀ a b : ℤ, ∃ i, (i < m'.fibers.length ∧ φ i = k ∧ (p : ℤ) ∣ cx i - a ∧ (p : ℤ) ∣ cy i - b) ∧
    ∀ j, j < m'.fibers.length → φ j = k → (p : ℤ) ∣ cx j - a → (p : ℤ) ∣ cy j - b → j = i

/-- The mat repeated `p × p` times: the copies of fiber `k` are fibers `k p²` to `(k + 1) p² - 1`. -/
def tile (p : ℕ) (m : Mat K) : Mat K :=
  let S := m.attrs.size.getD 0
  { fibers := m.fibers.flatMap (fun f => (List.range p).flatMap (fun a : ℕ => (List.range p).map (fun b : ℕ =>
      { f with x := f.x + ((a : K) - ((p : K) - 1) / 2) * S, y := f.y + ((b : K) - ((p : K) - 1) / 2) * S })))
    attrs := { m.attrs with n := m.attrs.n.map (fun n => n * (p * p : ℕ)), size := m.attrs.size.map (fun S => p * S) } }

end Fibermat.Spec
