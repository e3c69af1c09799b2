import Verif.Spec.Relabel

/-! # Specification of a part of a mat -/

namespace Fibermat.Spec
variable {K : Type} [Field K] [LinearOrder K]

/-- The second mat consists of some fibers of the first one, in the same order: its fiber `i` is fiber `φ i` of the first. -/
structure KeptMat (φ : ℕ → ℕ) (m m' : Mat K) : Prop where
  attrs : m'.attrs = { m.attrs with n := some (m'.fibers.length : Int) }
  mono : ∀ i j, i < j → j < m'.fibers.length → φ i < φ j
  fiber : ∀ i, i < m'.fibers.length → ∃ f, m'.fibers[i]? = some f ∧ m.fibers[φ i]? = some f

/-- Fiber `i` is one of the `k` fibers kept. -/
def isKept (φ : ℕ → ℕ) (k : ℕ) (i : Int) : Bool := (List.range k).any (fun j => decide ((φ j : Int) = i))

/-- The connections between fibers that are kept. -/
def keptRows (φ : ℕ → ℕ) (k : ℕ) (rows : List (NetRow K)) : List (NetRow K) := rows.filter (fun r => isKept φ k r.A && isKept φ k r.B)

/-- No fiber left out lies under a fiber that is kept and crosses it. -/
def ClosedBelow (φ : ℕ → ℕ) (k : ℕ) (rows : List (NetRow K)) : Prop :=
  ∀ r ∈ rows, r.A < r.B → isKept φ k r.B = true → isKept φ k r.A = true

/-- Two mats whose fibers have the same axes: they differ only by widths, thicknesses and moduli. -/
def SameAxes (m m' : Mat K) : Prop :=
  m'.attrs = m.attrs ∧ m.fibers.map (fun f => (f.l, f.x, f.y, f.z, f.u, f.v, f.w)) = m'.fibers.map (fun f => (f.l, f.x, f.y, f.z, f.u, f.v, f.w))

end Fibermat.Spec
