import Verif.Model.Loads
import Verif.Spec.Stack

/-! # Specification of the loads carried by stacked fibers -/

namespace Fibermat.Spec
variable {K : Type} [Field K] [LinearOrder K]

/-- Reduced cost of a variable. -/
def reduced (p : LP K) (dual : List K) (j : ℕ) : K :=
  comp p.f j - ∑ k ∈ Finset.range p.C.nrows, comp dual k * p.C.get k j

/-- Sensitivities of the optimal value with respect to the bounds `H` (documented meaning of `ineqlin.marginals`), in the form of the
optimality conditions. -/
structure IsDual (p : LP K) (z dual : List K) : Prop where
  size : dual.length = p.C.nrows
  sign : ∀ k, k < p.C.nrows → comp dual k ≤ 0
  cost : ∀ j, j < p.f.length → 0 ≤ reduced p dual j
  slack : ∀ k, k < p.C.nrows → comp dual k ≠ 0 → ∑ j ∈ Finset.range p.f.length, p.C.get k j * comp z j = comp p.H k
  bound : ∀ j, j < p.f.length → reduced p dual j ≠ 0 → comp z j = comp p.lower j

/-- A correct solver returning sensitivities: it answers whenever there is an optimum with sensitivities. -/
def GoodLinprogSol (lin : LinprogSol K) : Prop :=
  ∀ p, (∃ z d, Optimal p z ∧ IsDual p z d) → ∃ s, lin p = some s ∧ Optimal p s.x ∧ IsDual p s.x s.marginals

/-- Weight of fiber `i` (elliptical section). -/
def weight (m : Mat K) (i : ℕ) : K := ((m.fibers[i]?).map (fun f => npPi / 4 * (f.l * f.b * f.h))).getD 0

/-- Mean weight of the fibers. -/
def meanWeight (m : Mat K) : K := (∑ i ∈ Finset.range m.fibers.length, weight m i) / (m.fibers.length : K)

/-- Sum of the forces of the contacts whose lower fiber is `i`. -/
def pressOn (rows : List (NetRow K)) (F : List K) (i : ℕ) : K :=
  (((rows.zip F).filter (fun p => p.1.A = (i : Int))).map (·.2)).sum

/-- Sum of the forces of the contacts whose upper fiber is `i`. -/
def pressUnder (rows : List (NetRow K)) (F : List K) (i : ℕ) : K :=
  (((rows.zip F).filter (fun p => p.1.B = (i : Int))).map (·.2)).sum

/-- The two fibers of a contact touch. -/
def Touches (m : Mat K) (r : NetRow K) : Prop :=
  heightOf m r.B.toNat - heightOf m r.A.toNat = (thick m r.A.toNat + thick m r.B.toNat) / 2

/-- Forces `F` at contacts and reactions `N` of the floor that hold the fibers: they push, act only where there is contact, and balance the
weight of each fiber. -/
structure Held (m : Mat K) (rows : List (NetRow K)) (F : List K) (N : ℕ → K) : Prop where
  size : F.length = rows.length
  push : ∀ v ∈ F, 0 ≤ v
  floor : ∀ i, i < m.fibers.length → 0 ≤ N i
  touch : ∀ p ∈ rows.zip F, p.2 ≠ 0 → Touches m p.1
  lies : ∀ i, i < m.fibers.length → N i ≠ 0 → heightOf m i = thick m i / 2
  balance : ∀ i, i < m.fibers.length → weight m i + pressOn rows F i = pressUnder rows F i + N i

end Fibermat.Spec
