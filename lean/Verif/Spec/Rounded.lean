import Verif.Model.Rounded
import Verif.Spec.Solver
import Mathlib.Data.Int.Log
import Mathlib.Algebra.Order.Floor.Ring

/-! # Specification of rounded arithmetic and of systems stored with rounding -/

namespace Fibermat.Spec
variable {K : Type} [Field K] [LinearOrder K]

/-- Standard model of floating-point arithmetic without overflow and underflow: the rounding is monotone, keeps the numbers of the
format, and moves a number by at most the fraction `u` of it. -/
structure Rounds (fl : K → K) (u : K) : Prop where
  mono : ∀ a b, a ≤ b → fl a ≤ fl b
  idem : ∀ a, fl (fl a) = fl a
  err : ∀ a, |fl a - a| ≤ u * |a|

/-- What is used of the norm: if it is not found larger than `errtol`, no component is larger than `κ errtol`. -/
def NormTest (tooBig : K → List (Cell K) → Bool) (κ : K) : Prop :=
  ∀ errtol (es : List K), tooBig errtol (es.map Cell.fin) = false → ∀ e ∈ es, |e| ≤ κ * errtol

/-- Coefficient of column `c` in the constraint `d` of a connection of node `i` (lower) with node `j` (upper): `-u_i`, `u_i - u_j`,
`u_j` for `d = 0, 1, 2`. -/
def coef (d i j c : ℕ) : K :=
  if d = 0 then - (if c = 2 * i then 1 else 0)
  else if d = 1 then (if c = 2 * i then 1 else 0) - (if c = 2 * j then 1 else 0)
  else (if c = 2 * j then 1 else 0)

/-- A system with the constraints of the connections `pairs`, whose stiffness part is any table of numbers except between `rigid`
unknowns. The bounds of the constraints are numbers of the format between `-E0` and `B`; the constraint of a node with itself has
an infinite bound. -/
structure Presses (fl : K → K) (E0 B : K) (S : Sys K) (rigid : ℕ → Prop) (pairs : List (ℕ × ℕ)) : Prop where
  size : S.nC = 3 * pairs.length
  nodes : ∀ p ∈ pairs, p.1 ≤ p.2 ∧ 2 * p.2 < S.nK
  num : ∀ r c, ¬ (rigid r ∧ rigid c) → ∃ m, S.P r c = .fin m
  diag : ∀ r, rigid r → S.P r r = .pinf
  lt : ∀ r, rigid r → r < S.nK
  entry : ∀ k i j, pairs[k]? = some (i, j) → ∀ d, d < 3 → ∀ c, c < S.n →
    S.P (S.nK + (3 * k + d)) c = .fin (coef d i j c) ∧ S.P c (S.nK + (3 * k + d)) = .fin (coef d i j c)
  rate : ∀ k, k < pairs.length → ∀ d, d < 3 → S.dq (S.nK + (3 * k + d)) = if d = 2 then 1 else 0
  bound : ∀ k i j, pairs[k]? = some (i, j) → ∀ d, d < 3 →
    if d = 1 ∧ i = j then S.q0 (S.nK + (3 * k + d)) = .pinf
    else ∃ b, S.q0 (S.nK + (3 * k + d)) = .fin b ∧ fl b = b ∧ -E0 ≤ b ∧ b ≤ B

/-- `S'` is the system `S` as stored in floating-point numbers: finite stiffnesses may have become any other numbers, infinite ones
stay infinite, the coefficients of the constraints are exact, and the bounds and the initial position of the upper plate are
numbers of the format at most `δ` away. -/
structure Stored (fl : K → K) (δ : K) (S S' : Sys K) : Prop where
  nK : S'.nK = S.nK
  nC : S'.nC = S.nC
  soft : ∀ r c m, S.P r c = .fin m → ∃ m', S'.P r c = .fin m'
  stiff : ∀ r c, S.P r c = .pinf → S'.P r c = .pinf
  unit : ∀ r c, S.nK ≤ r ∨ S.nK ≤ c → S'.P r c = S.P r c
  dq : ∀ r, S'.dq r = S.dq r
  free : ∀ r, S.q0 r = .pinf → S'.q0 r = .pinf
  bound : ∀ r b, S.q0 r = .fin b → ∃ b', S'.q0 r = .fin b' ∧ fl b' = b' ∧ |b' - b| ≤ δ
  top : fl S'.Z0 = S'.Z0 ∧ |S'.Z0 - S.Z0| ≤ δ

/-- Along every connection of the mesh, the nodes displaced by `u` between plates at heights `0` and `Z` overlap by at most `ε`. -/
def ClearUpTo (mat : Mat K) (rows : List (MeshRow K)) (ε Z : K) (u : ℕ → K) : Prop :=
  ∀ i j, IsPair rows i j → -ε ≤ floorGap mat rows u i ∧ (i ≠ j → -ε ≤ pairGap mat rows u i j) ∧ -ε ≤ roofGap mat rows Z u j

end Fibermat.Spec

namespace Fibermat.Spec
variable {K : Type} [Field K] [LinearOrder K] [FloorRing K]

/-- Nearest integer, the even one in case of a tie. -/
def rint (x : K) : ℤ :=
  if Int.fract x < 1 / 2 then ⌊x⌋ else if 1 / 2 < Int.fract x then ⌊x⌋ + 1 else if ⌊x⌋ % 2 = 0 then ⌊x⌋ else ⌊x⌋ + 1

/-- Nearest number with `p` significant bits, the even one in case of a tie; exponents are not limited. -/
def binary (p : ℕ) (x : K) : K :=
  if x = 0 then 0 else rint (x / 2 ^ (Int.log 2 |x| + 1 - p)) * 2 ^ (Int.log 2 |x| + 1 - p)

end Fibermat.Spec
