import Verif.Model.Solver
import Verif.Spec.Assembly

/-! # Specification of the solver: linear solvers and recorded histories -/

namespace Fibermat.Spec
variable {K : Type} [Field K] [LinearOrder K]

/-- Product of a row with a vector. -/
def dot : List K → List K → K
  | a :: l, b :: m => a * b + dot l m
  | _, _ => 0

/-- `x` solves the square system `A x = b`. -/
structure Solves (A : List (List K)) (b x : List K) : Prop where
  size : x.length = b.length
  rows : ∀ (i : ℕ) (row : List K) (c : K), A[i]? = some row → b[i]? = some c → dot row x = c

/-- A square matrix of numbers. -/
def Square (A : List (List K)) (b : List K) : Prop := A.length = b.length ∧ ∀ row ∈ A, row.length = b.length

/-- The matrix of cells handed to the solver. -/
def cells (A : List (List K)) : List (List (Cell K)) := A.map (fun row => row.map Cell.fin)

/-- An exact linear solver: whatever it answers for a square matrix of numbers is a solution. -/
def ExactLin (lin : LinSolver K) : Prop :=
  ∀ A b x, Square A b → lin (cells A) b = some x → Solves A b x

/-- A linear solver that moreover answers whenever the solution is unique. -/
def GoodLin (lin : LinSolver K) : Prop :=
  ExactLin lin ∧ ∀ A b, Square A b → (∃! x, Solves A b x) → ∃ x, lin (cells A) b = some x

/-- The reduced system at a state has only the zero solution for a zero right-hand side. -/
def RegularAt (S : Sys K) (tol : K) (a : Rec K) : Prop :=
  ∀ y : ℕ → K, (∀ r, S.active tol a.x a.q r = false → y r = 0) →
    (∀ r, r < S.n → S.active tol a.x a.q r = true → S.mulVec y r = .fin 0) → ∀ r, r < S.n → y r = 0

end Fibermat.Spec

namespace Fibermat.Spec

/-- The option `perm`, when given, is a permutation of the indices. -/
def PermOf (n : ℕ) (perm : Option (List ℕ)) : Prop := ∀ p, perm = some p → p.Perm (List.range n)

end Fibermat.Spec

namespace Fibermat.Spec
variable {K : Type} [Field K] [LinearOrder K]

/-- Nodes `i ≤ j` are connected by a contact (`i = j` for a node without partner). -/
def IsPair (rows : List (MeshRow K)) (i j : ℕ) : Prop := i ≤ j ∧ ∃ r, rows[i]? = some r ∧ r.constraint = (j : Int)

/-- Gap between the lower plate (at height 0) and node `i` displaced by `u`. -/
def floorGap (mat : Mat K) (rows : List (MeshRow K)) (u : ℕ → K) (i : ℕ) : K :=
  nodeHeight rows i + u (2 * i) - nodeThick mat rows i / 2

/-- Gap between node `j` and the upper plate at height `Z`. -/
def roofGap (mat : Mat K) (rows : List (MeshRow K)) (Z : K) (u : ℕ → K) (j : ℕ) : K :=
  Z - (nodeHeight rows j + u (2 * j)) - nodeThick mat rows j / 2

/-- Gap between node `i` and node `j` above it. -/
def pairGap (mat : Mat K) (rows : List (MeshRow K)) (u : ℕ → K) (i j : ℕ) : K :=
  (nodeHeight rows j + u (2 * j)) - (nodeHeight rows i + u (2 * i)) - (nodeThick mat rows i + nodeThick mat rows j) / 2

/-- Somewhere the material is squeezed solid between both plates: all the gaps along a contact are closed. -/
def Jammed (mat : Mat K) (rows : List (MeshRow K)) (tol Z : K) (u : ℕ → K) : Prop :=
  ∃ i j, IsPair rows i j ∧ floorGap mat rows u i ≤ tol ∧ (i ≠ j → pairGap mat rows u i j ≤ tol) ∧
    roofGap mat rows Z u j ≤ tol

/-- The vertical motion `v` (velocities of the nodes) keeps all the closed gaps closed. -/
def KeepsContacts (mat : Mat K) (rows : List (MeshRow K)) (tol Z : K) (u v : ℕ → K) : Prop :=
  ∀ i j, IsPair rows i j → (floorGap mat rows u i ≤ tol → v (2 * i) = 0) ∧
    (i ≠ j → pairGap mat rows u i j ≤ tol → v (2 * i) = v (2 * j)) ∧ (roofGap mat rows Z u j ≤ tol → v (2 * j) = 0)

/-- Some fibers can be translated without opening or crossing any closed gap. -/
def Unsupported (mat : Mat K) (rows : List (MeshRow K)) (tol Z : K) (u : ℕ → K) : Prop :=
  ∃ v : ℕ → K, (∃ i, i < rows.length ∧ v (2 * i) ≠ 0) ∧ (∀ i j, SameFiber rows i j → v (2 * i) = v (2 * j)) ∧
    KeepsContacts mat rows tol Z u v

end Fibermat.Spec
