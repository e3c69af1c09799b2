import Verif.Spec.MeshInit
import Verif.Spec.Energy
import Verif.Spec.Solver

/-! # Specification of nested meshes -/

namespace Fibermat.Spec
variable {K : Type}

/-- The nodes `rows` are found among the nodes `rows'`, in the same order: `σ i` is on the same fiber, at the same abscissa as `i`. -/
structure Nested (rows rows' : List (MeshRow K)) (σ : ℕ → ℕ) : Prop where
  mono : ∀ i j, i < j → j < rows.length → σ i < σ j
  node : ∀ (i : ℕ) (r : MeshRow K), rows[i]? = some r → ∃ r', rows'[σ i]? = some r' ∧ r'.fiber = r.fiber ∧ r'.s = r.s

/-- The displacements and rotations `u` of the finer mesh at the nodes of the coarser one. -/
def restrictTo (σ : ℕ → ℕ) (u : ℕ → K) (r : ℕ) : K := u (2 * σ (r / 2) + r % 2)

/-- A beam of length `l` whose ends are moved as a solid. -/
def SolidMotion [Field K] (l ui ti uj tj : K) : Prop := ti = tj ∧ uj - ui = l * ti

/-- The nodes found in the finer mesh have there the same heights and the same connections. -/
structure SameContacts [Field K] [LinearOrder K] (rows rows' : List (MeshRow K)) (σ : ℕ → ℕ) : Prop where
  height : ∀ i, i < rows.length → nodeHeight rows' (σ i) = nodeHeight rows i
  pair : ∀ i j, IsPair rows i j → IsPair rows' (σ i) (σ j)

/-- The fibers of `mat` are found among those of `mat'` (fiber `k` there has the number `τ k`), and the nodes `rows` among the nodes
`rows'`, in the same order: `σ i` is on the same fiber, at the same abscissa as `i`. -/
structure MoreFibers [Field K] (mat mat' : Mat K) (rows rows' : List (MeshRow K)) (σ : ℕ → ℕ) (τ : Int → Int) : Prop where
  mono : ∀ i j, i < j → j < rows.length → σ i < σ j
  node : ∀ (i : ℕ) (r : MeshRow K), rows[i]? = some r → ∃ r', rows'[σ i]? = some r' ∧ r'.fiber = τ r.fiber ∧ r'.s = r.s ∧
    mat'.fibers[r'.fiber.toNat]? = mat.fibers[r.fiber.toNat]?

end Fibermat.Spec
