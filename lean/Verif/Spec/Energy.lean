import Verif.Spec.Solver
import Mathlib.Order.Bounds.Defs

/-! # Specification of the elastic energy of a mat

The documentation of `stiffness` (`model.py:16-44`) gives the matrix of a beam element of length `l` with section
area `A = (π/4) b h`:

    G A / l / (1 + (G/E) (l/h)²) * [   1        l/2          -1        l/2      ]
                                   [  l/2   l²/3 + (E/G) h²  -l/2  l²/6 - (E/G) h² ]
                                   [  -1       -l/2           1       -l/2      ]
                                   [  l/2   l²/6 - (E/G) h²  -l/2  l²/3 + (E/G) h² ]

The parameter `coupling` multiplies the entries `± l/2`. -/

namespace Fibermat.Spec
variable {K : Type} [Field K] [LinearOrder K]

/-- The fiber of node `i`. -/
def nodeFiber (mat : Mat K) (rows : List (MeshRow K)) (i : ℕ) : Option (Fiber K) :=
  (rows[i]?).bind (fun r => mat.fibers[r.fiber.toNat]?)

/-- Area of the elliptic section of a fiber. -/
def sectionArea (f : Fiber K) : K := npPi / 4 * (f.b * f.h)

/-- `m` is the shortest and `M` the longest distance between successive nodes of the mesh. -/
structure RawBounds (rows : List (MeshRow K)) (m M : K) : Prop where
  least : IsLeast {x | ∃ i, StartsBeam rows i ∧ x = beamLength rows i} m
  greatest : IsGreatest {x | ∃ i, StartsBeam rows i ∧ x = beamLength rows i} M

/-- `L i` is the length given to the beam that starts at node `i`: the distances between nodes, mapped linearly from the interval
`[min m lmin, max M lmax]` to `[lmin, lmax]`, where `m` and `M` are the shortest and longest distance, and replace `lmin` and
`lmax` when these are not given. -/
def BeamLengths (rows : List (MeshRow K)) (lmin lmax : Option K) (L : ℕ → K) : Prop :=
  ∀ m M, RawBounds rows m M → ∀ i, StartsBeam rows i →
    (min m (lmin.getD m) < max M (lmax.getD M) →
      L i = lmin.getD m + (lmax.getD M - lmin.getD m) *
        ((beamLength rows i - min m (lmin.getD m)) / (max M (lmax.getD M) - min m (lmin.getD m)))) ∧
    (min m (lmin.getD m) = max M (lmax.getD M) → L i = lmax.getD M)

/-- The documented matrix of an element of tensile modulus `E`, length `l`, with the factor `c` on the coupling entries. -/
def elementMatrix (f : Fiber K) (E l c : K) : List (List K) :=
  let k := f.G * sectionArea f / l / (1 + f.G / E * (l / f.h) ^ 2)
  let p := c * (l / 2)
  let q := l ^ 2 / 3 + E / f.G * f.h ^ 2
  let r := l ^ 2 / 6 - E / f.G * f.h ^ 2
  [[k * 1, k * p, k * (-1), k * p],
   [k * p, k * q, k * (-p), k * r],
   [k * (-1), k * (-p), k * 1, k * (-p)],
   [k * p, k * r, k * (-p), k * q]]

/-- Components of the displacement vector of an element between nodes `i` and `j`. -/
def elementDofs (i j : ℕ) : List ℕ := [2 * i, 2 * i + 1, 2 * j, 2 * j + 1]

/-- Entry of a matrix given as list of rows. -/
def entry (A : List (List K)) (a b : ℕ) : K := (A.getD a []).getD b 0

/-- Entry `(r, s)` of the assembly of the element matrices of a mat with finite tensile moduli: the sum of the entries of the
elements for these components. -/
noncomputable def assembledEntry (mat : Mat K) (rows : List (MeshRow K)) (c : K) (L : ℕ → K) (r s : ℕ) : K :=
  open Classical in
  ∑ i ∈ Finset.range rows.length, if StartsBeam rows i then
    match nodeFiber mat rows i with
    | none => 0
    | some f => match f.E with
      | none => 0
      | some E => ∑ a ∈ Finset.range 4, ∑ b ∈ Finset.range 4,
        if (elementDofs i (succNode rows i)).getD a 0 = r ∧ (elementDofs i (succNode rows i)).getD b 0 = s
        then entry (elementMatrix f E (L i) c) a b else 0
  else 0

/-- Transverse stiffness of a beam of length `l`: shear (stiffness `G A / l`) and bending (stiffness `E A h² / l³`) act in
series; a fiber of infinite tensile modulus only shears. -/
def transverse (f : Fiber K) (l : K) : K :=
  match f.E with
  | none => (l / (f.G * sectionArea f))⁻¹
  | some E => (l / (f.G * sectionArea f) + l ^ 3 / (E * sectionArea f * f.h ^ 2))⁻¹

/-- Twice the elastic energy of a beam of length `l` whose ends are displaced by `ui`, `uj` and rotated by `ti`, `tj`.  (For a
fiber of infinite tensile modulus, the bending term is left out: rotations are then zero.) -/
def elementEnergy (f : Fiber K) (l c ui ti uj tj : K) : K :=
  transverse f l * ((ui - uj) ^ 2 + c * l * (ui - uj) * (ti + tj) + l ^ 2 / 4 * (ti + tj) ^ 2 +
    (l ^ 2 / 12 + (match f.E with | none => 0 | some E => E / f.G * f.h ^ 2)) * (ti - tj) ^ 2)

/-- Twice the elastic energy of the mat with displacements `u`: sum over the beams. -/
noncomputable def elasticEnergy (mat : Mat K) (rows : List (MeshRow K)) (c : K) (L u : ℕ → K) : K :=
  open Classical in
  ∑ i ∈ Finset.range rows.length, if StartsBeam rows i then
    match nodeFiber mat rows i with
    | none => 0
    | some f => elementEnergy f (L i) c (u (2 * i)) (u (2 * i + 1)) (u (2 * succNode rows i)) (u (2 * succNode rows i + 1))
  else 0

/-- Vertical force exerted on node `i` by the contacts: minus component `2 i` of `Cᵀ f`. -/
def contactForce (C : Coo K) (f : ℕ → K) (i : ℕ) : K := - ∑ j ∈ Finset.range C.nrows, C.get j (2 * i) * f j

/-- Total of the forces of the rows `j` of the constraints with `j % 3 = d`: the floor (`d = 0`), the contacts between fibers
(`d = 1`), the upper plate (`d = 2`). -/
def totalForce (C : Coo K) (f : ℕ → K) (d : ℕ) : K := ∑ j ∈ Finset.range C.nrows, if j % 3 = d then f j else 0

/-- The rotations of the nodes of fibers with infinite tensile modulus are zero. -/
def Guided (mat : Mat K) (rows : List (MeshRow K)) (v : ℕ → K) : Prop :=
  ∀ i f, nodeFiber mat rows i = some f → f.E = ⊤ → OnBeam rows i → v (2 * i + 1) = 0

/-- Some motion keeps the closed gaps closed and costs no elastic energy. -/
def Floating (mat : Mat K) (rows : List (MeshRow K)) (c : K) (L : ℕ → K) (tol Z : K) (u : ℕ → K) : Prop :=
  ∃ v : ℕ → K, (∃ i, i < rows.length ∧ (v (2 * i) ≠ 0 ∨ (OnBeam rows i ∧ v (2 * i + 1) ≠ 0))) ∧ Guided mat rows v ∧
    elasticEnergy mat rows c L v = 0 ∧ KeepsContacts mat rows tol Z u v

/-- The motion `v`, per unit descent of the upper plate, follows the plates where they touch the nodes and keeps the closed gaps
between nodes closed. -/
def Follows (mat : Mat K) (rows : List (MeshRow K)) (tol Z : K) (u v : ℕ → K) : Prop :=
  ∀ i j, IsPair rows i j → (floorGap mat rows u i ≤ tol → v (2 * i) = 0) ∧
    (i ≠ j → pairGap mat rows u i j ≤ tol → v (2 * i) = v (2 * j)) ∧ (roofGap mat rows Z u j ≤ tol → v (2 * j) = 1)

end Fibermat.Spec
