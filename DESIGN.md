# Formal model of fibermat in Lean 4 — design

Source modelled: `/repo/src/fibermat/{mat,net,mesh,model,solver,interpolation,render,widgets}.py`.
Lean project: `/verif/lean` (`lake build`). Everything under `Verif/`.

## Layout

| directory | content |
|---|---|
| `Verif/Model/` | the model: small total computable functions mirroring the Python code branch by branch; each definition cites file and lines |
| `Verif/Spec/`  | the independent specification: short definitions a reader needs to read the theorems (no reference to model helpers) |
| `Verif/Lemmas/`| helper lemmas (not claims) |
| `Verif/Props/` | the property theorems `Cxx_…`, each with a non-vacuity `example` on concrete rational data |

## Number model

* The model is generic in an ordered field `K` (`Field`, `LinearOrder`, `IsStrictOrderedRing`). It is
  executable at `K = ℚ` (used in the `example`s) and can be read at `K = ℝ`. **Rounding is modelled for `Mat`, `Net`, `Stack`, `stiffness`, `constraint`, `solve`, `Interpolate` and the fields of `vtk_mesh`**
  (`Verif/Model/Rounded.lean`, `Verif/Model/RoundedNet.lean`, `Verif/Model/RoundedAssembly.lean`, `Verif/Model/RoundedMat.lean`, `Verif/Model/RoundedInterp.lean`, `Verif/Model/RoundedRender.lean`, C89, C91-C95, C126, standard model of
  floating-point arithmetic without overflow and underflow); elsewhere
  `+ - * /` and comparisons are exact. Parts that only compare numbers (`Mesh.init`, `Mesh.check`,
  `Net.check`, the threshold filter, the row sort) need only a linear order, so the theorems
  apply to IEEE doubles without NaN as they are.
* Special values that matter to the code's control flow are modelled: `Cell K` = finite | +inf | -inf | NaN
  with IEEE comparison and arithmetic rules. It is used for `Mat.check` (NaN rejection), for infinite tensile
  moduli in `stiffness`, for infinite bounds in `constraint`, and in the solver (where `0*inf = NaN` decides
  which rows are active).
* Euclidean norms in comparisons are modelled by squares (`sqrt a < m  ⟺  0 < m ∧ a < m²`, etc.).
* `np.pi` is the rational value of the double.
* `cos`, `sin`: parameters with an assumed bound on `|cos² + sin² - 1|` (instantiated at ℝ by Mathlib's).

## External functions = parameters with an assumed contract (trusted)

| code | model |
|---|---|
| numpy global random generator | abstract state machine `(seed, next)`, `next` in `[0,1)`; seeds outside `0..2^32-1` raise ValueError. The contract is proved for `numpyRng`, the Mersenne Twister written from numpy's published source (C101), so it is a hypothesis only for generality |
| `scipy.optimize.linprog` | any function returning an optimum of the LP it is given whenever one exists |
| `solve` argument (`spsolve`) of the packing solver | an arbitrary function of the reduced matrix and right-hand side; `none` stands for an answer with NaN (singular factorisation). Contracts, only where stated: `ExactLin` (an answer solves the system), `GoodLin` (also: answers whenever the solution is unique) |
| `sklearn KDTree.query` | any nearest neighbour |
| `pv.CylinderStructured` | a list of points in the box of side 1 around the origin |
| `pv.translate` | `pvTranslate`, written from the published source of pyvista: rotation by the matrix of the direction, then translation unless the centre is close to 0 (`np.allclose`) |
| square root in `np.linalg.norm` | any function with `root (b * b) = abs b` |
| pandas `sort_values` (two keys) | stable sort (lexsort) |
| `np.argsort(axis=1)` on two entries | stable |
| scipy `interp1d` | its documented algorithm (searchsorted + segment formula), 2 or more points |
| ipywidgets | a cell holding a value, bounded widgets clamp |

## Trusted base

* Lean's kernel.
* Axioms: `propext`, `Classical.choice`, `Quot.sound` and nothing else. 152 of the first 169 claim theorems use all three, 16 use
  `propext` and `Quot.sound`, `C60_wrap` uses `propext` alone. The list per theorem is in `AXIOMS.md` (output of
  `#print axioms` for every theorem of `MANIFEST.json`).
* No own axioms, no `sorry`/`admit`, no `native_decide`, no `bv_decide`. Concrete `example`s are evaluated by `decide +kernel`,
  i.e. by the kernel.
* The contracts of the table above (they appear as hypotheses of the theorems, not as axioms).
* The reading of Python, numpy, pandas and scipy recorded in the comments of `Verif/Model`. As evidence for this reading,
  `Props/RepoTests.lean` replays the tables of `test/test_mat.py`, `test_net.py`, `test_mesh.py` and the three matrices printed in
  the docstring of `stiffness` against the model; all agree. `Props/Replay.lean` starts from the seed: `Mat(10)` of
  `test_mat.py` is reproduced in the kernel, and the outputs shown in `jupyter-notebook.ipynb` for a hundred fibers (rows of the mat, the
  867 rows of the net, the 1068 rows of the stacked mesh, with positions, neighbours and partners of the nodes shown) are reproduced
  by evaluation (`#guard`, a test, not a theorem). The solver of the model, transcribed to doubles (`evidence/replay.c`), stops
  after 80 iterations at packing 3.0 on that mesh, as printed in cell 40. (The code itself could not be run in this sandbox.)

## What is modelled

| code | Lean | remarks |
|---|---|---|
| `Mat.check`, `Net.check`, `Mesh.check`, `Stack.check` (`mat.py:254-`, `net.py:296-`, `615-`, `mesh.py:223-`) | `matCheck`, `netCheck`, `meshCheck` on raw frames | messages collapsed to the exception class, the order of the conditions is kept; dtype checks and missing columns are represented by flags of the frame |
| `Mat.init`, `Mat.__init__` | `matInit`, `matNew` | default shape arguments only as parameters; abstract generator |
| `Net.init` | `netInit`, `netNew` | all stages: periodic copies, triangular enumeration or user pairs, distance filter, normal equations, filter, sort, dedup |
| `Stack.constraint`, `Stack.solve`, `Stack.init` | `stackConstraint`, `stackSolve`, `stackNew` | linprog as oracle |
| `Mesh.init` | `meshInit`, `meshNew` | |
| `attrs` getters/setters, `copy` | `AttrsHeap.lean` | dictionaries as heap objects, aliasing is explicit |
| `stiffness`, `constraint` | `stiffness`, `constraint` | COO triplets summed on read, infinite and NaN coefficients with IEEE rules |
| `solve` | `assemble`, `Sys.step`, `Sys.loop`, `solve` | one Lean step per pass through the `while` loop; the four ways of leaving the loop are the constructors of `Stop` |
| `Mat.init`, `Mat.check`, `main.py` with rounding | `matInitR`, `matCheckR`, `matNewR`, `mainProgramR` | `cos`, `sin`, `sqrt` are the computed functions, given from outside; the picture of the system is left out; the later checks of the mat are exact (same outcome: `C94_checks`) |
| the loop of `solve` with rounding (`solver.py:125-189`) | `Sys.stepR`, `Sys.loopR`, `Sys.runR`, `normGt` | sparse products accumulated in the order of the columns; the sign of the column sums is exact; `tooBig` is any test with the contract `NormTest` |
| `Net`, `Stack`, `stiffness`, `constraint`, `solve` with rounding | `netNewR`, `stackNewR`, `stiffnessR`, `constraintR`, `solveR` | norm, linear algebra and linear programming are functions given from outside |
| `np.linalg.norm`, `det`, `solve` in `net.py:208-230` | `normCloser`, `lapack` | sums from left to right; elimination as in the reference `getrf`/`getrs` (reciprocal of the pivot), other LAPACK libraries may differ; the computed determinant is zero exactly when a pivot is |
| calls in `main.py:72-97` | `chain` | net, stack, mesh, solver one after the other |
| `main.py:104-107` | `exportFields` | the arrays handed to `vtk_mesh` |
| `main.py:71-97` with the mat and the picture of the system | `mainProgram` | `reverse_cuthill_mckee` is any function giving a permutation (`Numbers`) |
| `mesh.z += u(1)[::2]` (`solver.py:232`, docs) | `Mesh.deform` | |
| main block of `net.py` (loads, colours, contacts) | `loadPicture` | any mat instead of `Mat(10)`; `linprog` returns an optimum and its marginals (oracle `GoodLinprogSol`: optimality conditions); colour as a number in [0, 1]; axes, box and colour bar not modelled |
| loops of the main blocks of `mesh.py`, `solver.py` that draw a mesh | `drawMesh` | lines as pairs of points, colours as numbers modulo 10; axes not modelled |
| main block of `model.py`, the three printed matrices | `elementDemo` | any arguments of `Mat`; printing itself not modelled |
| `scripts/logo.py:3-46` | `logoPoints`, `logoMat`, `logoProgram` | any seed and number of points; `solve` instead of the name `solver` |
| `jupyter-notebook.ipynb` cells 5, 7, 28, 40; calls with `**kwargs` | `settingsKwargs`, `matKwargs`, `matKw`, `netKw`, `stackKw`, `solveKw`, `notebook` | keywords with numbers, booleans or None; infinite shear modulus, threshold, lmin, lmax and non-numeric values are `unmodelled`; pictures not modelled |
| `Interpolate` | `interpolate` | linear and previous, `size` given or not |
| `Interpolate` with `kind='cubic'` (`interpolation.py:43-89`) | `interpolateCubic` | scipy's B-spline coefficients replaced by elimination in the curvatures: same function by `C110_unique`; exact arithmetic |
| `Interpolate` of integers and booleans (`interpolation.py:43-89`) | `interpolateInt`, `interpolateBool` | `astype` of the exact value; integers without overflow |
| `Interpolate` with rounding, infinities and NaN | `interpolateR` | linear and previous; formulas of scipy's `_call_linear` (rows), `np.interp` (vectors), `_call_previousnext`; one data point or one sample included, `size = 0` not |
| `inteprolation_field`, `CubicHermiteSpline` (`render.py:219-257`) | `nodeCoord`, `hermite`, `hermiteDeriv`, `hermiteDeriv2` | |
| `vtk_fiber`, `vtk_mat`, `vtk_mesh` (`render.py:14-257`) | `vtkFiber`, `vtkMat`, `vtkMesh` | points and the values attached to them; `index` given |
| periodic copies in `vtk_mesh` (`render.py:259-274`) | `copies`, `clipBox`, `periodicPicture` | on points; the points created by cutting a cell are left out |
| `plot_system` (`model.py:303-400`) | `plotSystem` | the matrices handed to `ax.spy` and the printed number |
| `PipButton`, `MatplotlibButton` (`/repo/widgets.py`) | `pipNew`, `PipButton.click`, `mplNew`, `MplButton.click` | shell and IPython from outside; the HTML around the table is left out |
| `Settings` | `settingsNew`, `setItem`, `getItem`, `callSettings`, `toggle` | widgets as cells, sliders clamp |
| `Settings` with exceptions, `disabled` handlers (`widgets.py:71-99`), clicks and edits | `Live`, `liveNew`, `Live.setItem`, `Live.call`, `Live.act` | an edit by hand is an assignment to the widget, impossible when grey |

## What is not modelled

* Rounding of floating point numbers in the positions of the points, the curvature and the copies of the pictures and exports,
  overflow, underflow, memory, running time, complex numbers (`np.real` is the identity).
* Drawing (axes, colours and legends, the rest of the `__main__` blocks), progress bars, warnings.
* The cells of VTK grids (how the points are joined) and how clipping cuts them.
* `Interpolate` with `size = 0`; integers, booleans and `kind='cubic'` are modelled without rounding (`interpolateInt`, `interpolateBool`, `interpolateCubic`).
* pandas behaviour beyond the operations listed in the comments (e.g. user edits of indices after construction: the `check`
  theorems speak about arbitrary frames, the `solve` theorems about frames with labels `0..n-1`).

## Simplifications that matter when reading the theorems

* Norm comparisons by squares. In `Mat.check` the tolerance of `np.allclose` is `normTol`; theorem `C01_unit_iff_sqrt` proves the
  square form equivalent to the form with square roots over ℝ.
* A linear solver answering NaN is `none`; scipy then gives `err = nan`, no positive rate exists, `min` of an empty sequence raises and the loop ends.
  That is what `Sys.step` does (`Stop.blocked`).
* `Stop.unmodelled` marks a step with infinite or NaN data for which the model does not follow numpy; C61 proves that it is never
  reached for assembled systems and exact solvers.
* `mask` of record 0 is computed without the column filter (as in the code), so masks are monotone only from record 1 on (C44).

## Where the code and its documentation disagree

These are proved as negations with concrete witnesses, or are hypotheses of the theorems:

* `f ≥ 0` (documented KKT condition, `solver.py:24`) is not guaranteed: `C71_pulling` is an accepted mat and mesh whose run has a
  negative contact force. The recorded state is a constrained minimum exactly when no contact pulls (C71). With infinite tensile moduli (the
  default) the floor and the plate cannot pull, but contacts between two fibers still can (C127, `C127_pulls`, `C127_pulls_chain`).
* `u ≤ 0` (`solver.py:23`) is not guaranteed with coupling: `C76_lifts` (three crossing fibers, coupling 0.99). It holds without
  coupling or with infinite tensile moduli for supported states (`C76_downward`), in particular for planar stacked mats
  (`C78_downward`).
* `threshold` of `Stack` (`net.py:414`, "threshold distance value for proximity detection") bounds the distance between the axes of
  the fibers, not the gap between them: a threshold below the thickness drops contacts between touching fibers, and the compression
  then starts with unsupported fibers (`C78_threshold`).
* The length bounds `lmin`, `lmax` rescale the lengths used in the stiffness, one beam differently from another, while the nodes keep
  their positions: the tilt of a straight fiber is then no longer free of elastic energy, and with the default coupling longer beams
  can make the mat stiffer (`C117_coupled`).
* A threshold that keeps all touching fibers can still drop connections that close later in the compression; the fibers then go
  through each other (`C116_pierced`).  `main.py` uses a threshold of 10 for thickness 0.5, `scripts/square.py` 1 for thickness 0.05:
  penetration is then excluded by C116 only while the plate has moved by at most 9.5 and 0.95.
* `stiffness` of a mesh with coincident nodes and no `lmin` yields infinite and NaN entries; hence `PositiveLengths` in the theorems.
* The result depends on the sign of the direction of a fiber when two of its crossings coincide (three fibers through one point): their
  order along the fiber is then the order of the labels (`C104_concurrent`). Otherwise it does not (C104).
* An empty mesh, and a non-empty mesh without beams, raise `ValueError` from `np.min` (C36), although `Mat()`, `Net()`, `Mesh()` accept emptiness.
* A net without end rows passes `Net.check`, but `Mesh(net)` raises (`noEndNet` in the examples).
* The net filter keeps one connection per pair even when two periodic images cross (C11 says what is kept; which one depends on the numbers of the two fibers, also for fibers shorter than the box: `C109_periodic`). With fibers longer than
  half the box one crossing may be lost (`C79_lost`), and which one depends on the origin of the box (`C80_long`). The default
  arguments of `Mat` (length 25, size 50) are exactly at the limit.
* `tol` (default 1e-6) is compared with gaps, so it is an absolute length: a description in another unit gives the same run only when
  `tol` is converted (C81); with the same number the run can change completely (`C81_tol`).
* C10/C11 (net = crossing fibers) need planar fibers with orientation of norm at most 1 (`Mat.check` allows a deviation of 1e-5)
  and, in the periodic case, lengths at most the box size.
* `Stack` rebuilds its net without the user's `pairs`; for an empty mat it returns the net unfiltered. Non-penetration of the
  stack (C17) is for planar fibers.
* The element matrix called Timoshenko uses `(l/h)² G/E` where the textbook shear parameter has another constant factor (12); C65/C66
  state the formula actually used, which is also the documented one.
* The documented area `(π/4) b h` is that of an ellipse, but the bending term `E h² (π/4) b h` is 4/3 of `12 E I` of this ellipse; it would
  be right for `I = A h² / 12`, as of a rectangle (`C139_compliance`, `C139_stiffness`).
  Together with the constant of C115 the matrix is up to 16 times stiffer than elliptic Timoshenko beams (short beams in bending, C140);
  the factor 16 is the limit of finer and finer meshes, which do not converge to the elliptic beam (C142);
  every node added to a fiber, even without contact, stiffens it (C143),
  and raises the force of the first step (C144); so does a fiber that touches nothing but
  crosses a bent one (C145).
* With `E = ∞` the product `K @ u` is NaN in the rotation rows (`0 * inf`), which is what removes these rows from the solver's active set (C49).
* `tol` is compared both with gaps (a length) and with force residuals.
* `Settings(shear=inf)` reads back the finite default; a failing assignment has already moved the switch: after
  `settings['tensile'] = None` raises, the modulus is no longer infinite (`C120_not_unchanged`).
* vtk_mesh: rotations are passed to the spline as derivatives with respect to the node number, not to the abscissa (C57 states what is computed;
  C83: deflection, rotation in rad and curvature in 1/mm are right only for beams of length 1, `C83_wrong`);
  with duplicate abscissae a point can get an infinite node coordinate, and with almost coincident ones a finite one far outside the fiber,
  where the spline is extrapolated to huge values (`C126_close`).
* `vtk_mesh` documents `kwargs` as passed to `vtk_fiber` (`render.py:188-189`), but `render.py:238` calls `vtk_mat` without them, so the resolution
  of the cylinders cannot be chosen there (read from the text).
* A fiber whose centre is within 1e-8 of the origin is drawn exactly at the origin (`pv.translate`; `Spec.Centre` in C90).
* `H(t)` returned by `solve` is NaN, not infinite, in the rows without bound (`C95_bounds`), because scipy computes `(inf - inf) / dt * (t - t0) + inf`;
  so `C @ u(1) <= H(1)` is False there although the constraint holds. A run without any step returns `u(0) = nan` (`C95_single`), with
  `interp_size=2` NaN at all times (`C95_single_resampled`). `Z(t)` is a vector and goes through `np.interp`, which has neither effect.
  (scipy's source for `interp1d` is an assumption here: index clipped to `1 .. n-1`, `lo = hi - 1`, so `-1` for one point.)
* The loads shown by `net.py:783-840` are presented as a property of the stacked fibers, but depend on the solver (`C96_not_unique`): the
  sensitivities of the linear program are not unique as soon as a fiber lies on two others. Loads are negative (marginals of `<=` rows of a
  minimisation), so the most loaded fiber is at the bottom of the scale. For an empty mat the block fails with AttributeError before the
  `if len(mat)` that was meant for this case (`C96_empty`).
* The drawings of `mesh.py` and `solver.py` show a connection made through a side of the periodic box as a line across the whole box, and do
  not show a connection between fibers at equal heights (examples of C97).
* Cell 24 of the notebook calls `Stack(mat, net, thresold=None)`; all the constructors swallow unknown keywords (`**kwargs`), so such
  misspellings are not reported (`C100_misspelled`). The notebook fails with ValueError if the cell that writes the parameters is skipped,
  the number of fibers being 0 (C100). `Settings` has no entry for `psi` nor for `errtol`.
* `plot_system` finds contacts by `np.isclose` (relative to the bound), not by `tol` like the solver: `C85_mismatch`.
* `model.py:16-24` announces a Timoshenko beam law; the bending term `(E/G) h²` of the element is twelve times that of the Timoshenko
  beam with the same displacement entries (C115).  Consequences: the stiffness in bending falls when the shear modulus grows (C114,
  C115), and depends on nodes of the mesh that touch nothing (C115).
* `scripts/square.py` and `scripts/logo.py` call `solver(...)`; with `from fibermat import *` this name is the submodule, so the
  call raises `TypeError` (read from the text). The model of `logo.py` (C99) calls `solve`; `square.py` is the chain of `main.py` with other arguments (C87).
* `np.linalg.det(UUt)` is compared exactly with zero (`net.py:228`). For a fiber with itself the computed determinant is zero when the norm of the
  direction is within about 3e-9 of one (`C93_ends`), but `Mat.check` accepts 1e-5: for some directions in between the ends of the
  fibers are lost and parallel fibers are connected (`C93_lost`; elimination of the reference LAPACK, other libraries have other directions).
  Directions made by `Mat.init` (cosine and sine) are fine; rounded directions from a file may not be.
* The field called force is positive downwards, opposite to the axis of the displacements (C88).
* Periodic pictures show nothing of a point further than two periods from the centre (`C84_long`).
* A restart from the deformed mesh keeps the geometry but not the contact forces: they start again from zero, and so does the packing. Otherwise the
  restarted run is the rest of the first one (C131), because the force rows of a recorded state are balanced exactly (exact solver).

## Tests of the theorems against wrong programs

`seeded/LOG.jsonl` lists the edits of the model that were tried in a scratch copy. The fields separate what was seen from what was
inferred:

* `failed_declarations`: declarations the build reported as failing. The build stops at the modules importing them, so later modules
  were mostly not compiled.
* `theorems_failed`: property theorems among those, that is, whose own proof was seen to fail.
* `theorems_depending_on_failed`, `other_properties_depending_on_failed`: read off the dependency graph. Their proofs use a
  declaration that failed, so they no longer build as written; this does not show that their statements become false.
* `claims_broken`: for edits made by hand, the claims the edit was meant to break. It is empty for automatic edits, whose claims were
  not examined one by one.

A failing lemma shows only that the proof as written notices the edit. So statements were also read against the hand-made edits, and
`theorems_tightened` records the changes made. Survivors that are equivalent programs are listed as such.

## Plan per property

| id | modelled | proof |
|---|---|---|
| C01, C02 | `Mat.check` on raw frames with `Cell` values | case split over the branches; iff with a record-style spec |
| C03–C05 | `Mat.init` with an abstract generator and `cos`/`sin` | induction over draws; algebra for the norms |
| C06–C08 | `Net.init` (periodic copies, pair enumeration, pre-filter, normal equations, filter, sort, dedup) | list invariants through each stage |
| C09 | 2×2 normal equations | orthogonality ⇒ minimality (algebra) |
| C10, C11 | whole `Net.init` | soundness + completeness of each filter; lattice case analysis |
| C12 | `Net.init` | stage-by-stage simulation |
| C13 | `Net.init` with `pairs` | symmetric row function; sorted+dedup lists equal when sets equal |
| C14, C28 | `Net.check`, `Mesh.check` | as C01 |
| C15, C16, C20, C22 | `Stack.constraint`, `Stack.solve` | sweep = least feasible point (induction over rows); positive weights ⇒ unique optimum |
| C17–C19, C21 | `Stack.init` | C12 + LP facts |
| C23–C26 | `Mesh.init` | permutation algebra on stable sort, inverse permutation, grouped roll |
| C27, C29 | `Mesh.init`+`Mesh.check` on net rows | C07/C08 give first/last node |
| C30–C35 | `stiffness` as COO triplets | per-element algebra summed over the assembly |
| C36 | all three | evaluation of the error branch |
| C37–C39 | `constraint` | row-by-row evaluation, composition with C17 |
| C40–C50 | `solve` loop as a step function over states | invariants by induction over steps |
| C51–C55 | `Interpolate` | segment algebra; weights explicit |
| C56, C57 | `inteprolation_field`, `CubicHermiteSpline` | order argument; polynomial identities |
| C58, C59 | `Settings` as a state machine | refinement to a record of last writes |
| C60 | attribute dictionaries in a heap | frame property over heaps |
| C61–C64 | the ways to leave the loop | strict energy of non-rigid motions ⇒ regular system; jammed ⇒ unsolvable system; step bound C45 |
| C65, C66 | element matrices | independent element spec in `Spec/Energy`, summation over beams |
| C67–C71 | recorded states | virtual work with the symmetric table; convexity |
| C72–C74 | reduced systems | kernel of the bordered matrix = jammed or floating motions |
| C75 | pairs of records, `Mesh.deform` | closed gaps have rate zero; assembly depends on `z` only through the bounds |
| C76 | one step | variation of the energy along the difference of motions; truncation argument `cut` |
| C77 | records of a run | closed gaps keep their values (C75) |
| C78 | composition of all modules | C06, C15, C20, C27, C38 for the stack; induction on fiber labels along the supports; C73, C74, C76 |
| C79 | periodic net | differences of two crossings are an integer vector shorter than 1 |
| C80 | `chain` (`main.py:72-97`) on two mats | equivariance of the crossings (C11, C79) and of the pair test; heights by the uniqueness in C15; assembly reads only `fiber, s, z, beam, constraint` |
| C81 | `chain` (`main.py:72-97`) and `solve` in two systems of units | row and column factors of the stiffness and contact matrices; the exact solver's answer is unique up to the regularised directions, so the records scale; net, stack and mesh by equivariance and the uniqueness in C15 |
| C82 | `chain` (`main.py:72-97`) | non-penetration along a connection bounds the plate from below; a jammed connection bounds it from above (C78); kept connections by the support of the stack (C20) |
| C83 | `CubicHermiteSpline` in `vtk_mesh` (`render.py:240-252`) | coefficients of a polynomial of degree at most 3 from its end values and slopes |
| C84 | periodic copies and clipping (`render.py:259-274`) | an integer translate inside the square is a translate by -1, 0 or 1 |
| C85 | `plot_system` (`model.py:303-400`) | the masks partition the rows; contact blocks are zero; rows of the constraints as gaps (C37) |
| C86 | `Settings.__init__` (`widgets.py:27-126`) | compared with a write (C58) |
| C87 | `mainProgram` (`main.py:71-97`) | C03 gives a valid mat, C78 and C82 the chain, C42 and C44 the run; the order of the unknowns is any permutation |
| C88 | `exportFields` (`main.py:104-107`), `forceAt` (`render.py:253-257`) | entries of the contact rows; interpolation is a mean of the records (C52); balance of each fiber (C67) |
| C89 | `Sys.stepR`, `Sys.runR` (`solver.py:125-189` with every operation rounded) | per connection: error of the sparse product (at most two terms), of the ratio and of the updates; budget `E0 + η (H0 - H) + 321 k u B` by induction on the steps; `Floats.exact` gives back `Sys.run` |
| C90 | `vtkFiber`, `vtkMat`, `vtkMesh` (`render.py:14-257`) | the matrix of `pv.translate` is orthonormal (cases of the auxiliary vector); lists of equal length flattened; nodes of a fiber are consecutive rows, C56 locates the point; a cubic without slopes is a convex combination of its end values |
| C91 | `stiffnessR`, `constraintR`, `assembleR`, `solveR`, `stackLpR`, `stackNewR` (`Verif/Model/RoundedAssembly.lean`) | finite entries stay finite and infinite ones infinite (all that C89 needs of the stiffness matrix); error of each bound at most `6 u Z`; a scaled exact solution is feasible for the rounded program; C89 with an initial overlap (`gaps_from`) |
| C92 | `netNewR` (`Verif/Model/RoundedNet.lean`), norm and linear algebra given from outside | the candidates of a pair of equal labels are half lengths, which makes the network `Ended`; `Mesh` of an `Ended` network as in C27; errors of copies through the box sides |
| C93 | `lapack`, `normCloser`, `numpyArith` (`Verif/Model/RoundedNet.lean`) | `d * fl (1 / d)` rounds to one for `d` close to one (cases `d = 1 + 2 j e`, `1 - k e`, `k` even or odd, ties to even); forward error of the elimination, step by step (`elim_near`) |
| C94 | `matInitR`, `matCheckR`, `matNewR`, `mainProgramR` (`Verif/Model/RoundedMat.lean`) | the errors on `u, v, w` bound the norm, which gives the ends of the fibers by C93; C91 for the chain; one of the beams is at least the `n`-th part of a fiber (counting of nodes), so that `lmin=0.01` is below the longest beam |
| C95 | `interpolateR`, `resultX`, `resultQ`, `resultZ`, `Mesh.deformR` (`Verif/Model/RoundedInterp.lean`) | abscissae stay increasing under rounding; one segment costs 14 u; same weights for all components, so gaps are mixed with the same weights; infinities stay in the history (induction on the loop) |
| C96 | `loadPicture`, `loadsOf`, `colorOf` (`Verif/Model/Loads.lean`) | reduced costs of the program are the pushes of the floor, sensitivities the contact forces, so optimality conditions = balance; existence: the weight is passed down one support per fiber (C20), by induction on the labels; bounds: sum of the balances of the later fibers |
| C97 | `drawMesh` (`Verif/Model/Draw.lean`) | nodes are the ends of the connections, each once (C26), so going through nodes is going through connections; cyclic successor (C25) and order (C24); non-penetration of the records (C78) for strict heights |
| C98 | `elementDemo` (`Verif/Model/Element.lean`) | the network of one fiber has one row (C06, C07), the mesh is computed; coefficients as numbers, then inequalities in `p = Ψ²` |
| C99 | `logoPoints`, `logoMat`, `logoProgram` (`Verif/Model/Logo.lean`) | induction on the points with the floor of the coordinates; facts on the picture by kernel computation; then C78, C82 for the chain |
| C100 | `notebookCell`, `notebook` (`Verif/Model/Notebook.lean`) | the keywords read by each function are those of the settings (C58, C86), then equality with `mainProgram` (C87) for the identity numbering |
| C101 | `mtSeed`, `mtGen`, `mtNext`, `numpyRng` (`Verif/Model/Mersenne.lean`) | invariant of the in-place loop (entries below `i` are of the next block), independent recurrence on naturals; bits to arithmetic by `testBit`; doubles by `binary_exact` |
| C102 | `loadPicture`, `stackSysOf` (`Verif/Model/Loads.lean`, `Verif/Model/Stack.lean`) | two loaded contacts under a fiber: send a unit of force from both down to the floor through loaded contacts (strong induction on the label), their difference shifts the forces both ways; converse and uniqueness: downward induction on the upper label. In the notebook, 94 of 100 fibers are above the floor and 94 forces are non-zero |
| C103 | `netNew` with `pairs` (`Verif/Model/Net.lean`) | every pair of copies gives either the pair of ends of a fiber or a crossing of images; crossings of short fibers are unique (C79), so labels determine the connection and sorting + deduplication depends on the set only. False for longer fibers: `C103_order_long` |
| C104 | the whole chain (`Spec/Direction.lean`: reversed mat, reversed net, same mesh, same state) | net and stack: pair by pair; mesh: nodes identified by (fiber, partner), beams by consecutive abscissae; the linear system of the reversed mesh is the first one renumbered with some signs (`Renamed`), and every quantity of the solver follows the renumbering (`Lemmas/RenameSolver.lean`; the step direction is unique where it matters). False when crossings of a fiber coincide: `C104_concurrent` |
| C105 | `Sys.loop`, `solve`, `chain` | induction on the iterations: a step that is made with the stricter options is made with the looser ones; equal prefixes |
| C106 | `interpolateInt`, `interpolateBool` | truncation towards zero is monotone and fixes integers; weights of C52 |
| C107 | `netNew`, `stackNew`, `meshNew`, `solve`, `chain` | candidates of a pair of labels depend only on the two fibers; lowest heights are unique; nodes matched through the rows of the net; the run of a renamed system (C104) |
| C108 | `mplNew`, `MplButton.click`, `pipNew`, `PipButton.click` | induction on the clicks; splitting of lines |
| C109 | `netNew`, `meshNew`, `solve` (`Spec/Mirror.lean`) | the run seen from a frame moving with the upper plate (`Lemmas/GaugeSolver.lean`: a uniform motion of all nodes costs no energy), then renumbered with opposite signs. False for the net of a periodic box: `C109_periodic` |
| C110 | `interpolateCubic` (`Model/Cubic.lean`) | curvatures at the points solve a tridiagonal system (elimination: factors stay below 1); uniqueness: a solution of the homogeneous system grows from one end to the other, so it vanishes; spec with Mathlib polynomials (`Spec/Cubic.lean`) |
| C111 | whole chain | the mat moved by the symmetry is the same mat with other numbers and directions; `C80`, `C104` and `C107` compare the three runs, and the last one is the first one (the run is determined, `C74`) |
| C112 | net, stack | the first candidate kept for two labels is found among the copies that can meet, and those are made whatever the longest length (`Lemmas/Kept.lean`); heights by comparison of the lowest solutions |
| C113 | net, stack, mesh, model, solver | covering of the larger net, mesh and system by copies (`Spec/Cover.lean`, `Lemmas/Cover*.lean`): heights by comparison of the lowest solutions, the run by lifting the unique step of the cell to a step of the larger system |
| C114 | model, solver | Rayleigh comparison: the motion of a step has least energy (C76); the motion of the stiffer mat with rotations reduced by the ratio of the couplings is a competitor (`Props/Stiffer.lean`); counterexample for the shear modulus in `Props/StifferExamples.lean` |
| C115 | model | energy of the element as Timoshenko energy plus an explicit excess; division of a Timoshenko beam by three squares over compliances (`Spec/Stiffer.lean`, `Props/Timoshenko.lean`) |
| C116 | net (Stack), model, solver | heights of the nodes are those of the fibers (C18, C26), dropped rows by C19, motion by C78; end of the compression of the concrete mat by C82 (`Spec/Dropped.lean`, `Props/Dropped.lean`, `Props/DroppedExamples.lean`) |
| C117 | model, solver | lengths by C65, the energy of an element is antitone in its length when the coupling is 0, then as C114 (`Props/Longer.lean`, `Props/LongerExamples.lean`) |
| C118 | mat, net, mesh | the draws are an ideal sequence of independent uniform reals (`Spec/Chance.lean`), not the numbers of the Mersenne Twister (which C101 models); the crossing of two fibers is a condition on six draws, whose measure for given angles is the area of a parallelogram wrapped on the torus (`Lemmas/Chance.lean`), integrated over the angles; a fiber of random direction crosses a given one with a probability that does not depend on the given one, hence independence (`Props/Chance.lean`, `Props/ChanceLaw.lean`, `Props/ChanceVariance.lean`, `Props/ChanceExamples.lean`).  The angle π is the real number; `np.pi` is slightly smaller, so that for the default arguments the mean is that of the general formula and the variance is only that of the limit |
| C119 | net, stack, mesh, `chain` | the candidate kept for a pair of labels is the first one (stable sort), and the pair of original fibers comes first in `np.triu_indices`; then C22. Inside the box no crossing goes through a side; the rest of the program reads the attribute `periodic` only to see that it is there (`Props/OpenBox.lean`) |
| C120 | `Live` (`Verif/Model/LiveSettings.lean`): `Settings` with the state left by exceptions, the handlers and the user's clicks and edits | agreement with `setItem` (C58), then induction over sessions (`Props/LiveSettings.lean`); the negation is `C120_not_unchanged` |
| C121 | as C118, with the events of several pairs at once | leaf by leaf: given all other fibers, the fiber of a leaf is still uniform, hence joined with probability p (`forest_prob`, `star_prob`); Chebyshev with the variance of C118 (`Props/Neighbours.lean`, `Props/NeighbourNodes.lean`) |
| C122 | stack as in C19/C20, random mat as in C118/C121 | induction on the number of the fiber with the lowest solution and its supports (`C122_pile`); a pile of k + 1 fibers is a forest of k pairs, hence of probability p^k, and a union bound over the sets of k + 1 fibers; a fiber is on the floor exactly when no earlier fiber crosses it, a star event of C121; lower bounds from a pile chosen step by step, whose next fiber crosses the last one with probability p whatever happened before (`Props/Piles.lean`, `Props/Greedy.lean`) |
| C123 | as C121 and C122, for a sequence of arguments (`GrowingMats`) | Poisson limit theorem of Mathlib applied to C121; powers between two exponentials (`pow_tendsto_exp`); Chebyshev with mean and variance of C118 (`Props/LargeMats.lean`) |
| C124 | as C121; nodes by their abscissa (`LinkedIn`, `nodesBetween`), laws written out (`multinomial`, `poisson`) | area of the places where a fiber crosses a segment of a given one, by moving the parallelogram of C118 (`crossIn_fair`); relations of one fiber to the others are independent (`rels_prob`), counted by successive choices (`rel_multi`); a fiber crosses another once at most (`crossIn_apart`); limit of the multinomial law (`multi_tendsto`) |
| C125 | as C118, network of the open box; `GrowingMats` of C123 | two random places of the box differ by a vector of a set `A` of small vectors with a probability between `(1 - c)²` area and area (`difference_bounds`: exchange of integrals and translation); crossings without copies by C10 (`open_connected`); the side of the box tends to infinity (`growing_border`) |
| C126 | `nodeCoordR`, `hermiteR`, `hermiteDerivR`, `distR`, `shrinkR` (`Verif/Model/RoundedRender.lean`); without rounding they are the functions of C56 and C57 (`C126_exact`); the curvature is left out, since it jumps at the nodes | a nearly nearest node is one of the two around the point when nodes are spaced (`Spaced`); error of each operation as a multiple of `u B`; Lipschitz bounds of a cubic and of its slope (`cubic_lipschitz`); failure for close nodes: `C126_close` (`decide +kernel` with `binary 53`) |
| C127 | recorded states | without coupling the fibers are chains of springs (`spring_row`); the velocities of a step lie between 0 and 1 (C76), so a node held by the floor is pushed down by its neighbours and a node at the plate is pushed up; balance at the nodes of one contact (`contact_column`, each node is in one pair); witnesses `C127_pulls` (two inclined fibers, `Props/PullExamples.lean`) and `C127_pulls_chain` (five planar fibers through the whole chain, `Props/PullChain.lean`) |
| C128 | recorded states | balance of the row of a node (`Sound.balance_exact`), beams at a node are those of its fiber (`C34_beams`), rotations are frozen (`StepInv.frozen`), `spring_row`; forces only at closed gaps (`Sound.support`); induction along the fiber |
| C129 | recorded states | rows of displacements and rotations as sums over the two beams at a node (`beam_row`, `node_sum`, `beam_at`), contacts exert no moment (`Contacts.odd`); induction along the fiber; elimination of the rotations for three-point bending |
| C130 | recorded states | the motion of a step has least energy (C76); competitor: pressed nodes move with the plate, the others stay, no rotation (`blockMotion`, `block_follows`, `block_energy`), allowed because a jammed state is the last one (C63); slope of the force = energy of the motion (C114); induction over the records |
| C131 | `solve` twice, `Mesh.deform` | the second system has the matrix and increments of the first and the gaps of the record as bounds (C75); a step looks at states through the gaps only, so both loops do the same steps (`Lemmas/Restart.lean`) |
| C132 | `solve`, flows along the beams | the motion of a step per unit descent (C76) has drop 1 between pressed and grounded nodes; the work of a unit flow in it is 1, Cauchy-Schwarz bounds its energy, which is the slope of the force (C114); equality by the flow of the spring forces, which is balanced because the motion has least energy |
| C133 | `solve`, `Interpolate` | the records form a convex polygonal line (C41, C69); points of it lie above the lines of its segments, so samples form a convex line again and chords lie above; areas by C68 (`Lemmas/Curve.lean`) |
| C134 | `solve` | the parts linked with both plates keep their motion, the other parts are replaced by a rigid translation or rest: admissible, so by C76 the energy of the other parts is zero and C72 makes them rigid; conversely a constant motion along a chain contradicts the plates (`Spec/Linked.lean`) |
| C135 | `Net`, `Stack`, `Mesh`, `solve`, `Interpolate` | C78 (supported for a plate at any height, so linked with the floor), C75 (closed gaps stay closed, the plate rests on a highest node), C134; strict version of C133 |
| C136 | `solve`, `stiffness`, `constraint` | C134 (beams outside move rigidly in each step), C135 (links last), balance of each node; virtual work of the motion of the step restricted to whole parts |
| C137 | `solve`, `constraint` | the limiting row of a step is a contact row (balance of the others is exact), its residual is the gap; linear motion |
| C138 | `solve`, `stiffness`, `constraint` | C134 (idle beams move rigidly), C76 (least energy) in both mats, uniqueness of the minimum when nothing floats (C73), C137 (same plate height), C62/C63 (same end) |
| C139 | `stiffness`, `Stack.constraint` | polar coordinates and a linear change of variables for the integrals over the ellipse; bounds of Mathlib on π; C66 |
| C140 | `stiffness` | completing squares under the integral: the energy minus that of constant shear force and linear moment is an exact derivative; C115 for the excess of the element; C139 |
| C141 | `solve`, `stiffness` | C114 (slope of the force is the energy of the step), C76 (least energy), C140 beam by beam; convexity in `coupling` |
| C142 | `stiffness`, `Mesh.init` | C65 (energy as a sum over beams), uniform continuity of the fields on the fiber, integrals and lengths summed along the beams of the fiber |
| C143 | `stiffness` | shear force and moment of the undivided beam as a lower bound of the energy of its parts (dual form), then sum over the beams of the finer mesh |
| C144 | `solve`, `stiffness`, `constraint` | the slope of the force is a least energy (C76, C114); the motion of the finer mesh, restricted to the coarser one, is a competitor of smaller energy (C143) |
| C145 | `solve`, `stiffness`, `constraint` | proof of C143 and C144 with renumbered fibers: the beams of the added fibers have nonnegative energy, the motion of the larger mat restricted to the smaller one is a competitor |
