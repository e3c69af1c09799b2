{"id": "C01", "title": "Mat.check accepts exactly the documented frames", "statement": "Mat.check(frame) returns True if and only if the 'skip_check' flag is set, or: the eleven columns exist, attrs has n and size, n is the number of rows, the row labels are 0..n-1 in order, every l, b, h, G, E is > 0, every x, y lies in [-size/2, size/2], and every (u, v, w) has length 1 up to 1e-5+1e-8. In particular any NaN in one of these cells (z excepted) is rejected.", "quantifier": "every data frame: any set of columns, any row labels, any attribute dictionary, any cell values including NaN and +-inf", "why_tests_cant": "The accepted set is infinite and the rejected set too; tests only try one good and no bad frame.", "anchors": ["src/fibermat/mat.py:Mat.check"]}
{"id": "C02", "title": "Mat.check reports the first violated condition", "statement": "When Mat.check fails, the exception class is decided by the first violated condition in the documented order: missing column -> KeyError, missing attribute -> AttributeError, wrong n -> ValueError, bad row labels -> IndexError, bad data -> ValueError; a set 'skip_check' flag silences every one of them.", "quantifier": "every data frame", "why_tests_cant": "Needs all combinations of simultaneously violated conditions.", "anchors": ["src/fibermat/mat.py:Mat.check"]}
{"id": "C03", "title": "Mat(n, ...) always yields a valid mat", "statement": "For every seed accepted by numpy (None or 0 <= seed < 2^32), every n >= 0, every angle range theta, psi, every size >= 0 and positive length, width, thickness, shear, tensile (tensile may be infinite), Mat(...) does not raise, and the result has n fibers, labels 0..n-1, positions in the box and unit orientations (up to 3 times the error of cos^2 + sin^2 = 1, allowed up to 1e-6); and conversely with n > 0 and a non-positive dimension or modulus it raises ValueError, as it does for n < 0 and for any other seed.", "quantifier": "all constructor arguments and all outputs of the random generator", "why_tests_cant": "Random positions and angles: a test runs finitely many seeds.", "anchors": ["src/fibermat/mat.py:Mat.init", "src/fibermat/mat.py:Mat.__init__", "src/fibermat/mat.py:Mat.check"]}
{"id": "C04", "title": "A seeded Mat is reproducible and resets the global generator", "statement": "Mat(n, ..., seed=s) with s not None returns the same fibers whatever numpy's global random state was before the call, and leaves the global random state in a state that depends only on s and n.", "quantifier": "all prior global random states, all seeds, all n, all random generators", "why_tests_cant": "The prior random state ranges over an unbounded history of calls.", "anchors": ["src/fibermat/mat.py:Mat.init"]}
{"id": "C05", "title": "Fiber positions do not depend on shape or material arguments", "statement": "For a fixed seed and n: x, y, z depend only on size (and are proportional to it for size >= 0); u, v, w depend only on theta and psi; l, b, h, G, E are constant columns equal to the arguments; and z is non-decreasing in the fiber label whenever size >= 0.", "quantifier": "all arguments, all generators", "why_tests_cant": "Universally quantified over two independent argument sets.", "anchors": ["src/fibermat/mat.py:Mat.init"]}
{"id": "C06", "title": "Net(mat) is well formed and never raises", "statement": "For every valid mat, periodic or not, Net(mat) does not raise; its rows satisfy 0 <= A <= B < n, are strictly increasing in (A, B) (so each pair of fibers has at most one connection), are labelled 0,1,2,..., and Net.check accepts the result.", "quantifier": "every valid mat of any number of fibers, both values of periodic", "why_tests_cant": "Unbounded number and position of fibers.", "anchors": ["src/fibermat/net.py:Net.init", "src/fibermat/net.py:Net.check"]}
{"id": "C07", "title": "Every fiber has exactly one end row", "statement": "In Net(mat) each fiber i occurs in exactly one row with A = B = i, and that row has sA = l/2, sB = -l/2 and the two end points centre +- (l/2) direction.", "quantifier": "every valid mat and fiber", "why_tests_cant": "All geometries, including periodic copies of the same fiber and parallel fibers.", "anchors": ["src/fibermat/net.py:Net.init"]}
{"id": "C08", "title": "Nodes lie on their fibers", "statement": "In each row of Net(mat) the point (xA, yA, zA) equals the centre of fiber A plus sA times its direction, likewise for B, with |sA| <= l_A/2 and |sB| <= l_B/2, strictly when A < B.", "quantifier": "every valid mat, every row", "why_tests_cant": "All geometries.", "anchors": ["src/fibermat/net.py:Net.init"]}
{"id": "C09", "title": "Connected nodes are nearest points of the two fibers", "statement": "For each row with A < B there is a periodic shift (integer multiples of size in x and y, zero when periodic=False) such that the distance between node A and the shifted node B is the minimum over all points of the two (infinite) fiber lines.", "quantifier": "every valid mat, every row, every pair of competing points", "why_tests_cant": "Quantifies over all points of two lines.", "anchors": ["src/fibermat/net.py:Net.init"]}
{"id": "C10", "title": "Net finds exactly the crossing fibers (open box)", "statement": "For planar fibers and periodic=False, Net(mat) has a row (A, B), A < B, if and only if the fibers are not parallel and their projections cross at interior points; then sA, sB are the abscissae of that crossing point.", "quantifier": "every valid planar mat, every pair of fibers", "why_tests_cant": "Completeness over every configuration; the spherical pre-filter must never drop a crossing.", "anchors": ["src/fibermat/net.py:Net.init"]}
{"id": "C11", "title": "Net finds exactly the crossing fibers (periodic box)", "statement": "For planar fibers no longer than the box and periodic=True, Net(mat) has a row (A, B), A < B, if and only if they are not parallel and fiber A crosses some periodic image of fiber B at interior points.", "quantifier": "every valid planar mat with l <= size, every pair, every lattice image", "why_tests_cant": "Only 4 of the 9 copies are generated; that no image is missed is a geometric argument over all positions.", "anchors": ["src/fibermat/net.py:Net.init"]}
{"id": "C12", "title": "Planar connectivity does not depend on heights", "statement": "If two planar mats differ only in z, Net gives the same A, B, sA, sB, x and y columns for both.", "quantifier": "every valid planar mat, every assignment of heights", "why_tests_cant": "All heights.", "anchors": ["src/fibermat/net.py:Net.init"]}
{"id": "C13", "title": "The order of user-supplied pairs is irrelevant (open box)", "statement": "Net(mat, periodic=False, pairs=p) and Net(mat, periodic=False, pairs=p') are equal whenever p and p' contain the same unordered pairs, whatever their order, orientation and multiplicity; in-range pairs never make Net raise.", "quantifier": "every valid mat, all in-range pair arrays", "why_tests_cant": "All permutations, orientations and repetitions of an arbitrary array.", "anchors": ["src/fibermat/net.py:Net.init"]}
{"id": "C14", "title": "Net.check accepts exactly the documented frames", "statement": "Net.check(frame) returns True iff 'skip_check' is set, or: all ten columns, attributes n, size, periodic exist, labels are 0..m-1 in order, A and B are integers in [0, n-1] with A <= B, and no two rows agree in (A, B, sA, sB). Otherwise the first violated condition decides the exception class.", "quantifier": "every frame", "why_tests_cant": "Infinite set of frames.", "anchors": ["src/fibermat/net.py:Net.check"]}
{"id": "C15", "title": "Stacking is always solvable, with a unique optimum", "statement": "For every valid mat and every net over its fibers, the linear program of Stack.solve is feasible and bounded below, and it has exactly one optimal solution.", "quantifier": "every mat and net", "why_tests_cant": "Feasibility and uniqueness over all constraint systems.", "anchors": ["src/fibermat/net.py:Stack.constraint", "src/fibermat/net.py:Stack.solve"]}
{"id": "C16", "title": "Stack heights equal the greedy sweep", "statement": "The optimal heights are those of the one-pass sweep z[j] = max(z[j], z[i] + (h_i + h_j)/2) over the connections in row order, starting from h/2.", "quantifier": "every mat and net with rows sorted as Net produces them", "why_tests_cant": "test_net.py tries this on random mats only.", "anchors": ["src/fibermat/net.py:Stack.solve", "test/test_net.py:test_stack_finite"]}
{"id": "C17", "title": "Stacked fibers do not interpenetrate", "statement": "After Stack(mat, Net(mat)) on planar fibers, each fiber has z >= h/2, and every row of the stack with A < B has zB - zA >= (h_A + h_B)/2.", "quantifier": "every valid planar mat, periodic or not, with or without threshold", "why_tests_cant": "All mats; also relies on the net being rebuilt after z changed.", "anchors": ["src/fibermat/net.py:Stack.init", "src/fibermat/net.py:Stack.solve"]}
{"id": "C18", "title": "Stacking only moves fibers vertically", "statement": "For planar fibers, Stack(mat, Net(mat)) without threshold has the same A, B, sA, sB, x, y as the net, its zA, zB are the new fiber heights, and mat is changed only in z.", "quantifier": "every valid planar mat", "why_tests_cant": "All mats.", "anchors": ["src/fibermat/net.py:Stack.init"]}
{"id": "C19", "title": "The threshold keeps exactly the close connections and all fiber ends", "statement": "With a threshold, Stack keeps exactly the rows with A = B or |zB - zA| <= threshold, in the same order and relabelled 0,1,2,...; the result passes Net.check.", "quantifier": "every mat, net and threshold", "why_tests_cant": "All thresholds, including negative.", "anchors": ["src/fibermat/net.py:Stack.init"]}
{"id": "C20", "title": "Every stacked fiber is supported", "statement": "In the stacked configuration each fiber either lies on the floor (z = h/2) or touches a lower connected fiber (z_B = z_A + (h_A + h_B)/2 for some row with A < B).", "quantifier": "every mat and net", "why_tests_cant": "All constraint graphs.", "anchors": ["src/fibermat/net.py:Stack.solve"]}
{"id": "C21", "title": "Stacking ignores initial heights and is idempotent", "statement": "For planar fibers the stacked heights do not depend on the initial z, and stacking an already stacked mat (no threshold) again changes nothing.", "quantifier": "every valid planar mat, all initial heights", "why_tests_cant": "All initial states.", "anchors": ["src/fibermat/net.py:Stack.init"]}
{"id": "C22", "title": "Stack height bounds and monotonicity", "statement": "The stacked height of a fiber never exceeds the total thickness of the fibers up to it (z_i + h_i/2 <= h_0 + ... + h_i), and adding connections to the net never lowers a fiber.", "quantifier": "every mat, every pair of nested nets", "why_tests_cant": "All graphs.", "anchors": ["src/fibermat/net.py:Stack.solve"]}
{"id": "C23", "title": "Mesh conserves nodes", "statement": "Mesh(net) has two nodes per net row, and the multiset of (fiber, s, x, y, z) equals that of the A and B ends of the rows.", "quantifier": "every net", "why_tests_cant": "All nets, including ties in s.", "anchors": ["src/fibermat/mesh.py:Mesh.init"]}
{"id": "C24", "title": "Mesh nodes are ordered along fibers", "statement": "In Mesh(net) the labels are 0..m-1 and nodes are sorted by fiber, then by s.", "quantifier": "every net", "why_tests_cant": "All nets.", "anchors": ["src/fibermat/mesh.py:Mesh.init"]}
{"id": "C25", "title": "Beams are the cyclic successor along the fiber", "statement": "In Mesh(net), beam of a node is the next node label if that node is on the same fiber, and otherwise the first node of the fiber; beam is a permutation that never leaves the fiber.", "quantifier": "every net, every node", "why_tests_cant": "All group structures.", "anchors": ["src/fibermat/mesh.py:Mesh.init"]}
{"id": "C26", "title": "Constraints pair the two ends of each connection", "statement": "In Mesh(net), constraint is an involution on nodes; nodes of a row with A = B are constrained to themselves, and the two nodes of a row with A < B are constrained to each other.", "quantifier": "every net, every row", "why_tests_cant": "Survives an arbitrary sort and relabelling.", "anchors": ["src/fibermat/mesh.py:Mesh.init"]}
{"id": "C27", "title": "Mesh(Net(mat)) and Mesh(Stack(...)) always pass the check", "statement": "Mesh(net) never raises for a net produced by Net(mat) or by Stack(mat, Net(mat), threshold); for an arbitrary valid net it raises ValueError exactly when some fiber's first or last node does not come from a row with A = B.", "quantifier": "every valid mat, threshold; every valid net", "why_tests_cant": "All nets.", "anchors": ["src/fibermat/mesh.py:Mesh.init", "src/fibermat/mesh.py:Mesh.check"]}
{"id": "C28", "title": "Mesh.check accepts exactly the documented frames", "statement": "Mesh.check(frame) returns True iff 'skip_check' is set, or the columns and attributes exist, labels are 0..m-1, types are integer, labels are in range, nodes are sorted by (fiber, s), beam is the cyclic successor, constraint is an involution, and the first and last node of each fiber are constrained to themselves.", "quantifier": "every frame", "why_tests_cant": "Infinite set of frames.", "anchors": ["src/fibermat/mesh.py:Mesh.check"]}
{"id": "C29", "title": "Beam lengths add up to the fiber length", "statement": "For Mesh(Net(mat)) the beam elements of each fiber have non-negative lengths that add up to the fiber length l, and there is one beam less than nodes on each fiber.", "quantifier": "every valid mat, every fiber", "why_tests_cant": "All node distributions.", "anchors": ["src/fibermat/mesh.py:Mesh.init", "src/fibermat/model.py:stiffness"]}
{"id": "C30", "title": "Stiffness matrix is symmetric", "statement": "The stiffness matrix K returned by stiffness(mat, mesh, ...) is symmetric, also when tensile is infinite.", "quantifier": "every mat, mesh, lmin, lmax, coupling", "why_tests_cant": "All assemblies.", "anchors": ["src/fibermat/model.py:stiffness"]}
{"id": "C31", "title": "Stiffness is positive semi-definite exactly for |coupling| <= 1", "statement": "With finite tensile moduli and positive beam lengths, u.K.u >= 0 for all u if |coupling| <= 1; if |coupling| > 1 and there is at least one beam, some u has u.K.u < 0.", "quantifier": "every mat, mesh, every vector u, every coupling", "why_tests_cant": "Quantifies over all vectors.", "anchors": ["src/fibermat/model.py:stiffness"]}
{"id": "C32", "title": "Rigid motions carry no elastic force", "statement": "K annihilates a uniform vertical translation of any fiber; without rescaling (lmin = lmax = None) and with coupling = 1 it also annihilates a rigid rotation of any fiber (u = theta*s).", "quantifier": "every mat and mesh", "why_tests_cant": "All assemblies.", "anchors": ["src/fibermat/model.py:stiffness"]}
{"id": "C33", "title": "Only rigid motions carry no elastic energy", "statement": "With finite tensile moduli and |coupling| < 1, u.K.u = 0 iff all rotations at beam nodes vanish and the displacement is constant along each fiber.", "quantifier": "every mat, mesh, vector u", "why_tests_cant": "Quantifies over all vectors.", "anchors": ["src/fibermat/model.py:stiffness"]}
{"id": "C34", "title": "Beams never couple different fibers", "statement": "A nonzero entry of K couples two nodes only if they are on the same fiber and are equal or neighbours; beams are exactly the pairs of consecutive nodes of a fiber.", "quantifier": "every mesh", "why_tests_cant": "All meshes.", "anchors": ["src/fibermat/model.py:stiffness"]}
{"id": "C35", "title": "Beam length rescaling stays in [lmin, lmax]", "statement": "For 0 < lmin <= lmax and at least two distinct beam lengths, each rescaled length lies in [lmin, lmax] and the order of lengths is kept; with lmin = lmax = None lengths are unchanged; the rescaling never raises on a non-empty mesh.", "quantifier": "all length lists, lmin, lmax", "why_tests_cant": "All length lists; degenerate ranges.", "anchors": ["src/fibermat/model.py:stiffness"]}
{"id": "C36", "title": "Empty meshes are rejected by the model functions", "statement": "stiffness, constraint and solve raise ValueError on a mesh with no node (despite the documented default of an empty mesh).", "quantifier": "every empty mesh and mat, all options", "why_tests_cant": "All option values.", "anchors": ["src/fibermat/model.py:stiffness", "src/fibermat/model.py:constraint", "src/fibermat/solver.py:solve"]}
{"id": "C37", "title": "C u <= H is exactly geometric non-penetration", "statement": "For C, H from constraint(mat, mesh): C u <= H iff in the displaced mesh every node satisfies h/2 <= z + u <= Z - h/2 and every connected pair satisfies z_j + u_j - z_i - u_i >= (h_i + h_j)/2, with Z the initial top.", "quantifier": "every valid mesh, every displacement u", "why_tests_cant": "All meshes and displacements.", "anchors": ["src/fibermat/model.py:constraint"]}
{"id": "C38", "title": "The stacked configuration is admissible", "statement": "For planar fibers, with mesh = Mesh(Stack(mat, Net(mat), threshold)), all entries of H are >= 0, so u = 0 satisfies C u <= H.", "quantifier": "every valid planar mat, every threshold", "why_tests_cant": "Crosses five functions.", "anchors": ["src/fibermat/model.py:constraint", "src/fibermat/net.py:Stack.init", "src/fibermat/mesh.py:Mesh.init"]}
{"id": "C39", "title": "constraint only adds the thickness column", "statement": "constraint(mat, mesh) leaves all existing columns of mesh unchanged, adds h = thickness of the node's fiber, and a second call returns the same matrices.", "quantifier": "every mat and mesh", "why_tests_cant": "All meshes.", "anchors": ["src/fibermat/model.py:constraint"]}
{"id": "C40", "title": "The solver makes at most itermax steps and records consistent histories", "statement": "solve() makes at most itermax steps, every recorded history has steps+1 entries, every recorded packing before the last is below the target, and it makes no step when packing <= 1.", "quantifier": "every system, linear solver, tolerance, itermax", "why_tests_cant": "All runs.", "anchors": ["src/fibermat/solver.py:solve"]}
{"id": "C41", "title": "The top plate only moves down and packing only increases", "statement": "With tol >= 0, the recorded Z strictly decreases, and the recorded packing Z0/Z strictly increases from 1 (as long as Z > 0), whatever the linear solver returns.", "quantifier": "every system, every linear solver", "why_tests_cant": "All runs and all solver outputs.", "anchors": ["src/fibermat/solver.py:solve"]}
{"id": "C42", "title": "Non-penetration is kept up to the error tolerance", "statement": "If the initial state is admissible, then at every recorded step k every constraint row satisfies (C u)_i <= H_i + errtol*(Z0 - Z_k), whatever (finite) vectors the linear solver returned.", "quantifier": "every assembled system, every linear solver, every number of steps", "why_tests_cant": "Accumulation over unboundedly many steps with an arbitrary solver.", "anchors": ["src/fibermat/solver.py:solve"]}
{"id": "C43", "title": "Mechanical equilibrium is kept", "statement": "If every recorded err is at most eps and eps*Z0 <= tol, then at each recorded step with Z_k >= 0 (more generally while eps*(Z0 - Z_k) <= tol) |F - K u - C^T f| <= eps*(Z0 - Z_k) in every row without infinite stiffness; with an exact linear solver K u + C^T f = F.", "quantifier": "every assembled system, all steps", "why_tests_cant": "All runs.", "anchors": ["src/fibermat/solver.py:solve"]}
{"id": "C44", "title": "Contacts, once active, stay active; forces act only at contacts", "statement": "With an exact linear solver the set of active rows only grows, and a nonzero contact force at a recorded step implies its gap H - C u is <= tol (complementarity).", "quantifier": "every assembled system, all steps", "why_tests_cant": "All runs.", "anchors": ["src/fibermat/solver.py:solve"]}
{"id": "C45", "title": "The solver terminates even without an iteration limit", "statement": "With an exact linear solver the number of steps is at most the number of constraint rows, whatever itermax and packing.", "quantifier": "every assembled system", "why_tests_cant": "A bound over all runs.", "anchors": ["src/fibermat/solver.py:solve"]}
{"id": "C46", "title": "Z stays positive", "statement": "From an admissible start with an exact linear solver, every recorded Z is at least the thickness of every fiber in the mesh; hence packing is positive and at most Z0/h.", "quantifier": "every assembled system, all steps", "why_tests_cant": "All runs.", "anchors": ["src/fibermat/solver.py:solve"]}
{"id": "C47", "title": "The total force on the plate never decreases", "statement": "With an exact linear solver, |coupling| <= 1 and finite tensile moduli, the total force on the upper plate (sum of the f components of the upper rows) is >= 0 and non-decreasing over the recorded steps.", "quantifier": "every assembled system, all steps", "why_tests_cant": "Energy argument over all runs.", "anchors": ["src/fibermat/solver.py:solve"]}
{"id": "C48", "title": "The permutation does not change the result", "statement": "If the linear solver is exact and the reduced systems are regular, solve(..., perm=p) records the same histories for every permutation p.", "quantifier": "every permutation, every system", "why_tests_cant": "Factorially many permutations.", "anchors": ["src/fibermat/solver.py:solve"]}
{"id": "C49", "title": "Infinite tensile modulus freezes rotations", "statement": "For fibers with tensile = inf, the rotation components of u are exactly 0 at every recorded step, and those rows are never active.", "quantifier": "every mesh, every linear solver, all steps", "why_tests_cant": "Depends on NaN propagation in every step of every run.", "anchors": ["src/fibermat/solver.py:solve", "src/fibermat/model.py:stiffness"]}
{"id": "C50", "title": "Recorded bounds follow the plate", "statement": "At every recorded step, F is unchanged and H - H0 equals Z - Z0 on the upper rows and 0 elsewhere, so H is the bound vector for a plate at Z.", "quantifier": "all runs", "why_tests_cant": "All runs.", "anchors": ["src/fibermat/solver.py:solve"]}
{"id": "C51", "title": "Interpolate reproduces its data", "statement": "With at least two data points and size=None, Interpolate(y)(k/(len(y)-1)) = y[k]; with any size >= 2, the values at 0 and 1 are y[0] and y[-1].", "quantifier": "every data list, every size >= 2", "why_tests_cant": "All data and sizes.", "anchors": ["src/fibermat/interpolation.py:Interpolate.__init__", "src/fibermat/interpolation.py:Interpolate.__call__"]}
{"id": "C52", "title": "Interpolated values are convex combinations, with weights independent of the data", "statement": "For t in [0, 1] and any size >= 2 the value is a convex combination of the data whose weights depend only on t, the size and the number of data; outside [0, 1] the value is y[-1] (on both sides).", "quantifier": "all t, sizes, data", "why_tests_cant": "All t.", "anchors": ["src/fibermat/interpolation.py:Interpolate.__call__"]}
{"id": "C53", "title": "Interpolation of a monotone history is monotone", "statement": "If the data are non-decreasing (non-increasing), so is t -> Interpolate(y, size)(t) on [0, 1].", "quantifier": "all t, sizes, data", "why_tests_cant": "All t.", "anchors": ["src/fibermat/interpolation.py:Interpolate.__call__"]}
{"id": "C54", "title": "Solver results are admissible at every pseudo-time", "statement": "When the mesh given to solve() has no overlap at the start (as stacked meshes), then for t in [0, 1] and any interp_size >= 2 the interpolated results of solve() satisfy C u(t) <= H(t) + errtol*(Z(0) - Z(t)) in all rows with finite bound; Z(t) is non-increasing in t.", "quantifier": "all runs from an admissible start, all t", "why_tests_cant": "Combines all runs with all t.", "anchors": ["src/fibermat/solver.py:solve", "src/fibermat/interpolation.py:Interpolate"]}
{"id": "C55", "title": "Active masks are step functions", "statement": "mask(t) returned by solve() (kind='previous') equals the recorded mask of the last step not after t.", "quantifier": "all t in [0, 1]", "why_tests_cant": "All t.", "anchors": ["src/fibermat/solver.py:solve", "src/fibermat/interpolation.py:Interpolate"]}
{"id": "C56", "title": "vtk_mesh locates points between the right nodes", "statement": "For a fiber whose nodes have strictly increasing s, each VTK point with local abscissa x strictly inside the fiber gets node coordinate k + r with s_k < x <= s_{k+1}, r = (x - s_k)/(s_{k+1} - s_k) in (0, 1], whichever nearest neighbour the tree returns; so fields never mix two fibers. If two nodes of the fiber are at the same place, the exact outcome is characterised: it depends on which of them the tree returns, and may be the first of them, minus infinity or NaN.", "quantifier": "all node lists, all points, all tie-breaking of the nearest neighbour search", "why_tests_cant": "All inputs and all ties.", "anchors": ["src/fibermat/render.py:vtk_mesh"]}
{"id": "C57", "title": "Rendered fields interpolate nodal values", "statement": "The rendered displacement equals the nodal displacement at nodes, and is exactly constant for a uniform translation with zero rotation; its derivative at nodes is the nodal rotation.", "quantifier": "all fields, all points", "why_tests_cant": "All fields.", "anchors": ["src/fibermat/render.py:vtk_mesh"]}
{"id": "C58", "title": "Settings behave like a record", "statement": "After settings[name] = v, settings[name] returns v (None/inf switch the option off; theta is returned times pi; itermax truncated to int), and no other setting changes; a sequence of settings(**kwargs) calls behaves like successive updates where the last write to each name wins.", "quantifier": "every sequence of writes, toggles and reads", "why_tests_cant": "All histories.", "anchors": ["src/fibermat/widgets.py:Settings.__getitem__", "src/fibermat/widgets.py:Settings.__setitem__", "src/fibermat/widgets.py:Settings.__call__"]}
{"id": "C59", "title": "Switching an option off and on again restores its value", "statement": "Setting an optional parameter to None (inf for moduli) and then re-enabling its switch yields the last non-None value written.", "quantifier": "every history of writes", "why_tests_cant": "All histories.", "anchors": ["src/fibermat/widgets.py:Settings.__setitem__"]}
{"id": "C60", "title": "Derived objects do not leak attributes into their source", "statement": "Net(mat) and Mesh(net) create objects with their own attribute dictionary: writing attributes of the result never changes mat.attrs or net.attrs, and building them adds no key to the source; whereas Mat(mat), Net(net), Mesh(mesh), Stack(net) share the dictionary of their argument.", "quantifier": "all heaps, all histories of writes", "why_tests_cant": "Aliasing over all histories.", "anchors": ["src/fibermat/net.py:Net.init", "src/fibermat/net.py:Net.attrs", "src/fibermat/mat.py:Mat.__init__", "src/fibermat/mesh.py:Mesh.init"]}
{"id": "C61", "title": "No infinite or NaN step ever enters the records", "statement": "With an exact linear solver, a run of solve on a valid mat (positive beam lengths, tol >= 0) always ends because the iteration limit or the target packing is reached or because the loop breaks; the step length dU is always a finite number, and an answer filled with NaN (singular matrix) always ends the loop before anything is recorded.", "quantifier": "for all mats, meshes, couplings, length bounds, tolerances, permutations, target packings, iteration limits and exact linear solvers", "why_tests_cant": "The claim is about every sequence of active sets that a run can go through, including singular ones; tests see a few meshes.", "anchors": ["src/fibermat/solver.py:146-151", "src/fibermat/solver.py:155-171"]}
{"id": "C62", "title": "The solver stops early only when jammed or when fibers are not held", "statement": "If the loop breaks (finite tensile moduli, |coupling| < 1, tolerances >= 0, a linear solver that answers whenever the solution is unique), then in the last recorded state either some node pair is squeezed solid between both plates (lower gap, contact gap and upper gap all closed), or some fibers can be translated without opening or crossing any closed gap. In both cases the reduced matrix of the last state is singular.", "quantifier": "for all valid meshes, mats, options and linear solvers as stated", "why_tests_cant": "Needs the kernel of every reduced matrix that can occur; running examples only shows single matrices, and spsolve in floating point rarely reports singularity.", "anchors": ["src/fibermat/solver.py:139-171", "src/fibermat/model.py:142-175", "src/fibermat/model.py:272-298"]}
{"id": "C63", "title": "A jammed state is final", "statement": "When in a recorded state all gaps along a contact (plate - node - node - plate, or plate - node - plate) are closed within tol, no further step is recorded, whatever the target packing and iteration limit.", "quantifier": "for all runs with an exact linear solver, all records", "why_tests_cant": "It excludes every continuation of every jammed state.", "anchors": ["src/fibermat/solver.py:146-171", "src/fibermat/model.py:272-298"]}
{"id": "C64", "title": "An unlimited run ends at the target packing, jammed, or with unheld fibers", "statement": "If itermax exceeds three times the number of nodes, the last recorded state has reached the target packing, or is squeezed solid somewhere between the plates, or contains fibers not held by the closed contacts (hypotheses of C62).", "quantifier": "for all valid meshes, mats, options with itermax > 3 * len(mesh) and linear solvers as in C62", "why_tests_cant": "A statement about the end of all runs, without bound on their size.", "anchors": ["src/fibermat/solver.py:137-189"]}
{"id": "C65", "title": "The stiffness matrix is the assembly of the documented element matrices", "statement": "Each entry of K is the sum, over the beams of the mesh, of the entry of the documented 4x4 element matrix (area pi/4 b h, moduli of the fiber of the beam, length of the beam, coupling factor on the l/2 entries) for these two degrees of freedom; the length of a beam is the distance between its nodes, or its image under the linear map of [min(m, lmin), max(M, lmax)] onto [lmin, lmax], m and M being the shortest and longest distance. For infinite tensile moduli, u' K u is the sum over the beams of an explicit energy (bending term left out) as long as u only meets finite entries.", "quantifier": "for all mats, meshes with positive beam lengths, length bounds, couplings, all pairs of degrees of freedom, all displacements", "why_tests_cant": "The repository only prints three 4x4 matrices of single beams; the claim is about every mesh, including how shared nodes accumulate and how lengths are rescaled.", "anchors": ["src/fibermat/model.py:16-44", "src/fibermat/model.py:118-175"]}
{"id": "C66", "title": "Transverse stiffness: shear and bending in series", "statement": "The coupling of the displacements of the two nodes of a beam is -1/(l/(G A) + l^3/(E A h^2)); it never exceeds the pure shear or the pure bending stiffness, and is at least half the smaller of them. For an infinite tensile modulus it is the shear stiffness G A / l, and the compliances of the beams of a fiber add up to (length of the fiber)/(G A), however the fiber is divided by nodes.", "quantifier": "for all mats, meshes, length bounds, couplings and beams", "why_tests_cant": "Relates every length, section and modulus, and all ways of dividing a fiber.", "anchors": ["src/fibermat/model.py:118-145"]}
{"id": "C67", "title": "Equilibrium of each fiber and of the mat", "statement": "With an exact linear solver, in every recorded state the vertical contact forces on the nodes of each fiber add up to zero, the total force on the floor equals the total force on the upper plate, and, with coupling = 1, unchanged beam lengths and a finite tensile modulus, the moments of the contact forces on the fiber add up to zero too.", "quantifier": "for all valid meshes, mats, options, records and fibers", "why_tests_cant": "Holds of every state of every run; depends on the kernel of all assembled matrices.", "anchors": ["src/fibermat/solver.py:129-189", "src/fibermat/model.py:142-175"]}
{"id": "C68", "title": "Work of the plate equals the gain of elastic energy", "statement": "With an exact linear solver, between two successive records the elastic energy u' K u / 2 grows by the mean plate force times the displacement of the plate; for |coupling| <= 1 the energy is never negative and never decreases.", "quantifier": "for all runs and all pairs of successive records", "why_tests_cant": "An energy balance for all runs, with any sequence of active contacts.", "anchors": ["src/fibermat/solver.py:139-184"]}
{"id": "C69", "title": "The mat stiffens", "statement": "With an exact linear solver and |coupling| <= 1, the slope of the plate force against the displacement of the plate never decreases from one step to the next: the force-displacement curve is convex.", "quantifier": "for all runs and all triples of successive records", "why_tests_cant": "A comparison of successive linear systems of different sizes, for all meshes.", "anchors": ["src/fibermat/solver.py:139-184"]}
{"id": "C70", "title": "Recorded displacements have the least energy for given loaded gaps", "statement": "With an exact linear solver and |coupling| <= 1, no displacement that gives the same gap to every loaded contact (and no rotation to fibers of infinite tensile modulus) has less elastic energy than the recorded one.", "quantifier": "for all runs, records, and all competing displacements", "why_tests_cant": "Quantifies over all displacements of all meshes.", "anchors": ["src/fibermat/solver.py:139-184", "src/fibermat/model.py:142-175"]}
{"id": "C71", "title": "Equilibrium under contact as a minimum of energy, exactly when contacts do not pull", "statement": "If no contact force of a record is negative, its displacements minimise the elastic energy among all displacements without interpenetration between the plates at the recorded height (up to tol times the sum of the forces; exactly for tol = 0). The condition is needed: the solver never releases a contact, and there is a mesh for which forces become negative (contacts pull) and an admissible displacement has less energy.", "quantifier": "for all runs and records, all competing displacements; one concrete run for the second part", "why_tests_cant": "A minimum over an infinite set; the counterexample contradicts the natural reading of the documented contact model and is not in the tests.", "anchors": ["src/fibermat/solver.py:139-184", "src/fibermat/model.py:272-298"]}
{"id": "C72", "title": "When the reduced linear system is regular", "statement": "For a valid mesh and |coupling| <= 1, a displacement costs no elastic energy exactly when every fiber moves as a rigid body (translation; with |coupling| = 1 and finite tensile modulus also a rotation matching the deflection). With an exact linear solver, the reduced system of a recorded state has a unique solution exactly when the state is neither jammed (a node, or a pair in contact, closed between floor and upper plate) nor floating (some zero-energy motion keeps all closed gaps closed).", "quantifier": "for all mats, valid meshes, length bounds, couplings in [-1, 1], options, and all records of all runs", "why_tests_cant": "Characterises singularity of every linear system the solver can meet, including the default coupling 1 and infinite tensile moduli.", "anchors": ["src/fibermat/solver.py:139-184", "src/fibermat/model.py:118-175"]}
{"id": "C73", "title": "Why a run ends, for any coupling and tensile modulus", "statement": "With a linear solver that answers whenever the solution is unique and enough iterations, every run ends at the target packing, or in a jammed state, or in a floating state; a blocked run ends below the target, jammed or floating. With |coupling| < 1, or only infinite tensile moduli, floating means that some fibers can be translated without changing the closed gaps.", "quantifier": "for all valid non-empty meshes, mats, options with non-negative tolerances, couplings in [-1, 1]", "why_tests_cant": "A statement about the end of every run; C64 covered only |coupling| < 1 with finite moduli, which excludes the default coupling 1 of the code.", "anchors": ["src/fibermat/solver.py:129-189", "src/fibermat/model.py:9-13"]}
{"id": "C74", "title": "The result does not depend on the linear solver nor on the permutation", "statement": "If no recorded state below the target packing is floating, then any other linear solver that is exact and answers whenever the solution is unique, with any permutation of the unknowns, gives exactly the same system, the same records and the same way to stop.", "quantifier": "for all valid meshes, mats, options, pairs of linear solvers and pairs of permutations", "why_tests_cant": "Compares runs under all linear solvers and all orders of the unknowns; the repository runs one of each.", "anchors": ["src/fibermat/solver.py:94-189"]}
{"id": "C75", "title": "Closed gaps stay closed, the plate rests on the mat, and the deformed mesh can be reassembled", "statement": "Once a gap (floor, pair or plate) is within the tolerance, it keeps exactly its value in all later records. From an admissible start, the recorded plate height of every record is exactly the top of the mat deformed by the recorded displacements (mesh.z += u[::2]). Reassembling the deformed mesh gives the same stiffness and constraint matrices, the recorded plate height, an admissible start, and bounds equal to the recorded ones minus C u.", "quantifier": "for all mats, meshes with positive lengths, options with non-negative tolerance, exact linear solvers, and all pairs of records of all runs", "why_tests_cant": "Relates every pair of records of every run, and the solver to the documented way of deforming the mesh; tests compare single numbers.", "anchors": ["src/fibermat/solver.py:129-189", "src/fibermat/solver.py:231-232", "src/fibermat/model.py:186-300"]}
{"id": "C76", "title": "Each step moves the nodes with least energy; downward motion", "statement": "The motion of a step minimises the elastic energy among all motions which keep the closed gaps and the blocked rotations. Without coupling, or with infinite tensile moduli, and as long as the state is supported, no node moves up or further than the plate, hence plate travel <= u <= 0 in all records. With coupling 0.99 the documented condition u <= 0 fails: a concrete mat of three fibers lifts a node in the first step.", "quantifier": "for all mats, valid meshes, |coupling| <= 1 (coupling 0 or infinite tensile moduli for monotonicity), exact linear solvers, and all steps of all runs", "why_tests_cant": "A minimum over all admissible motions, for all steps; and a documented condition that the sampled tests never check.", "anchors": ["src/fibermat/solver.py:17-25", "src/fibermat/solver.py:139-184", "src/fibermat/model.py:118-175"]}
{"id": "C77", "title": "Supports are never lost during the compression", "statement": "If at some record no group of fibers can be translated without changing the closed gaps (the mat is supported), the same holds at every later record; and if at some record no motion keeping the closed gaps is free of elastic energy (the mat does not float), the same holds at every later record.", "quantifier": "for all mats, meshes with positive lengths, couplings, options with non-negative tolerance, exact linear solvers, and all pairs of records of all runs", "why_tests_cant": "Quantifies over all motions of all fibers at every record of every run.", "anchors": ["src/fibermat/solver.py:129-189"]}
{"id": "C78", "title": "The documented chain Mat, Net, Stack, Mesh, solver as a whole", "statement": "For every valid mat with at least one fiber the chain net = Net(mat), stack = Stack(mat, net, threshold), mesh = Mesh(stack), solver(mat, mesh, ...) raises nothing, whatever the options. The beams of every fiber add up to its length, with or without threshold, and with lmin > 0 all beam lengths are positive. For planar mats and a threshold not below the thicknesses: the stacked mat is supported, the nodes never penetrate, the plate rests on the highest node; with |coupling| < 1 (or infinite tensile moduli) and enough iterations the run ends at the target packing or squeezed solid, with the same result for all exact linear solvers and permutations; with coupling 0 (or infinite tensile moduli) all displacements are between the travel of the plate and 0. A threshold below the thickness drops contacts between touching fibers and leaves fibers without support (concrete mat).", "quantifier": "for all valid non-empty mats, periodic or not, all thresholds, correct linear programming and linear solvers, all options", "why_tests_cant": "A property of the composition of all modules for all mats; the tests never run the solver on a stacked mat.", "anchors": ["main.py:71-100", "scripts/square.py:75-90", "src/fibermat/net.py:532-600", "src/fibermat/mesh.py:Mesh.init", "src/fibermat/solver.py:13-189"]}
{"id": "C79", "title": "The periodic net counts every crossing once, for fibers up to half the box", "statement": "Two fibers whose lengths add up to at most the side of the box cross at most once, all periodic images taken together. Hence, for planar mats with fibers no longer than half the box, the rows of the periodic net between two fibers are exactly their crossings with exactly the abscissae of the crossing. For longer fibers this fails: there is a valid mat where two fibers cross twice through the side of the box and the net keeps one crossing only.", "quantifier": "for all valid planar mats with fibers no longer than half the box, all pairs of fibers, all integer translations; negation by a concrete mat beyond half the box", "why_tests_cant": "Quantifies over all mats and all images of all pairs; the tests compare one random net with its own printed form.", "anchors": ["src/fibermat/net.py:173-265", "src/fibermat/mat.py:18-60"]}
{"id": "C80", "title": "The result does not depend on the place and orientation of the mat", "statement": "Turning a periodic mat by quarter turns, mirroring it, or moving the origin of its box (fibers leaving on one side entering on the other) changes neither the connections of the net nor anything in the result of the chain net, stack, mesh, solver, for planar fibers no longer than half the box. Without periodicity the same holds for every rotation, mirror image and translation. With longer fibers the connections do depend on the origin of the periodic box (concrete mat).", "quantifier": "for all valid mats (planar with fibers no longer than half the box when periodic), all orthogonal matrices (integer ones when periodic), all translations, all thresholds, options and permutations, correct linear programming, all linear solvers", "why_tests_cant": "A relation between the runs on infinitely many pairs of inputs; needs the uniqueness of the crossings and of the stacking.", "anchors": ["main.py:72-97", "src/fibermat/net.py:173-265", "src/fibermat/net.py:532-600", "src/fibermat/solver.py:13-189"]}
{"id": "C81", "title": "The result does not depend on the units of length and stress", "statement": "If all lengths (fiber dimensions and positions, box, height threshold, beam length limits, tolerance tol) are multiplied by alpha and all moduli by mu, the net, the stack and the mesh are the same with lengths multiplied by alpha, and the solver makes the same run: same active contacts and packing in every record, displacements, plate heights and bounds times alpha, rotations unchanged, contact forces times mu alpha^2, same stopping reason, whatever correct solvers are used for either description. The tolerance tol has to be scaled too: with an unscaled tol there is a concrete mat whose run changes.", "quantifier": "for all alpha, mu > 0, all valid meshes without a floating fiber (in particular all planar mats stacked by the chain with a threshold that keeps the touching pairs), couplings up to 1 in absolute value, all options and permutations, all pairs of exact linear and linear programming solvers; negation for unscaled tol by a concrete mat", "why_tests_cant": "A relation between the runs on infinitely many pairs of inputs, through two external solvers with different rounding; needs the scaling law of every block of the matrices.", "anchors": ["main.py:72-97", "src/fibermat/model.py:12-300", "src/fibermat/solver.py:13-189", "src/fibermat/net.py:173-265", "src/fibermat/net.py:532-600"]}
{"id": "C82", "title": "How far a mat can be compressed", "statement": "Let H be the greatest height of solid material along a connection of the stacked planar mat (sum of the thicknesses of two connected fibers). The plate never goes below H, so a target packing above Z0/H is never reached; with enough iterations the run ends at the target packing or with the plate between H and H + 3 tol; a target packing up to Z0/(H + 3 tol) is always reached. For a mat of uniform thickness t with at least one crossing, H = 2 t whatever the number of fibers and the height of the stack.", "quantifier": "for all valid planar mats, periodic or not, thresholds that keep the touching pairs, beam length limits with positive lengths, |coupling| < 1 (or 1 with infinite tensile moduli), tolerances >= 0, target packings, permutations, exact linear solvers, correct linear programming", "why_tests_cant": "Predicts the end of every run of the whole chain from the thicknesses alone; a test run shows one end state and cannot show that higher targets are unreachable for all mats.", "anchors": ["main.py:72-97", "src/fibermat/solver.py:137-189", "src/fibermat/model.py:272-298"]}
{"id": "C83", "title": "Deflection, rotation and curvature shown between the nodes", "statement": "Between two nodes of a fiber at distance l, vtk_mesh shows the cubic deflection of the beam with the nodal displacements and rotations, its slope as rotation (rad) and its second derivative as curvature (1/mm). This holds for l = 1 and is false for any other length: the spline is in the node number, so what is shown is the cubic with end slopes rotation/l, and the fields rotation and curvature are l and l^2 times its derivatives; the error of the deflection is (1 - l) r (1 - r) ((1 - r) theta_0 - r theta_1). A rigid rotation of a fiber is shown curved.", "quantifier": "for all nodal displacements and rotations, all intervals between consecutive nodes, all beam lengths l > 0, all relative positions 0 <= r < 1", "why_tests_cant": "Claims equality of two cubics at every point of every beam; the displacement at the nodes, which is what a test compares, is right in all cases.", "anchors": ["src/fibermat/render.py:199-202", "src/fibermat/render.py:240-252"]}
{"id": "C84", "title": "Periodic pictures", "statement": "With a periodic mesh whose points stay within one period of the centre, the nine copies clipped to the box are exactly the part of the infinite periodic tiling inside the square of two periods; nothing is cut along the thickness, the picture is periodic where it is defined, and every point off the medians appears exactly four times. Points two periods away or more are not shown at all.", "quantifier": "for all point sets, all sizes > 0, all integer translations", "why_tests_cant": "Equality with an infinite tiling for every set of points; a picture shows one mat.", "anchors": ["src/fibermat/render.py:259-274"]}
{"id": "C85", "title": "Pictures of the system", "statement": "plot_system always draws; every non-zero coefficient of the assembled system is drawn in exactly one of the five layers with its value, and no zero coefficient is drawn. Constraint rows come by three per connection, and in every recorded state they are drawn as lower, inner, upper contact exactly when the corresponding gap is closed up to 1e-8 + 1e-5 |H|, else as inactive. The printed number is the error recorded by the next step of the solver, and it is zero with an exact solver that answers. The contacts of the picture are not those of the solver: with the default tolerance there are rows active in the solver and drawn as inactive, and the reverse.", "quantifier": "for all mats, meshes, options, states of a run (layers: all states), permutations, exact linear solvers", "why_tests_cant": "A partition of the entries of every possible matrix; a picture is looked at for one system.", "anchors": ["src/fibermat/model.py:351-400"]}
{"id": "C86", "title": "Creation of settings", "statement": "Settings(**args) succeeds exactly when every argument is acceptable for its widget and the thickness is not zero when the tensile modulus is infinite. Each setting then reads as if its argument had been written to it, except an infinite modulus that is not the object np.inf, which reads as a finite default. A setting created switched off reads, once switched on: shear 1, tensile shear (length/thickness)^2, seed 0, threshold 20 thickness, lmin 0.01, lmax length, interp_size 100. Sliders are in range from the start.", "quantifier": "for all assignments of values to the 19 arguments", "why_tests_cant": "19 arguments of several kinds each; the defaults depend on other arguments.", "anchors": ["src/fibermat/widgets.py:27-126"]}
{"id": "C87", "title": "The main program from its arguments to the compressed mat", "statement": "The chain Mat, Net, Stack, Mesh, plot_system, solve of main.py succeeds exactly when the seed is accepted by numpy (None or 0 <= seed < 2^32), n > 0, size >= 0 and all dimensions and moduli are positive, and otherwise raises ValueError; with a seed its result does not depend on the earlier state of the generator. Between 2n and n(n+1) mesh nodes are made. With fibers in the plane, a threshold of at least one thickness, lmin > 0 and |coupling| < 1, in every record no fiber enters another, the floor or the plate, the plate rests on the highest fiber, its height stays above the lower limit H (two thicknesses when a crossing is kept, else one) and the recorded packing is the initial height over the height; if itermax exceeds 3 times the number of nodes, the last record has reached the target packing or a height within 3 tol of H. cos and sin may be inexact up to 1e-6. With exact cos and sin and |theta| <= pi the fibers point in the half plane u >= 0, within theta/2 of the x axis.", "quantifier": "for all generators, seeds, arguments of Mat, thresholds, lmin, lmax, couplings, solver options, linear programs and linear solvers meeting their contracts", "why_tests_cant": "Every seed gives another mat; a test runs a few of them.", "anchors": ["main.py:71-97", "src/fibermat/mat.py:159-232"]}
{"id": "C88", "title": "Fields shown on the deformed mat", "statement": "The four arrays that main.py hands to vtk_mesh are, at every pseudo-time, the interpolated displacements and rotations of the nodes, the load exerted on each node by its contacts (what presses from above minus what presses from below, so positive downwards), and moments that are all zero. At pseudo-time 1 they are those of the last record. A contact force that is not zero belongs to a gap (to the floor, between two fibers, to the plate) of at most tol, and the loads shown on the nodes of one fiber add up to zero, at every pseudo-time. Between two successive nodes the load shown lies between the loads of these nodes.", "quantifier": "for all mats, meshes, options, exact linear solvers (for the closed gaps and the balance), pseudo-times, numbers of samples", "why_tests_cant": "A picture is looked at for one mat; the sign and the balance of the loads hold for every run.", "anchors": ["main.py:104-107", "src/fibermat/render.py:253-257", "src/fibermat/render.py:312-315"]}
{"id": "C89", "title": "The solver loop in floating-point arithmetic", "statement": "Let every operation of the solver loop be rounded by a monotone rounding with relative error u (binary rounding to p bits, ties to even, is one with u = 2^-p), start from a system stored with an error of at most delta on the bounds and on the plate position and with arbitrary errors on the finite stiffnesses, and let the linear solver answer anything. Then after k steps with 400 k u <= 1, along every connection of the mesh the displaced fibers and plates overlap by at most 3 delta + (7 kappa errtol + 400 k u) Z0, where Z0 is the initial height and kappa = 1.01 for a norm computed by a rounded sum of squares. The plate never goes up and the recorded packing never decreases while the plate is above 0. Without rounding the records are exactly those of the exact solver. The computed norm test accepts errors of norm at most 0.99 errtol, refuses infinite errors, and accepts NaN errors (IEEE comparison).", "quantifier": "for all mats, meshes, roundings, stored systems, linear solvers, options with tol >= 0 and kappa errtol <= 1/100, numbers of steps", "why_tests_cant": "Tests run on one floating-point format with one linear solver and small mats; error growth with the number of steps needs a bound for all of them.", "anchors": ["src/fibermat/solver.py:111-189"]}
{"id": "C90", "title": "The picture of a mat and of its mesh", "statement": "The picture of a fiber is a rigid copy of its local coordinates: all distances are kept, the first local coordinate is measured along the direction of the fiber from its centre, and for a horizontal fiber the second one is horizontal and the third one vertical. The picture of a mat is made of the pictures of its fibers in order, each with the label and data of its own fiber, and is refused exactly when the mat is. In the picture of a mesh each point gets the node coordinate of the place where it lies between two neighbouring nodes of its own fiber, and displacement, rotation, curvature and force are interpolated between these two nodes; no exception is raised. The meshes built by the program have nodes at both ends of each fiber, as required. The picture of a compressed mat of horizontal inextensible fibers lies between the two plates at every recorded state (up to 1e-8).", "quantifier": "for all fibers, mats, meshes with nodes at the fiber ends and no two nodes at the same place, cylinder points in the unit box, nearest-neighbour searches, node arrays; for all runs of the chain with exact linear solver", "why_tests_cant": "Tests look at a few pictures; a wrong frame for vertical or reversed fibers, a point attached to a node of another fiber or a fiber drawn through a plate shows up only for particular data.", "anchors": ["src/fibermat/render.py:14-257"]}
{"id": "C91", "title": "The whole computation in floating-point arithmetic", "statement": "Let every operation of Net, Stack, stiffness, constraint and solve be rounded by a monotone rounding with relative error u <= 1/1000, let the linear programming solver return numbers of the format that satisfy its constraints only up to epsilon (and not be optimal), let the linear algebra of Net answer anything that does not depend on the heights of horizontal fibers and finds the ends of the fibers (see C93), and let the linear solver answer anything. For a mat of horizontal fibers with at least one thickness of 40 epsilon or more: the stacked fibers overlap each other and the floor by at most epsilon plus 2u times half the thicknesses; the chain net, stack, mesh, solve raises no exception when the linear programming solver answers programs that have a solution in the format; and in the state recorded after k steps with 400 k u <= 1, along every connection of the mesh the fibers and plates overlap by at most epsilon + (7 kappa errtol + (400 k + 21) u) Z, where Z is the top of the stacked mat. The plate starts within 2 u Z of that top and never goes up. Without rounding, the rounded model gives exactly the results of the exact one.", "quantifier": "for all mats of horizontal fibers, periodicity, thresholds, roundings, linear programming solvers, linear solvers, beam length limits, couplings, options with tol >= 0 and kappa errtol <= 1/100, permutations, numbers of steps", "why_tests_cant": "Tests run on one floating-point format with one version of the solvers; a bound on the overlaps that holds whatever these libraries return needs a proof over all answers and all roundings.", "anchors": ["src/fibermat/net.py:565-591", "src/fibermat/net.py:691-705", "src/fibermat/net.py:747-776", "src/fibermat/model.py:123-183", "src/fibermat/model.py:254-300", "src/fibermat/solver.py:109-189"]}
{"id": "C92", "title": "The network in floating-point arithmetic, with any linear algebra", "statement": "Let every operation of Net.init be rounded by a monotone rounding of relative error u < 1, and let the linear algebra answer anything, except that the determinant of a fiber with itself is found to be zero. For every valid mat, Net raises no exception, its rows are strictly increasing in (A, B), each fiber has exactly one end row with opposite abscissae equal to half its length up to one rounding, the other abscissae of the fiber lie between them, and the coordinates are those of the abscissae up to three roundings. Mesh of that net raises no exception, its beam lengths are not negative and add up to the length of each fiber up to one rounding. For horizontal fibers the heights have no influence. When the solver is accurate to eta, connected nodes are at the same place seen from above up to whole boxes and eta + 3 u size, and two fibers that cross away from their ends are connected, at their crossing up to eta. Without rounding, the results are those of the exact model.", "quantifier": "for all valid mats, periodic or not, roundings, norms and linear solvers with the stated accuracy", "why_tests_cant": "A test uses one floating-point format and one version of LAPACK on a few mats; a fiber without ends or a lost crossing depends on rounding errors for particular directions.", "anchors": ["src/fibermat/net.py:135-140", "src/fibermat/net.py:173-272"]}
{"id": "C93", "title": "The linear algebra used for the network", "statement": "Gaussian elimination with partial pivoting as in LAPACK (column multiplied by the rounded reciprocal of the pivot), with every operation rounded: without rounding it is the exact solution of the normal equations; it does not depend on the heights of horizontal fibers; for two horizontal fibers with squared sine of their angle at least delta >= 100 u, the computed abscissae of a crossing are within 253 u (sum of lengths) / delta^2 of the true ones; so fibers that cross away from their ends are connected, at the right place in an open box, and connected nodes coincide seen from above up to 1100 u (sum of lengths) / delta^2 + 3 u size and whole boxes. With binary arithmetic (round to nearest even, at least 4 bits) the ends of a fiber are found when the squared norm of its direction is close enough to one (for doubles: 7e-9). They are not found for every valid mat: with doubles, two parallel fibers with direction (1 - 3/2^20, 0, 0), which Mat.check accepts, get their ends at their centers and are connected although they are three apart.", "quantifier": "for all valid mats of horizontal fibers, roundings with u <= 1/1000, square roots with relative error u, angles, binary precisions; one concrete mat for the negative part", "why_tests_cant": "Whether a computed determinant is exactly zero depends on the last bits of a product; random tests almost never meet such directions, and the accuracy of a crossing is a bound over all angles.", "anchors": ["src/fibermat/net.py:208-230", "src/fibermat/mat.py:332-333"]}
{"id": "C94", "title": "The whole program in floating-point arithmetic", "statement": "Let every operation of Mat.init, Mat.check, Net, Stack, stiffness, constraint and solve be rounded (monotone rounding with relative error u <= 1e-8; square root within u; cos^2 + sin^2 within epsilon <= 1e-6 of one). Mat(n, ...) succeeds for the same arguments as with exact arithmetic and otherwise raises the same exception; Mat.check accepts norms within 9.9e-6 of one and none further than 1.01e-5; the mat built has squared norms within 3 epsilon + 3 u of one, passes the exact check too and stays accepted when heights change; fibers are within 2 u size of those of exact arithmetic, directions within 2 u (|theta| + |psi|) + 2 eta + u for cosine and sine accurate to eta. The main program (with horizontal fibers and a lower bound on beam lengths, as in main.py) completes exactly when the seed is one accepted by numpy, 0 < n, 0 <= size and the dimensions are positive, and raises ValueError otherwise; in the state recorded after k steps fibers and plates overlap by at most delta + (8 errtol + (400 k + 21) u) Z (delta: error of the linear programming solver, Z: top of the stacked mat); the plate never goes up. With binary arithmetic of at least 27 bits the conditions hold when epsilon is small (1e-9 for doubles). In particular main.py as written, with doubles and correctly rounded cos, sin, sqrt, for any random numbers, any permutation and any answers of the linear solver: it completes, and in each of at most 1001 states overlaps are at most delta + 1e-5 Z.", "quantifier": "for all arguments, random numbers, roundings, permutations, linear solvers, approximate linear programming solvers, iterations", "why_tests_cant": "One run of main.py uses one seed, one platform and one solver; that no rounding error anywhere in the chain loses a fiber end, raises an exception or lets fibers overlap is a statement about all of them.", "anchors": ["main.py:71-97", "src/fibermat/mat.py:159-232", "src/fibermat/mat.py:291-338", "src/fibermat/solver.py:125-189"]}
{"id": "C95", "title": "The functions returned by solve, as computed", "statement": "Interpolate is modelled with rounded arithmetic, infinite and NaN data, any number (at least one) of data points and samples, following the formulas of scipy.interpolate.interp1d for rows and of np.interp for vectors. For two or more data points and samples, between 0 and 1, the computed value of finite data is within 30 u max|y| of a convex combination of the data, with weights that depend neither on the data nor on the storage; they select the first datum at 0 and the last one at 1; outside, the value is the last datum; without rounding it is exactly the value of C51-C55; step interpolation (mask, err) returns exactly the recorded values. Hence the displacements u(t), f(t) and the plate Z(t) returned by solve are numbers and overlap by at most 60 u M more than the records; the deformed mesh mesh.z += u(t) by 2 u B more. For main.py as written, with doubles, at the end of the compression, overlaps are at most delta + 1e-5 Z. What is not a number: the bounds H(t) of the rows without bound (second row of end nodes) are NaN at every time, recorded times included, as soon as one step was made; a history of a single record is NaN at time 0 and, when resampled, up to the second sample (with two samples at all times); one sample gives NaN at 0 and the last record elsewhere.", "quantifier": "for all data, sizes, times, roundings, runs of the solver, roundings of the whole program", "why_tests_cant": "A test evaluates u, Z, H at a few times of a few runs; NaN bounds appear only in rows which assertions like C u <= H silently count as false, and accuracy of all results at all times is a statement about all histories.", "anchors": ["src/fibermat/interpolation.py:43-89", "src/fibermat/solver.py:195-202", "src/fibermat/solver.py:231-232", "main.py:86-97"]}
{"id": "C96", "title": "Loads of the stacked fibers", "statement": "The main block of net.py (also a cell of the notebook) stacks a set of fibers, reads the sensitivities of the linear program (ineqlin.marginals), turns them into a load per fiber and draws fibers and contacts. For every non-empty valid set of planar fibers and every solver returning an optimum with valid sensitivities, it completes. The opposites of the sensitivities are exactly the systems of contact forces that hold the stacked fibers: they push, act only between touching fibers, and with pushes of the floor (on fibers lying on it) balance the weight of every fiber; such forces always exist for the lowest heights. The floor carries the whole weight. The load of a fiber is minus the push it receives from above in mean fiber weights: at most 0, at least minus the weight of the later fibers (for fibers of equal weight, minus their number), 0 for the last fiber, so 0 is the top of the colour scale. Each fiber is drawn once between its two ends, with a colour in [0, 1] that grows with the load, 1 exactly for unloaded fibers and 0 exactly for the most loaded one. The contacts drawn are those with a force above 1e-8, each once, between touching fibers. The loads are not determined by the fibers: a fiber lying on two others gives different pictures with two correct solvers. An empty set of fibers raises AttributeError.", "quantifier": "for all valid planar sets of fibers, periodic or not, all solvers meeting the documented meaning of the marginals", "why_tests_cant": "The block draws random fibers with one solver; that all duals are physical force systems, and that the picture is not unique, are statements about all solvers and all stackings.", "anchors": ["src/fibermat/net.py:783-840", "src/fibermat/net.py:660-704", "src/fibermat/net.py:706-776"]}
{"id": "C97", "title": "Drawings of the mesh", "statement": "The loops that draw a mesh in the main blocks of mesh.py and solver.py (full lines along beams, dashed lines along connections, crosses at ends) complete for the mesh of every network. The full lines join exactly the consecutive nodes of a fiber at different abscissae, in order, with the colour of the fiber; for the network of a valid set of fibers, both ends of each line are on the fiber and every point of every fiber is on exactly one line (the line that would close the cycle of the beam column is never drawn). The dashed lines are the connections between two fibers, each once although both nodes know it, upwards; a connection between fibers at equal heights is not drawn. The crosses are at the two ends of every fiber, each once. For stacked planar fibers all connections are drawn, from the fiber of smaller label; this remains so after any displacement that keeps the fibers apart, in particular for the packed mesh mesh.z += u at every recorded state, the length of the lines being at least the mean thickness of the two fibers in height.", "quantifier": "for all networks, all valid sets of fibers, periodic or not, all thresholds, all recorded states of all runs", "why_tests_cant": "Pictures are not compared in tests; that nothing is missing, doubled or drawn downwards is a statement about all meshes and relies on the pairing of nodes and on non-penetration.", "anchors": ["src/fibermat/mesh.py:348-368", "src/fibermat/solver.py:231-254"]}
{"id": "C98", "title": "The element matrices of the documentation", "statement": "The program printed in the documentation of stiffness (one fiber, its network, its mesh, 4/pi times its stiffness matrix) succeeds for all positive arguments and accepted seeds and prints the matrix of one beam that depends only on the dimensions and moduli, not on the random position and orientation, also when the fiber is longer than the box. It prints the three documented matrices: the linear one (with infinite entries) and the Timoshenko one exactly, the Euler one up to 1e-8. For every fiber with psi2 = E/G (h/l)^2 the matrix is that of an Euler-Bernoulli beam of bending stiffness E b h^3/12 up to a relative error 7 psi2 in every entry; its transverse entries are those of the beam that only shears up to a relative error 1/psi2, and its moments grow as psi2 with the signs of the infinite entries.", "quantifier": "for all random generators, all states of the generator, all positive dimensions and moduli", "why_tests_cant": "The documentation shows three runs; the limits psi2 << 1 and psi2 >> 1 are statements about all moduli, and the independence of the random numbers about all generators.", "anchors": ["src/fibermat/model.py:83-114", "src/fibermat/model.py:406-427", "docs/api/model.rst:24-83"]}
{"id": "C99", "title": "The script that compresses a logo", "statement": "In scripts/logo.py the selection of the random points by the picture of the letters never raises IndexError: it keeps exactly the points that fall in a pixel of a letter, in their order, and no letter is cut by the region where points are drawn. The set of fibers obtained by replacing the columns x and y (the latter with opposite sign) by these points is valid, with one fiber centred at each point, of the dimensions and moduli given. With solve in place of the name solver, the script succeeds exactly when the seed is accepted by numpy and one point is in a letter (otherwise it raises ValueError), moves fibers only in height when stacking, never lets fibers penetrate each other or the plates, and ends at packing 4 or squeezed to the height of two crossing fibers (of one fiber if none cross) when the iterations suffice.", "quantifier": "for all random generators, seeds and numbers of points, all linear programming and linear solvers within their contracts", "why_tests_cant": "The script runs one seed; an index error or a point lost at a border of the picture occurs for rare random numbers only, and the result statements are about all runs.", "anchors": ["scripts/logo.py:3-46"]}
{"id": "C100", "title": "The computation of the notebook is controlled by the settings", "statement": "In the notebook the functions of the package are called with **inputs, a Settings object. The computation (Mat, Net, Stack, Mesh, solve) is made exactly with the values written last to the settings, or the documented ones where nothing was written: angles multiplied by pi, values outside a slider moved to its ends, modulus switched off as infinite, optional value switched off as None, no out-of-plane angle. Keywords that no function knows are ignored without error (a misspelled threshold keeps all nodes). A write a setting does not accept stops with TraitError. The computation ends normally exactly when the seed is accepted by numpy and the number of fibers, dimensions and moduli are positive and the box size not negative, otherwise ValueError (in particular with the settings as created, n = 0). With a seed, running a cell again gives the same result. The result is that of main.py with these values and the unknowns in their order: fibers never penetrate, and with enough iterations the packing asked for or the height of two crossing fibers is reached; the fields at t = 1 are those of the last state. All this is proved for the values of the tutorial in particular. Leaving out a keyword is the same as writing its documented value; a number of fibers that is not an integer, given to Mat as a keyword, is refused with a TypeError.", "quantifier": "for all lists of writes to the settings, random generators and states, linear programming and linear solvers within their contracts", "why_tests_cant": "No test covers the settings together with the functions they are handed to; a keyword silently ignored or a value read in the wrong unit shows only as a different result.", "anchors": ["jupyter-notebook.ipynb", "src/fibermat/widgets.py:27-219", "src/fibermat/mat.py:124-160", "src/fibermat/net.py:145", "src/fibermat/net.py:532-569", "src/fibermat/solver.py:13-110", "src/fibermat/model.py:12"]}
{"id": "C101", "title": "The random numbers of a mat are those of the Mersenne Twister with the given seed", "statement": "For every seed of 32 bits, after np.random.seed(seed) the k-th number drawn by np.random.uniform is computed from words 2k and 2k+1 of the published recurrence of MT19937 (which has exactly one solution for each seed), although the generator updates its array in place and in blocks: the array always has 624 words and the position never leaves it. From any state every number is k/2^53 with 0 <= k < 2^53, hence in [0, 1), and drawing in [-0.5, 0.5) makes no rounding error with doubles. Hence the programs of C87, C94, C95 and the tutorial of C100 run as stated there with no hypothesis on the random numbers.", "quantifier": "for all seeds, numbers of draws and states of the generator", "why_tests_cant": "The tests use seed 0 and ten fibers only; the statement is about every seed and arbitrarily many draws (across the blocks of 624 words).", "anchors": ["src/fibermat/mat.py:199-212", "scripts/logo.py:23-26", "main.py:72"]}
{"id": "C102", "title": "The contact forces returned by a simplex method form a tree of supports", "statement": "For fibers stacked by Stack, forces that hold the fibers are a vertex of the set of such forces (not the middle of two others; what a simplex method returns) exactly when no fiber rests on two loaded contacts; then every fiber above the floor rests on exactly one loaded contact, which carries its weight and all that presses on it, fibers on the floor rest on none, and there are as many loaded contacts as fibers above the floor. Each choice of a touching contact under each fiber above the floor is the set of loaded contacts of exactly one vertex. Vertices among the sensitivities of the program correspond to vertices among the forces. With such a solver the picture of net.py draws as many contacts as there are fibers above the floor, and for fibers of equal weight all loads are whole numbers.", "quantifier": "for all valid sets of fibers, networks, stacked heights, systems of forces and correct solvers", "why_tests_cant": "Tests show one picture from one solver; the statement is about every optimal answer of the linear program, of which there are infinitely many.", "anchors": ["src/fibermat/net.py:640-705", "src/fibermat/net.py:783-840"]}
{"id": "C103", "title": "Pairs of fibers given by the user to Net in an open or periodic box", "statement": "With pairs of positions in range (from either end) of the list of fibers and boundary copies, Net never raises and gives a valid net; with a position out of range it raises IndexError. For planar fibers no longer than half the box (any fibers in an open box) the net depends only on the set of unordered pairs (order of the list, order within a pair and repetitions do not matter), every connection found from given pairs is a connection of the net without pairs, and giving all pairs is the same as giving none. For longer fibers the order of the pairs can change the net (negation with a concrete case).", "quantifier": "for all valid sets of fibers, boxes and lists of pairs", "why_tests_cant": "The tests never pass `pairs`; the statement covers all lists of pairs and all images in the periodic box.", "anchors": ["src/fibermat/net.py:145-330"]}
{"id": "C104", "title": "The simulation does not depend on the direction chosen along each fiber", "statement": "Reversing the direction of any set of fibers of a mat (same segments, opposite unit vectors) gives the same net and the same stack (points of contact, heights), the same nodes and connections of the mesh up to numbering along the fiber, and, when no two crossings of a fiber coincide, the same run of the solver: same displacements, forces, gaps, active rows, heights of the plate and packing at every recorded step, rotations being counted in the other direction on reversed fibers, for any correct linear programming and linear solvers, on the whole chain Mat -> Net -> Stack -> Mesh -> stiffness/constraint -> solve. When two crossings coincide it is false: a concrete mat compresses differently after one fiber is reversed (negation proved).", "quantifier": "for all valid planar mats, all subsets of reversed fibers, all solvers, permutations, tolerances, packings and iteration counts", "why_tests_cant": "Tests use random directions with one seed; the statement compares two runs over all mats and all 2^n choices of directions, through degenerate steps of the solver.", "anchors": ["src/fibermat/mat.py:130-230", "src/fibermat/net.py:145-330", "src/fibermat/mesh.py:97-220", "src/fibermat/model.py:12-300", "src/fibermat/solver.py:22-230"]}
{"id": "C105", "title": "Longer runs extend shorter ones", "statement": "Running the solver again with more iterations, a higher packing target or a larger error tolerance (same system, solver, order of unknowns and tol) gives records that begin with all the records of the first run, unchanged. With the same error tolerance the first run is exactly the longer one cut after its first record that reaches the packing asked for, or after the number of iterations. The same holds on the whole chain Mat -> Net -> Stack -> Mesh -> solve. Whether an exception is raised does not depend on packing, itermax, errtol, tol, solver and permutation.", "quantifier": "for all mats, meshes, systems, linear solvers, pairs of ordered options and iterations", "why_tests_cant": "A test compares two particular runs; the claim relates any two runs of unbounded length and every reason to stop.", "anchors": ["src/fibermat/solver.py:113-190"]}
{"id": "C106", "title": "Interpolation of integers and booleans", "statement": "Interpolate converts its values back to the type of the data. For integers: data are reproduced at their own times and at both ends; in between the value is the interpolated number moved towards zero by less than one, stays between any integer bounds of the data and is non-decreasing in t for non-decreasing data. With kind='previous' (used for mask and err) nothing is lost: the integer or boolean of the last step not after t is returned. Linear interpolation of booleans is true at t exactly if one of the data is true at less than one step from t.", "quantifier": "for all lists of at least two integers or booleans, both kinds, all sizes of at least two and t in [0,1]", "why_tests_cant": "Rounding towards zero of negative values and exactness for every step and t between steps cannot be enumerated.", "anchors": ["src/fibermat/interpolation.py:43-89", "src/fibermat/solver.py:195-203"]}
{"id": "C107", "title": "Numbers of the fibers do not matter as long as crossing fibers keep their order", "statement": "Numbering the fibers of a mat otherwise, such that of two crossing fibers the same one keeps the larger number, gives the same net, the same stacking heights, the same kept pairs, the same mesh up to the numbers of the nodes and the same simulation: equal displacements, rotations, contact forces, gaps, active rows, plate heights, packings and reason to stop, with any correct linear programming and linear solvers and any order of the unknowns. The net part holds with and without periodicity; the run supposes a planar mat whose crossings on a fiber are at distinct abscissae. If two crossing fibers are exchanged the heights differ (witness).", "quantifier": "for all mats with positive sizes, renumberings keeping the order of crossing fibers, thresholds, correct solvers, options and iterations", "why_tests_cant": "There are n! numberings of each mat and any number of iterations; a test compares two particular runs up to rounding.", "anchors": ["src/fibermat/mat.py:130-230", "src/fibermat/net.py:145-330", "src/fibermat/mesh.py:97-220", "src/fibermat/model.py:12-300", "src/fibermat/solver.py:22-230"]}
{"id": "C108", "title": "The buttons of the notebook", "statement": "MatplotlibButton: after n clicks the mode is inline for even n and qt for odd n (unless the button is created with the text of the mode as description, then it starts with qt); text, attribute value and last command sent to IPython always agree, n+1 commands having been sent alternately. PipButton: the command installs every package given, in order; the button says Installed exactly if pip reports success, even when the versions cannot be read; if every import prints its version on one line, the table shows each package once, in order, with the version of its own module, also for packages imported under another name and after any earlier clicks.", "quantifier": "for all numbers of clicks, lists of packages and keywords, options, outcomes of the shell and versions without line breaks", "why_tests_cant": "Depends on the shell, the network and an unbounded number of clicks; the alignment of names and versions must hold for every list.", "anchors": ["src/fibermat/widgets.py:24-123", "src/fibermat/widgets.py:126-179"]}
{"id": "C109", "title": "The mat compressed from above or from below", "statement": "Turn a stacked planar mat upside down between its two plates (heights z -> Z - z, fibers listed in reverse order). In an open box the net, the mesh and the whole compression are those of the first mat, upside down: same number of steps and packings, node heights mirrored between the plates at every step, opposite rotations, equal contact forces with floor and ceiling exchanged, for any correct linear programming and linear solvers and permutations. In a periodic box the net of the mat turned upside down may keep another crossing of the same pair of fibers (proved on an example).", "quantifier": "for all valid planar mats without coinciding crossings on a fiber, |coupling| <= 1 with infinite tensile moduli or < 1, all options and all correct solvers", "why_tests_cant": "Relates two whole runs with different node numbers; the lower and upper plates enter the code in different ways (only the upper one moves).", "anchors": ["src/fibermat/net.py:145-272", "src/fibermat/mesh.py", "src/fibermat/model.py:46-300", "src/fibermat/solver.py:49-240"]}
{"id": "C110", "title": "Cubic interpolation is the not-a-knot spline", "statement": "Interpolate(y, size, kind='cubic') needs four data and four samples (any fewer is an error) and otherwise equals, on [0,1], the spline of third order through the data (pieces of degree 3 joined with equal slope and curvature, no knot at the second and last but one points), which exists and is unique; with size given, the spline through the samples of that spline. Data are reproduced at their times when these are samples; polynomials of degree 3 are reproduced exactly for any size; the value is linear in the data and symmetric in time; outside [0,1] it is the last datum. Unlike the other kinds it can leave the range of monotone data (proved on an example). The kind 'linear' reproduces lines, so the main block of interpolation.py draws nodes where the curves pass.", "quantifier": "for all data, sizes and times", "why_tests_cant": "Existence and uniqueness for any number of points; exactness on all polynomials.", "anchors": ["src/fibermat/interpolation.py:43-89", "src/fibermat/interpolation.py:96-114"]}
{"id": "C111", "title": "Symmetric mats are compressed symmetrically", "statement": "If a planar mat is its own image by a rotation, mirror or translation of the plane (in a periodic box: translation by any vector, quarter turns and mirrors, fibers no longer than half the box), directions of fibers being arbitrary and crossing fibers being in the same order in the image, then the nodes of its mesh are exchanged by the symmetry, and at every step of the compression exchanged nodes have the same displacement, contact forces and gaps, and the same or (direction reversed) opposite rotations; the middle of a fiber turned end for end does not rotate. Without the order the claim is false (a cross and its quarter turn).", "quantifier": "for all valid planar mats without coinciding crossings on a fiber, symmetries, options, |coupling| <= 1 with infinite tensile moduli or < 1, correct solvers and permutations", "why_tests_cant": "The numbering of nodes and unknowns is not symmetric; the claim is about every symmetric mat and every step.", "anchors": ["src/fibermat/net.py:145-272", "src/fibermat/net.py:532-760", "src/fibermat/mesh.py", "src/fibermat/model.py:46-300", "src/fibermat/solver.py:49-240"]}
{"id": "C112", "title": "Fibers added to or removed from a mat", "statement": "Whether, where and with which copy two fibers are connected does not depend on the other fibers of the mat, even in a periodic box where the reach of the copies is set by the longest fiber: the net of a part of a mat is the part of its net. Leaving out fibers raises no other fiber; it changes no height, and the stacked net is the part of the stacked net, if every fiber lying under a kept fiber that crosses it is kept too (without this it is false); in particular fibers listed last change nothing for the others. Thicknesses, widths and moduli do not change the net, and thicker fibers raise each fiber by at least half of its own added thickness and at most this plus the thickness added to the fibers before it.", "quantifier": "for all valid mats, parts, periodic or plain boxes, correct solvers of the stacking problem and thresholds", "why_tests_cant": "The periodic copies are selected with the longest fiber and duplicates are removed by position in a sorted list; that the choice does not matter holds for every mat, not for sampled ones.", "anchors": ["src/fibermat/net.py:145-272", "src/fibermat/net.py:532-760"]}
{"id": "C113", "title": "A periodic mat repeated several times is compressed in the same way", "statement": "Repeat the cell of a planar periodic mat p x p times in a box p times as large, all copies of a fiber being listed together. If fibers are no longer than half the cell, each connection of the larger periodic net is a copy of a connection of the cell, at the same abscissae, and each copy of a fiber has exactly one copy of each connection of the fiber; the copies are stacked at the height of the fiber; the mesh repeats the mesh; and the solver makes the same number of steps on both systems, with the same plate heights, and with the displacements, rotations, contact forces and gaps of the cell on every copy. With fibers longer than half the cell this is false: the net of the cell loses crossings that the larger mat keeps.", "quantifier": "for all valid planar periodic mats with fibers no longer than half the box and distinct crossings, all p >= 1, all repetitions keeping the order of the fibers, all correct solvers, thresholds, bounds of lengths, couplings and targets", "why_tests_cant": "The larger system has p x p times as many unknowns, another ordering, another elimination and other images across the sides; equality of the two runs step by step for every mat and every p is not a matter of samples.", "anchors": ["src/fibermat/net.py:145-272", "src/fibermat/net.py:499-591", "src/fibermat/mesh.py", "src/fibermat/model.py", "src/fibermat/solver.py"]}
{"id": "C114", "title": "Stiffer fibers make a stiffer mat, except for the shear modulus", "statement": "The slope of the curve force against plate displacement in a step is twice the elastic energy of the motion of the step per unit descent of the plate. For two runs on the same mesh, the second with fibers of the same thickness, at least the widths and tensile moduli of the first, and a coupling of at most the same magnitude (at most 1): the initial slope of the second is at least that of the first, and so are later slopes whenever its step keeps closed the gaps that the step of the first keeps closed; and at the same height of the plate, or lower, the second has stored at least the elastic energy of the first when nothing overlaps at the start and no contact of the first pulls (up to tol times the contact forces). Larger shear moduli do the same when the coupling of the second is zero. With the default coupling 1 this is false: doubling the shear moduli of a concrete mat lowers its initial slope.", "quantifier": "for all mats, valid meshes, length bounds, exact linear solvers, permutations, options and pairs of records; the counterexample for one mat", "why_tests_cant": "A comparison of all pairs of runs with different materials; no sample of materials shows that the order is kept, nor in which parameter it is not.", "anchors": ["src/fibermat/model.py:13-183", "src/fibermat/solver.py:13-189"]}
{"id": "C115", "title": "The beam element is not that of a Timoshenko beam", "statement": "The documentation of stiffness says that the element is built using a Timoshenko beam law. With coupling 1 and finite tensile moduli, the energy of K is that of Timoshenko beams of bending stiffness E A h^2 / 12 and shear stiffness G A, plus 11/12 (E A h^2 / l) / (1 + (G/E) (l/h)^2) times the square of the difference of the end rotations of each beam: the term (E/G) h^2 of the element should be (E/G) h^2 / 12. The element is never softer than the Timoshenko beam, and up to 12 times stiffer in bending. No values of bending and shear stiffness make it a Timoshenko beam for all lengths. In pure bending it softens when the shear modulus grows. A Timoshenko beam may be divided by a free node without change; dividing the element of the code by a node that touches nothing makes it stiffer, strictly when the ends turn by different angles.", "quantifier": "for all mats with finite tensile moduli, meshes with positive beam lengths, all displacements, fibers, lengths and places of the dividing node", "why_tests_cant": "An identity of the quadratic form for all displacements and lengths; tests of symmetry or positivity of K pass with the wrong term.", "anchors": ["src/fibermat/model.py:16-44", "src/fibermat/model.py:100-183"]}
{"id": "C116", "title": "Connections dropped by the threshold: how long they stay open, and that they can be pierced", "statement": "A connection of the stack that the threshold t drops joins fibers whose axes are more than t apart. In the compression of a planar stacked mat with a threshold not below the thicknesses, without coupling or with infinite tensile moduli, all nodes of the two fibers, and the points between nodes, stay more than t minus the travel of the plate apart in height; so the dropped connection stays open while the travel is at most t - (hA + hB)/2. Beyond, nothing prevents penetration: for a concrete mat with a threshold not below any thickness, at the end of the compression, for every correct solver and every coupling up to 1, the upper fiber is at least 1/4 inside the lower one at the dropped crossing.", "quantifier": "for all planar mats, thresholds, meshes of their stacks, length bounds, options, exact solvers, records and nodes; the counterexample for one mat and all solvers and couplings", "why_tests_cant": "A bound for all mats and all steps; and the penetration is invisible to the constraints of the solver, which no longer know the crossing.", "anchors": ["src/fibermat/net.py:405-500", "src/fibermat/model.py:185-310", "src/fibermat/solver.py:13-189"]}
{"id": "C117", "title": "Longer beams make a softer mat without coupling, but not with coupling", "statement": "Raising the length bounds lmin and lmax (with lower bounds not above the upper ones) makes no beam shorter. If no beam is shorter, and the run with the shorter beams has coupling 0 or all tensile moduli infinite (and the couplings are at most 1 in size), the mat is not stiffer: the slope of the force of the plate against its travel is not larger at the beginning, and in every pair of steps where the motions followed by the one are followed by the other; and at equal or larger height of the plate, the elastic energy is not larger (up to the tolerance), when nothing overlaps at the start and no contact pulls. With coupling 1, the default, this fails: a mat of two crossed fibers has slope zero without lmin and a positive slope with lmin = 6, although its beams are only longer.", "quantifier": "for all mats, valid meshes, length bounds, couplings, options, exact solvers, records; the counterexample for one mat", "why_tests_cant": "A comparison of two runs for all mats and all length bounds; a test compares finitely many pairs, and the sign of the effect differs between mats when the coupling is 1.", "anchors": ["src/fibermat/model.py:13-183", "src/fibermat/solver.py:13-189"]}
{"id": "C118", "title": "Random mats: laws of the fibers, mean and variance of the number of connections", "statement": "Let the numbers drawn by Mat be independent and uniform in [0, 1), with psi = 0. The coordinates of the centres and the angles of the fibers are independent and uniform, in the box and in an interval of length theta; the heights are independent uniform numbers, independent of the others, in increasing order. In a periodic box, if the fibers are not longer than half the box and 0 < theta <= pi, two given fibers are connected with probability c = l^2/S^2 * 2 (theta - sin theta)/theta^2, the network has n + c n(n-1)/2 rows in the mean, and the mesh of the stacked mat without threshold 2 n + c n(n-1) nodes. For theta = pi, c = 2 l^2/(pi S^2) (Buffon's needle), two different pairs of fibers are connected independently of each other, also if they share a fiber, and the variance of the number of rows is c (1-c) n(n-1)/2.", "quantifier": "for all probability spaces, sequences of independent uniform numbers, numbers of fibers, lengths, sizes, angles and other arguments; all runs", "why_tests_cant": "A law of random mats; a test with seeds sees finitely many mats and can only estimate the probabilities. A wrong periodic copy, a wrong range of the draws or two columns that share their draws would shift them.", "anchors": ["src/fibermat/mat.py:159-232", "src/fibermat/net.py:145-272", "src/fibermat/mesh.py:135-200"]}
{"id": "C119", "title": "Opening the box: the periodic network contains the open one", "statement": "For every valid mat, whatever the lengths and directions of the fibers, the rows of Net(mat, periodic=False), with their abscissae and points, are rows of Net(mat, periodic=True), in the same order: removing repeated connections never replaces a connection of the original fibers by one of their copies. Hence no fiber is stacked higher in the open box than in the periodic box, and without threshold the mesh of the open box has at most as many nodes (horizontal fibers). If all fibers are horizontal and their axes lie inside the box, both networks have the same rows, and net, stack, mesh and solver give the same result with periodic=False and periodic=True.", "quantifier": "for all valid mats, linear programming and linear solvers, thresholds, options; all runs", "why_tests_cant": "A comparison of two runs for all mats; which of several copies is kept depends on the order of pairs, the stability of the sort and drop_duplicates, and a test sees it only when two copies of the same fibers cross.", "anchors": ["src/fibermat/net.py:145-272", "src/fibermat/net.py:532-591", "src/fibermat/mesh.py:135-200", "main.py:72-97"]}
{"id": "C120", "title": "Settings in a session where values are refused", "statement": "In a notebook an exception ends a cell, not the session. A refused assignment settings[name] = v keeps every stored value and every other setting; the setting itself reads as before if it has no check box or was switched on, but if it was switched off it is on afterwards and reads as the stored value (so it is false that a refused value changes nothing: settings['tensile'] = None raises on the default settings and the tensile modulus then reads 625 instead of infinity). A call settings(**kwargs) that raises has done the writes before the refused one and none after. After every session of writes, calls, clicks and edits: a widget is grey exactly when its check box is off; the sliders are in range; a check box is where the last event concerning it put it; a setting in use reads as the last accepted value.", "quantifier": "for all sessions (lists of writes, calls, clicks and edits, with refused values anywhere)", "why_tests_cant": "All histories, with exceptions at any place; the state left by an exception depends on the order of the two assignments in __setitem__.", "anchors": ["src/fibermat/widgets.py:71-99", "src/fibermat/widgets.py:176-204", "src/fibermat/widgets.py:206-219"]}
{"id": "C121", "title": "Neighbours of a fiber in a random mat", "statement": "In a mat of n fibers drawn by Mat(seed=..., psi=0) with directions uniform over the half turn, in a periodic box at least twice as long as the fibers, with p = 2 l^2 / (pi S^2): any given connections without cycle exist together with the probability p^k, k their number; the number of connections of a given fiber is binomial with n - 1 trials of probability p; a fiber is isolated with the probability (1 - p)^(n-1); a fiber has two more nodes than connections in the mesh of the network, stacked (without threshold) or not, so the law of its number of nodes is known too; the fraction of connected pairs differs from p by c or more with a probability of at most p (1 - p) / (c^2 n (n - 1) / 2).", "quantifier": "for all sequences of independent uniform draws, all arguments in range, all fibers and all lists of pairs without cycle", "why_tests_cant": "A law over all seeds; a test sees one seed at a time and the independence of the connections of a fiber is not visible in one mat.", "anchors": ["src/fibermat/mat.py:159-232", "src/fibermat/net.py:145-272", "src/fibermat/mesh.py:135-202"]}
{"id": "C122", "title": "Piles of fibers and the thickness of a random stack", "statement": "After Stack, the top of each fiber is at the largest total thickness of a pile ending with this fiber (a list of fibers in increasing order, each connected to the next in the network). Hence in a mat of n fibers of thickness h drawn by Mat(seed=..., psi=0) with directions uniform over the half turn, in a periodic box at least twice as long as the fibers, with p = 2 l^2 / (pi S^2) and for every threshold: the mean number of piles of k + 1 fibers is C(n, k+1) p^k; the stack is at least (k + 1) h high with a probability of at most C(n, k+1) p^k; the mean height of the stack, or of any fiber chosen in it, is at most h (c + sum over k from c to n - 1 of C(n, k+1) p^k) for each c; fiber number i is at least (k + 1) h high with a probability of at least that of k or more successes in i trials of probability p, hence its mean height is at least h (1 + i p); fiber number i lies on the floor with the probability (1 - p)^i, and the mean number of fibers on the floor is (1 - (1 - p)^n) / p.", "quantifier": "for all valid sets of fibers, networks and thresholds (first part); for all sequences of independent uniform draws, all arguments in range, all correct linear programs, all k and c", "why_tests_cant": "The longest pile is a maximum over exponentially many lists of fibers, and the rest is a law over all seeds; a test sees one seed at a time.", "anchors": ["src/fibermat/mat.py:159-232", "src/fibermat/net.py:145-272", "src/fibermat/net.py:499-600"]}
{"id": "C123", "title": "Larger and larger random mats with the same number of fibers per area", "statement": "For mats of 1, 2, 3, ... fibers of length l drawn by Mat(seed=..., psi=0) with directions uniform over the half turn, in periodic boxes at least twice as long as the fibers, the number of fibers per area tending to rho, with lambda = 2 rho l^2 / pi: the number of neighbours of a fiber tends to the Poisson law of mean lambda; so does the number of its nodes in the mesh of the stack (without threshold), less two; the fiber is isolated with a probability tending to exp(-lambda); a fiber a fraction tau of the way up the list lies on the floor of the stack with a probability tending to exp(-lambda tau); the mean number of fibers on the floor per area tends to pi / (2 l^2) (1 - exp(-lambda)), whatever the box; the number of rows of the network per fiber tends to 1 + lambda / 2 in probability.", "quantifier": "for all sequences of independent uniform draws, all such sequences of arguments, all choices of a fiber in each mat, all correct linear programs", "why_tests_cant": "A limit over the number of fibers of laws over all seeds.", "anchors": ["src/fibermat/mat.py:159-232", "src/fibermat/net.py:145-272", "src/fibermat/net.py:499-600", "src/fibermat/mesh.py:83-180"]}
{"id": "C124", "title": "Places of the connections along a fiber of a random mat", "statement": "In a mat of n fibers of length l drawn by Mat(seed=..., psi=0) with directions uniform over the half turn, in a periodic box of side S at least twice as long as the fibers, with p = 2 l^2 / (pi S^2): the abscissae (sA or sB) of the connections of a fiber with the others are uniform along the fiber and independent, that is, given fibers j are connected with it between given abscissae alpha_j, beta_j, and other given fibers are not connected with it, with the product of the probabilities p (beta_j - alpha_j) / l and 1 - p; in the mesh of the stack (without threshold) the numbers of nodes of the fiber strictly inside segments that do not overlap have the multinomial law of n - 1 trials with these probabilities (binomial for one segment); a segment of length c is free of nodes with the probability (1 - 2 l c / (pi S^2))^(n-1). When n grows with a number of fibers per area tending to rho, the nodes along the fiber tend to a Poisson process of 2 rho l / pi nodes per length: the numbers of nodes in segments that do not overlap tend to independent Poisson numbers, and the length free of nodes from a given point is exponential.", "quantifier": "for all sequences of independent uniform draws, all arguments in range, all fibers, all finite sets of fibers and finite lists of segments that do not overlap, all correct linear programs", "why_tests_cant": "A joint law over all seeds and arbitrarily many segments, and a limit over the number of fibers; a test sees one seed at a time.", "anchors": ["src/fibermat/mat.py:159-232", "src/fibermat/net.py:145-272", "src/fibermat/net.py:499-600", "src/fibermat/mesh.py:83-180"]}
{"id": "C125", "title": "Random mats in an open box", "statement": "In a mat of n fibers of length l drawn by Mat(seed=..., psi=0) in a box of side S at least as long as the fibers, with directions uniform in an interval of length theta at most pi, and p = (l/S)^2 times the mean sine of the angle between two fibers (the probability of connection in a periodic box): in the network of the open box (periodic=False) two given fibers are connected with a probability between (1 - l/S)^2 p and p, and the mean number of rows lies between n + n(n-1)/2 (1 - l/S)^2 p and n + n(n-1)/2 p. When n grows with a number of fibers per area tending to rho (directions uniform over the half turn), the mean number of rows per fiber tends to 1 + rho l^2 / pi, as in periodic boxes: the effect of the border vanishes.", "quantifier": "for all sequences of independent uniform draws, all arguments in range, all pairs of fibers, all sequences of growing mats", "why_tests_cant": "A mean over all seeds and a limit over the number of fibers; a test sees one seed at a time.", "anchors": ["src/fibermat/mat.py:159-232", "src/fibermat/net.py:145-272"]}
{"id": "C126", "title": "Fields of the picture in floating-point arithmetic", "statement": "With rounded arithmetic of unit u (at most 1/1000; integers up to N, the number of nodes, being exact), for a fiber whose nodes are further apart from each other than the fraction 4u of its length: a node whose computed squared distance to a point is least is nearest up to the fraction 4u; the points, multiplied by 0.9999, stay strictly inside the fiber (u at most 1e-5); the node coordinate that vtk_mesh computes for a point lies between the numbers of the two nodes around the point and differs from the exact one by at most (N+5)u; the displacement and force shown differ from the cubic through the values of these two nodes by at most 37(N+10)uB and the rotation shown from its slope by at most 54(N+11)uB, where B bounds the values and slopes at the nodes. For nodes closer than that it fails: with doubles there is a fiber with four nodes and displacements between 0 and 1 for which the node coordinate exceeds 2^70 and the displacement shown is below -2^200.", "quantifier": "for all roundings (monotone, idempotent, relative error u), all fibers, points, fields; one witness for the failure", "why_tests_cant": "Rounding errors for all positions of nodes and points; the failure needs almost coincident crossings.", "anchors": ["src/fibermat/render.py:74-96", "src/fibermat/render.py:219-257"]}
{"id": "C127", "title": "Which contacts can pull", "statement": "In a run of solve with infinite tensile moduli (the default) or coupling = 0, with an exact linear solver and tol >= 0: each pair of nodes has its three rows in the constraint matrix, one for the floor under the lower node, one for the contact of the two nodes and one for the plate over the upper node. In a step from a state whose fibers are supported, the forces of the floor and of the plate never decrease at any node, and the force of a contact does not decrease if its lower node rests on the floor or its upper node touches the plate. So, if the fibers are supported at the start (in particular for all planar mats that went through Net, Stack and Mesh), the floor and the plate never pull, and neither do the contacts next to them. A contact between two other nodes can pull, even with infinite tensile moduli, an admissible start, supported fibers and an exact solver, and even in a planar mat that went through Net, Stack and Mesh: the documented f >= 0 does not hold.", "quantifier": "for all accepted mats, meshes, beam lengths, exact solvers, permutations, tolerances, all recorded states and all contacts; two witnesses for the failure", "why_tests_cant": "A sign condition on all forces in all states for all networks; it follows from a maximum principle, not from cases.", "anchors": ["src/fibermat/model.py:118-175", "src/fibermat/model.py:186-300", "src/fibermat/solver.py:17-25", "src/fibermat/solver.py:139-184"]}
{"id": "C128", "title": "Fibers with infinite tensile modulus are bent like strings", "statement": "In a run of solve with an exact linear solver and tol >= 0, for each recorded state and each node of a fiber with infinite tensile modulus (the default): the force of the contacts on the node is G A times the jump of the slope of the displacement of the fiber at the node (slope before minus slope after, with the lengths of the beams used in the stiffness matrix; the slope beyond the ends of the fiber counts as zero). So the displacement runs straight through each node that touches nothing (no plate and not the node it is paired with, within tol); with true beam lengths, the displacements between two nodes of the fiber with nothing touching in between are interpolated linearly in the abscissa; beyond the last node that touches something, and before the first one, the fiber is displaced as a whole. The other fibers of the mat may have any tensile modulus.", "quantifier": "for all accepted mats, valid meshes, beam length bounds, coupling factors, exact solvers, permutations, tolerances, all recorded states and all nodes", "why_tests_cant": "An identity for all nodes in all states; a test sees some shapes, not the law that determines them.", "anchors": ["src/fibermat/model.py:17-127", "src/fibermat/model.py:130-256", "src/fibermat/solver.py:13-189"]}
{"id": "C129", "title": "Shear force and bending moment along the fibers", "statement": "In a run of solve with an exact linear solver and tol >= 0, for each recorded state and each node of a fiber: the force of the contacts on the node is the jump of the shear force (before minus after; zero beyond the ends of the fiber), the shear force in a beam of length l between displacements ui, uj and rotations ti, tj being its transverse stiffness times uj - ui - coupling l (ti + tj)/2; so the shear force is unchanged at a node that touches nothing. With coupling = 1, the bending moment of a fiber of finite tensile modulus, linear along each beam with the opposite of the shear force as slope, passes continuously through the nodes and vanishes at the ends of the fiber. With true beam lengths, shear force and moment at any node follow from the contact forces on one side by statics (sum of forces, sum of forces times lever arms), and a part of the fiber beyond its last (or before its first) touching node is displaced like a rigid rod. Three-point bending: in a fiber of three nodes with equal spans l and equally displaced ends, the force at the middle is 2 k (l^2/12 + E h^2/G)/(l^2/3 + E h^2/G) times the deflection, k being the transverse stiffness of a span, and each end bears half of it.", "quantifier": "for all accepted mats, valid meshes, exact solvers, permutations, tolerances, all recorded states and all nodes (beam length bounds and coupling factors where not fixed above)", "why_tests_cant": "Statics of all fibers in all states; a test compares some forces with some formula.", "anchors": ["src/fibermat/model.py:17-127", "src/fibermat/model.py:130-256", "src/fibermat/solver.py:13-189"]}
{"id": "C130", "title": "A bound on the force of the plate", "statement": "In a run of solve with |coupling| <= 1, an exact linear solver and tol >= 0: between consecutive recorded states the force of the upper plate grows by at most its descent times the sum of the transverse stiffnesses of the beams that join a node pressed by the plate (touched by it, or lying under and touching a node touched by it, within tol) to a node that is not pressed; so it does not change when there is no such beam; and when every node of the beams is pressed, or rests on the lower plate in the same sense, it grows by at least (1 - coupling^2) times that bound. The force does not change in a step exactly when every beam moves as a rigid body (turning only when |coupling| = 1 and the tensile modulus is finite); once it has grown in a step, it grows in every later one. At every recorded state the force is at most the total descent of the plate times the sum of the transverse stiffnesses of all the beams, and twice the elastic energy at most the square of the descent times that sum.", "quantifier": "for all accepted mats, valid meshes, beam length bounds with positive lengths, couplings in [-1, 1], exact solvers, permutations, tolerances, and all recorded states", "why_tests_cant": "A bound for all mats and all states; a test compares some forces with some bound.", "anchors": ["src/fibermat/model.py:17-127", "src/fibermat/model.py:130-256", "src/fibermat/solver.py:13-189"]}
{"id": "C131", "title": "A run started again from the deformed mesh", "statement": "Let a be a recorded state of a run of solve (exact linear solver, tol >= 0, admissible start, valid mesh). The run started again from the mesh deformed by a (mesh.z += u[::2]), with the iterations that are left and the packing target that is left (the target times Z_a / Z_0, as packing is counted from the new thickness), is the rest of the first run: it ends for the same reason after as many further records, the plate is at the same heights, displacements and contact forces are those of the first run minus those of a, and masks and errors of the steps are the same. The shape after both runs is the shape after the first run.", "quantifier": "for all accepted mats, valid meshes with admissible start, beam length bounds with positive lengths, couplings, exact solvers, permutations, tolerances, targets, and all recorded states", "why_tests_cant": "Tests would compare some interrupted runs with some uninterrupted ones, up to rounding.", "anchors": ["src/fibermat/solver.py:109-189", "src/fibermat/solver.py:231-232", "docs/api/solver.rst:33-34"]}
{"id": "C132", "title": "The mat as a network of springs", "statement": "A unit flow carries one unit along the beams from the nodes pressed by the upper plate to the nodes resting on the lower one, nothing being lost or added at the other nodes (two nodes in contact count as one). In every step of solve (valid mesh, exact linear solver, |coupling| <= 1), (1 - coupling^2) times the descent of the plate is at most the growth of its force times the sum of flow^2 / k over the beams, k being the transverse stiffness of the beam, for every unit flow. Without coupling, or when all tensile moduli are infinite, the factor 1 - coupling^2 is not needed, and if the force grows then some unit flow gives equality: the plate feels a network of springs k, whose resistance is the least cost of a unit flow. In particular, if one node of a fiber is pressed and another one grounded, the force grows at least as for the beams between them put in series.", "quantifier": "for all accepted mats, valid meshes, beam length bounds with positive lengths, couplings with |coupling| <= 1, exact solvers, permutations, tolerances >= 0, all steps of all runs, and all unit flows", "why_tests_cant": "The bound is over all flows, and equality is an existence statement; tests can only try some flows for some mats.", "anchors": ["src/fibermat/model.py:17-127", "src/fibermat/model.py:130-256", "src/fibermat/solver.py:138-189"]}
{"id": "C133", "title": "The curve of force and thickness returned by solve", "statement": "Let Z(t) be the returned height of the plate and F(t) the sum of the returned forces f(t) of the plate at pseudo-time t in [0, 1], with or without resampling (interp_size >= 2; exact linear solver, |coupling| <= 1, at least two records). As t grows, Z strictly decreases and F does not decrease, and F is a convex function of Z. At the same thickness, the resampled curve never gives less force than the recorded one. The area below the curve by the trapezoidal rule is exactly the elastic energy of the last state without resampling, and at least that with resampling.", "quantifier": "for all accepted mats, valid meshes, beam length bounds with positive lengths, couplings with |coupling| <= 1, exact solvers, permutations, tolerances >= 0, all runs with at least one step, all numbers of samples >= 2 and all pseudo-times in [0, 1]", "why_tests_cant": "Convexity and the comparison of the curves concern all pairs and triples of times and all sampling sizes, and need exact arithmetic to distinguish from rounding.", "anchors": ["src/fibermat/solver.py:191-205", "src/fibermat/interpolation.py:43-89", "src/fibermat/solver.py:138-189"]}
{"id": "C134", "title": "The force appears when a chain of beams and contacts connects the plates", "statement": "Call two nodes linked in a state if a chain of beams and closed contacts leads from one to the other. In a step from a state in which no chain connects the upper with the lower plate, the force of the plate does not change (|coupling| <= 1). If |coupling| < 1 or all tensile moduli are infinite: the force grows in a step exactly if a chain connects the plates at its start; once a chain connects them, one does at the start of every later step; the force at a record is positive exactly if a chain connected the plates at an earlier record; in a step, nodes linked with the lower plate only stay at rest, and nodes linked with the upper plate only go down exactly with it, both without rotation.", "quantifier": "for all accepted mats, valid meshes, beam length bounds with positive lengths, couplings (|coupling| <= 1, strict where said), exact solvers, permutations, tolerances >= 0, all runs, all steps and all nodes", "why_tests_cant": "Connectivity of the contact graph at every step of every run; the exact zero of the change of force and of the motion of loose parts is not observable in floating point.", "anchors": ["src/fibermat/solver.py:138-189", "src/fibermat/model.py:12-183", "src/fibermat/model.py:186-300"]}
{"id": "C135", "title": "Stacked mats carry a force from the first step on", "statement": "In any state, no fiber can be translated without changing a closed gap exactly if a chain of beams and closed contacts links every node with one of the plates; links between nodes and with the plates last to the end of a run. For a planar mat stacked by Stack (threshold at least the thickness of each fiber) and then meshed and compressed (exact solver, positive lengths): at every record all nodes are linked with the floor and a chain connects the two plates. If moreover |coupling| < 1 or all tensile moduli are infinite (|coupling| <= 1), the force of the plate grows strictly in every step, is positive at every record after the first (no packing without force), and the returned force is a strictly increasing function of the pseudo-time, resampled (interp_size >= 2) or not.", "quantifier": "for all valid planar mats, correct LP solvers, open or periodic boxes, thresholds at least the thicknesses, beam length bounds with positive lengths, couplings as said, exact solvers, permutations, tolerances >= 0, all runs, records, nodes, sample sizes >= 2 and pseudo-times", "why_tests_cant": "Connectivity of every stack and strict growth at every step of every run; strict inequalities of exact numbers cannot be seen through rounding.", "anchors": ["src/fibermat/net.py:532-781", "src/fibermat/solver.py:107-205", "src/fibermat/interpolation.py:43-89"]}
{"id": "C136", "title": "Contact forces act only in the parts of the mat that connect the plates", "statement": "Call a part a set of nodes joined by chains of beams and closed contacts. With |coupling| < 1 or infinite tensile moduli (|coupling| <= 1), an exact solver and positive lengths, for consecutive records a, b of a run: a beam that no chain connects with both plates at a is neither rotated nor deformed at b, and the contact forces on its nodes are in balance; if at b the floor, the contact between two nodes or the plate exerts a force on a node, then chains connected that node with both plates at a (and, for a contact, its two nodes with each other). For any set A of whole parts at a: the plate presses on A at b as much as A presses on the floor; this force is >= 0 and does not decrease from a to b; it grows strictly, and is positive at b, exactly if some node of A was connected with both plates at a.", "quantifier": "for all valid mats and meshes, beam length bounds with positive lengths, couplings as said, exact solvers, permutations, tolerances >= 0, all runs, pairs of consecutive records, beams, contacts and sets of whole parts", "why_tests_cant": "Zero force on every part of every mat that does not connect the plates, and balance of each part separately; tests see only totals, rounded.", "anchors": ["src/fibermat/solver.py:138-189", "src/fibermat/model.py:12-183", "src/fibermat/model.py:186-300"]}
{"id": "C137", "title": "Every step ends exactly when a further gap closes", "statement": "With an exact linear solver and tol >= 0, for consecutive records a, b of a run: at b some gap (floor, contact between two nodes, or plate) that was wider than tol at a is exactly 0; at every intermediate plate height, with the nodes moved in proportion, all the gaps that were wider than tol at a are still wider than 0. Hence the plate height at b depends only on the gaps at a and the motion: two runs, possibly of mats of different materials, lengths and couplings but equal thicknesses on the same mesh, which have the same plate height, displacements and motion of the nodes, record the same next plate height.", "quantifier": "for all valid mats, meshes with positive lengths, couplings, exact solvers, permutations, tolerances >= 0, all runs and pairs of consecutive records, and all intermediate heights", "why_tests_cant": "A minimum over all gaps at every step of every run; tests compare a few final heights.", "anchors": ["src/fibermat/solver.py:155-184", "src/fibermat/model.py:186-300"]}
{"id": "C138", "title": "The material of fibers that do not connect the plates does not matter", "statement": "Take two mats on the same mesh, with equal thicknesses, whose widths and moduli differ only on a set U of fibers; |coupling| < 1, solvers that answer whenever the solution is unique, same tolerance, target and iteration limit. If the fibers are supported at the start and no node of U is linked with both plates before the last recorded step, both runs have equally many records, with the same plate heights, packings, displacements, rotations and total forces of the plate. If the fibers of U do not connect the plates at some record, they did not at any earlier one.", "quantifier": "for all pairs of valid mats, valid meshes, sets of fibers, beam length bounds with positive lengths, couplings, solvers as said, permutations, tolerances >= 0, targets, iteration limits, and all records", "why_tests_cant": "Compares whole runs of all pairs of mats; a test can only vary a few moduli of one mat.", "anchors": ["src/fibermat/solver.py:138-189", "src/fibermat/model.py:12-183", "src/fibermat/model.py:186-300"]}
{"id": "C139", "title": "Fibers have elliptic sections, except in bending", "statement": "Let A and I be the area and the second moment of area (integrals over the plane set) of the ellipse with axes b and h. The constant used for pi is a double and no number of 53 binary digits is nearer to the real pi; hence pi/np.pi is between 1 and 1 + 2^-53. For every valid mat and mesh, beam lengths l > 0 and every beam, the off-diagonal displacement entry of the stiffness matrix is -k with 1/k = (pi/np.pi) (l/(G A) + (3/4) l^3/(12 E I)), and 1/k = (pi/np.pi) l/(G A) for infinite E. So k is at least (up to 2^-53) the stiffness of a Timoshenko beam with the elliptic section, and less than 4/3 of it: in bending the code uses the second moment A h^2/12 of a rectangle instead of A h^2/16. The objective of the linear program of Stack weighs each fiber with the volume of its elliptic cylinder (up to np.pi/pi).", "quantifier": "for all valid mats and meshes, length bounds with positive lengths, couplings, beams, fibers; all doubles in the claim on pi; numbers in any ordered field embedded in the reals", "why_tests_cant": "An identity between matrix entries and integrals over the section, for all dimensions and moduli; a test with one section cannot tell the factor 3/4 in bending from a choice of units of E.", "anchors": ["src/fibermat/model.py:141-153", "src/fibermat/net.py:771", "src/fibermat/model.py:16-44"]}
{"id": "C140", "title": "The matrix compared with continuous beams", "statement": "A continuous Timoshenko beam of length l has a deflection w and a rotation t with continuous derivatives, and energy integral of S (w' - t)^2 + B t'^2 over [0, l]. The formula used as reference in C115 is the least such energy for given values of w and t at both ends, and is attained. With finite tensile moduli and coupling 1, for every displacement vector the energy of the stiffness matrix is, up to np.pi/pi, at least the sum over the beams of the least energies of continuous beams with the elliptic section of the fiber (S = G A, B = E I, integrals over the ellipse), and at most 16 times this sum. In pure bending the ratio is exactly (4/3) (1 + 11/(1 + (G/E) (l/h)^2)), which tends to 16 for short beams.", "quantifier": "for all valid mats with finite tensile moduli, meshes, length bounds with positive lengths, all displacement vectors, all continuous fields; numbers in any ordered field embedded in the reals", "why_tests_cant": "A comparison with a minimum over an infinite-dimensional set of deformations, for all mats and displacements.", "anchors": ["src/fibermat/model.py:13-47", "src/fibermat/model.py:141-171"]}
{"id": "C141", "title": "Force of the plate compared with continuous elliptic beams", "statement": "With finite tensile moduli, an exact solver and positive lengths: in every step of a run with 0 <= coupling <= 1 there are displacements of the nodes that follow the contacts kept in the step (per unit descent of the plate), and deflections and rotations of continuous beams between the nodes with these values at the nodes, such that the slope of the force of the plate against its descent is at least coupling * np.pi/pi times the energy of these beams with elliptic sections. With coupling 1 the slope is at most 16 np.pi/pi times the energy of any such beams. So in each step the stiffness of the mat is between that of a mat of continuous elliptic Timoshenko beams with the same closed contacts and 16 times that stiffness.", "quantifier": "for all valid mats with finite tensile moduli, meshes, length bounds with positive lengths, exact solvers, permutations, tolerances >= 0, runs, steps, and for all displacements and continuous fields in the upper bound; numbers in any ordered field embedded in the reals", "why_tests_cant": "A bound for all runs against a continuum model with infinitely many degrees of freedom.", "anchors": ["src/fibermat/solver.py:107-189", "src/fibermat/model.py:13-47", "src/fibermat/model.py:141-171"]}
{"id": "C142", "title": "Finer meshes tend to a beam sixteen times too stiff in bending", "statement": "Take a smooth deformation of one fiber with finite tensile modulus: deflection and rotation with continuous derivatives as functions of the abscissa. For every eps > 0 there is a length d > 0 such that on every valid mesh, of any valid mat containing this fiber, whose nodes span the fiber and whose beams on it are positive and at most d long, the energy of the stiffness matrix (coupling 1, no length bounds) for the displacements read off the deformation at the nodes (other fibers at rest) is within eps of np.pi/pi times the integral over the fiber of G A (w' - theta)^2 + 16 E I theta'^2, with A and I the area and moment of inertia of the ellipse. Hence if the fiber is bent (integral of theta'^2 positive), on every mesh fine enough the matrix has more than the energy of the elliptic fiber plus fourteen times its bending energy: adding nodes does not converge to the fiber. For a fiber of infinite tensile modulus deflected without rotation, the energy tends on finer and finer meshes to np.pi/pi times the integral of G A w'^2, the energy of a continuous string: here the meshes do converge. The mesh of a net is valid and spans every fiber.", "quantifier": "for all fibers (finite tensile modulus; infinite one for the string), all deformations with continuous derivatives, all eps > 0, and then all valid mats containing the fiber, all valid meshes with short enough beams and all displacements sampled from the deformation; numbers in any ordered field embedded in the reals", "why_tests_cant": "A limit over infinitely many meshes and over all smooth deformations.", "anchors": ["src/fibermat/model.py:13-47", "src/fibermat/model.py:141-171", "src/fibermat/mesh.py:135-199"]}
{"id": "C143", "title": "Adding nodes to a fiber stiffens it", "statement": "With finite tensile moduli, coupling 1 and true beam lengths: cutting a beam in two at any place never lowers its energy, whatever the displacement and rotation of the new node, and raises it strictly whenever the ends of the beam do not move as a solid. Hence, for two valid meshes of the same mat such that the nodes of the first are found, in the same order and at the same places of the fibers, among those of the second, every field of displacements and rotations has on the finer mesh at least the energy that its values at the nodes of the coarser mesh have there, and strictly more as soon as a beam that received a new node is deformed. (For a beam theory a node without contact changes nothing; in usual finite elements finer meshes are softer.)", "quantifier": "for all valid mats with finite tensile moduli, all fibers, all positions of the cut, all pairs of nested valid meshes with positive lengths, all displacements and rotations; numbers in any ordered field", "why_tests_cant": "An inequality of quadratic forms over all pairs of nested meshes and all displacements, including the free ones of the new nodes.", "anchors": ["src/fibermat/model.py:13-47", "src/fibermat/model.py:141-171"]}
{"id": "C144", "title": "More nodes, more force from the first step", "statement": "With finite tensile moduli, coupling 1 and true beam lengths: take two runs on nested valid meshes of the same mat. If every motion that follows the closed contacts of a step on the finer mesh also follows, at the common nodes, those of a step on the coarser mesh, then the force of the plate grows per unit of descent at least as fast in the step on the finer mesh. In particular, if the common nodes have the same heights and connections in both meshes and the initial thickness is the same, the initial stiffness of the mat is at least as large on the finer mesh: adding nodes that touch nothing can only raise the computed force of the first step. And if the initial configuration of the finer mesh is admissible and no contact of the coarser run pulls, the finer mesh has stored, with its plate at the same height or lower, at least the elastic energy of the coarser one (up to twice tol times the sum of the contact forces).", "quantifier": "for all valid mats with finite tensile moduli, all pairs of nested valid meshes with positive lengths, all pairs of runs (any number of steps, nonnegative tolerance, any permutation) with an exact linear solver, all pairs of steps with nested contacts; numbers in any ordered field", "why_tests_cant": "Compares two runs of the solver over all pairs of nested meshes; the two linear systems have different sizes and unknowns.", "anchors": ["src/fibermat/model.py:13-183", "src/fibermat/solver.py:13-189"]}
{"id": "C145", "title": "Fibers added to a mat never soften it, even fibers that touch nothing", "statement": "With finite tensile moduli, coupling 1 and true beam lengths: let a second valid mat and mesh contain the fibers and nodes of a first one (other numbers, more nodes on the common fibers, more fibers). Every field of displacements and rotations has in the larger mat at least the energy that its values at the common nodes have in the smaller one, and more as soon as a beam that received a node is deformed. If the common nodes have the same heights and connections and the initial thickness is the same, the initial stiffness of the larger mat is at least that of the smaller one; the same holds for any two steps such that the contacts kept in the smaller mat are also kept in the larger one. If the larger mat is admissible at the start and no contact of the smaller one pulls, the larger mat has stored at least as much energy with its plate at the same height or lower (up to twice tol times the sum of the contact forces). Example: a third fiber, pressed by no contact, changes the force of the first step, because its crossing adds a node to the fiber that bends.", "quantifier": "for all pairs of valid mats with finite tensile moduli and valid meshes with positive lengths such that the second contains the first, all displacements, all pairs of runs (any number of steps, nonnegative tolerance, any permutation) with an exact linear solver; numbers in any ordered field", "why_tests_cant": "Compares two runs of different sizes over all pairs of a mat and a larger mat.", "anchors": ["src/fibermat/model.py:13-183", "src/fibermat/solver.py:13-189"]}
