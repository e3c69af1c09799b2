import Verif.Lemmas.CoverTile
import Verif.Props.Relabel

/-! # A periodic mat repeated several times is compressed in the same way (C113) -/

set_option linter.unusedSectionVars false
set_option linter.unusedSimpArgs false

namespace Fibermat
variable {K : Type} [Field K] [LinearOrder K] [IsStrictOrderedRing K]
open Spec

variable {p : ℕ} {φ π : ℕ → ℕ} {cx cy : ℕ → ℤ} {m m' : Mat K}

/-- The mat repeated `p × p` times is a mat, each fiber of which is a copy of a fiber; each fiber is copied once at each of the `p × p` places. -/
theorem C113_tile (hp : 0 < p) (h : GoodMat m) {S : K} (hS : m.attrs.size = some S) :
    GoodMat (tile p m) ∧ (tile p m).fibers.length = m.fibers.length * (p * p) ∧
      Tiling p (fun i => i / (p * p)) (fun i => ((i % (p * p) / p : ℕ) : ℤ)) (fun i => ((i % (p * p) % p : ℕ) : ℤ)) m (tile p m) :=
  ⟨tile_good hp h, tile_length p m, tile_tiling hp hS⟩

/-- The periodic net of a repeated mat repeats the periodic net of the mat: each connection is a copy of a connection, at the same
abscissae and heights, and each copy of a fiber has one copy of each connection of the fiber. -/
theorem C113_net (T : Tiling p φ cx cy m m') (h : GoodMat m) (h' : GoodMat m') {S : K} (hS : m.attrs.size = some S)
    (hp : ∀ f ∈ m.fibers, Planar f) (hlen : ∀ f ∈ m.fibers, f.l ≤ S / 2) {net net' : Net K} (hn : netNew m true = .ok net)
    (hn' : netNew m' true = .ok net') : CoverMat φ m m' ∧ ∃ κ, CoverNet φ m'.fibers.length net.rows net'.rows κ :=
  ⟨T.cover, tile_net T h h' hS hp hlen hn hn'⟩

/-- Copies of a fiber are stacked at the height of the fiber, whatever correct linear programming solvers are used. -/
theorem C113_stack {lp lp' : Linprog K} (hlp : GoodLinprog lp) (hlp' : GoodLinprog lp') (T : Tiling p φ cx cy m m') (h : GoodMat m)
    (h' : GoodMat m') {S : K} (hS : m.attrs.size = some S)
    (hp : ∀ f ∈ m.fibers, Planar f) (hlen : ∀ f ∈ m.fibers, f.l ≤ S / 2) {net net' : Net K} (hn : netNew m true = .ok net)
    (hn' : netNew m' true = .ok net') {threshold : Option K} {m1 m1' : Mat K} {st st' : Net K}
    (hst : stackNew lp m net threshold = .ok (m1, st)) (hst' : stackNew lp' m' net' threshold = .ok (m1', st')) :
    Tiling p φ cx cy m1 m1' ∧ ∃ κ, CoverNet φ m1'.fibers.length st.rows st'.rows κ := by
  obtain ⟨κ, h1, h2, -⟩ := tile_stack hlp hlp' T h h' hS hp hlen hn hn' hst hst'
  exact ⟨h1, κ, h2⟩

/-- The mesh of a repeated stack repeats the mesh of the stack. -/
theorem C113_mesh (hmm : CoverMat φ m m') {κ : ℕ → ℕ} {net net' : Net K} (hn : CoverNet φ m'.fibers.length net.rows net'.rows κ)
    (ho : OverMat m net.rows) (ho' : OverMat m' net'.rows)
    {mesh mesh' : Mesh K} (hm : meshNew net = .ok mesh) (hm' : meshNew net' = .ok mesh') (hv : ValidMesh mesh.frame)
    (hv' : ValidMesh mesh'.frame) : ∃ π, CoverMesh φ mesh.rows mesh'.rows π := by
  have hs : NodesSorted mesh.rows := by have := hv.sorted; rwa [rows_meshFrame] at this
  have hs' : NodesSorted mesh'.rows := by have := hv'.sorted; rwa [rows_meshFrame] at this
  exact cover_mesh hmm hn ho ho' (meshNew_init hm) (meshNew_init hm') hs hs'

/-- Beams of copies have the same lengths. -/
theorem cover_positive {mesh mesh' : Mesh K} (hπ : CoverMesh φ mesh.rows mesh'.rows π) (hmm : CoverMat φ m m')
    (hof' : OverFibers m' mesh'.rows) (hv : ValidMesh mesh.frame) (hv' : ValidMesh mesh'.frame) (hd : DistinctNodes mesh.rows)
    {lmin lmax : Option K} {c : K} {Km Km' : Coo (Cell K)} (hK : stiffness m mesh lmin lmax c = .ok Km)
    (hK' : stiffness m' mesh' lmin lmax c = .ok Km') (hp : PositiveLengths mesh.rows lmin lmax) : PositiveLengths mesh'.rows lmin lmax := by
  have hb : BeamsCyclic mesh.rows := by have := hv.beams; rwa [rows_meshFrame] at this
  have hb' : BeamsCyclic mesh'.rows := by have := hv'.beams; rwa [rows_meshFrame] at this
  have hs : NodesSorted mesh.rows := by have := hv.sorted; rwa [rows_meshFrame] at this
  have hs' : NodesSorted mesh'.rows := by have := hv'.sorted; rwa [rows_meshFrame] at this
  obtain ⟨-, -, bs, ls, hbs, -, -⟩ := stiffness_eq hK
  obtain ⟨-, -, bs', ls', hbs', -, -⟩ := stiffness_eq hK'
  have hraw := hπ.raw hmm hof' hs hs' hd hb hb' hbs hbs'
  have hlen : ∀ {mat : Mat K} {rows : List (MeshRow K)} {bs : List (Beam K)}, beams mat rows = .ok bs → ∀ x,
      x ∈ bs.map (·.l) ↔ ∃ i, StartsBeam rows i ∧ beamLength rows i = x := by
    intro mat rows bs h x
    obtain ⟨h1, h2, -⟩ := beams_spec h
    have key : ∀ q ∈ bs, StartsBeam rows q.i ∧ beamLength rows q.i = q.l := by
      intro q hq
      have hlt := (h1 q hq).lt
      obtain ⟨r, p, hr, hp', hj, hl, -⟩ := (h1 q hq).rows
      exact ⟨⟨r, hr, by omega⟩, by simp [beamLength, abscissa, succNode, hr, hj, hp', hl]⟩
    rw [List.mem_map]
    constructor
    · rintro ⟨q, hq, rfl⟩
      exact ⟨q.i, key q hq⟩
    · rintro ⟨i, hi, rfl⟩
      obtain ⟨q, hq, rfl⟩ := h2 i hi
      exact ⟨q, hq, (key q hq).2.symm⟩
  refine ⟨hp.lo, hp.hi, ?_, ?_⟩
  · intro e i hi
    obtain ⟨j, hj, e2⟩ := (hlen hbs _).1 ((hraw _).1 ((hlen hbs' _).2 ⟨i, hi, rfl⟩))
    rw [← e2]
    exact hp.raw e j hj
  · rintro e ⟨i, hi⟩
    obtain ⟨j, hj, -⟩ := (hlen hbs _).1 ((hraw _).1 ((hlen hbs' _).2 ⟨i, hi, rfl⟩))
    obtain ⟨k, hk, hpos⟩ := hp.top e ⟨j, hj⟩
    obtain ⟨k', hk', e2⟩ := (hlen hbs' _).1 ((hraw _).2 ((hlen hbs _).2 ⟨k, hk, rfl⟩))
    exact ⟨k', hk', by rw [e2]; exact hpos⟩

/-- Solving a repeated mesh gives the repeated run: copies of a node have its displacement and rotation, copies of a contact its forces, gaps
and activity, and the heights of the plate are the same, whatever correct solvers are used. -/
theorem C113_solve {mesh mesh' : Mesh K} {lmin lmax : Option K} {coupling : K} {o : Opts K} {perm perm' : Option (List ℕ)}
    {lin' : LinSolver K} {S S' : Sys K} {recs recs' : List (Rec K)} {stop stop' : Stop}
    (h : solve m mesh lmin lmax coupling o perm = .ok (S, recs, stop))
    (h' : solve m' mesh' lmin lmax coupling { o with lin := lin' } perm' = .ok (S', recs', stop')) (hm : GoodMat m) (hm' : GoodMat m')
    (hv : ValidMesh mesh.frame) (hv' : ValidMesh mesh'.frame) (hmm : CoverMat φ m m') (hπ : CoverMesh φ mesh.rows mesh'.rows π)
    (hof' : OverFibers m' mesh'.rows) (hd : DistinctNodes mesh.rows)
    (hp : PositiveLengths mesh.rows lmin lmax) (hcoup : |coupling| ≤ 1) {L' : ℕ → K}
    (hL' : BeamLengths mesh'.rows lmin lmax L') (htol : 0 ≤ o.tol) (hlin : GoodLin o.lin) (hlin' : GoodLin lin') (hperm : PermOf S.n perm)
    (hperm' : PermOf S'.n perm')
    (hfloat : ∀ a ∈ recs', Cell.lt a.rlambda o.packing = true → ¬ Floating m' mesh'.rows coupling L' o.tol a.Z a.x) :
    stop' = stop ∧ List.Forall₂ (CoveredState mesh.rows mesh'.rows π) recs recs' := by
  obtain ⟨Km, cs, hK, hC, hS, hrun⟩ := solve_run h
  obtain ⟨Km', cs', hK', hC', hS', hrun'⟩ := solve_run h'
  have hp' := cover_positive hπ hmm hof' hv hv' hd hK hK' hp
  have hreg := regular_or_none h' hm' hv' hp' hcoup hL' htol hlin' hperm' hfloat
  have hb : BeamsCyclic mesh.rows := by have := hv.beams; rwa [rows_meshFrame] at this
  have hb' : BeamsCyclic mesh'.rows := by have := hv'.beams; rwa [rows_meshFrame] at this
  have hs : NodesSorted mesh.rows := by have := hv.sorted; rwa [rows_meshFrame] at this
  have hs' : NodesSorted mesh'.rows := by have := hv'.sorted; rwa [rows_meshFrame] at this
  have hc : ConstraintsReciprocal mesh.rows := by have := hv.constraints; rwa [rows_meshFrame] at this
  have hc' : ConstraintsReciprocal mesh'.rows := by have := hv'.constraints; rwa [rows_meshFrame] at this
  obtain ⟨-, -, t, l, Z, ht, hcl, -, -⟩ := constraint_eq hC
  have hl := contacts_of' hC ht hcl
  obtain ⟨htlen, -⟩ := nodeThickness_spec ht
  obtain ⟨-, -, t', l', Z', ht', hcl', -, -⟩ := constraint_eq hC'
  have hl' := contacts_of' hC' ht' hcl'
  obtain ⟨htlen', -⟩ := nodeThickness_spec ht'
  obtain ⟨κ, hκ, hcov⟩ := cover_system hπ hmm hof' hm hm' hc hc' hs hs' hd hb hb' hK hK' hC hC' hl hl'
  obtain ⟨bl, has, hpos, -⟩ := assembled hK
  obtain ⟨bl', has', hpos', -⟩ := assembled hK'
  have hsd := assemble_sound has hm (hpos hp) hl
  have hsd' := assemble_sound has' hm' (hpos' hp') hl'
  subst hS hS'
  have hn' : (assemble Km' cs').n = 2 * mesh'.rows.length + 3 * l'.length := by
    unfold Sys.n assemble; simp only [has'.eq, hl'.C]
  have hres := hcov.run (o := { o with perm := perm.getD (List.range (assemble Km cs).n) })
    (o' := { o with lin := lin', perm := perm'.getD (List.range (assemble Km' cs').n) }) hsd hsd'
    (permOf_getD hperm) (permOf_getD hperm') rfl rfl rfl rfl hlin hlin' (by
      intro a ha
      rw [show ((assemble Km' cs').run { o with lin := lin', perm := perm'.getD (List.range (assemble Km' cs').n) }) = (recs', stop') from hrun'] at ha
      exact hreg a ha)
  rw [hrun, show ((assemble Km' cs').run { o with lin := lin', perm := perm'.getD (List.range (assemble Km' cs').n) }) = (recs', stop') from hrun'] at hres
  refine ⟨hres.2, hres.1.imp ?_⟩
  intro a a' ha
  have pos : ∀ i e, i < mesh'.rows.length → e < 2 →
      coverIndex (2 * mesh.rows.length) (2 * mesh'.rows.length) π κ (2 * i + e) = 2 * π i + e := by
    intro i e hi he
    have e1 : (2 * i + e) / 2 = i := by omega
    have e2 : (2 * i + e) % 2 = e := by omega
    rw [coverIndex, if_pos (by omega), turnPos, e1, e2]
  have posc : ∀ k e, e < 3 → coverIndex (2 * mesh.rows.length) (2 * mesh'.rows.length) π κ (2 * mesh'.rows.length + (3 * k + e)) =
      2 * mesh.rows.length + (3 * κ k + e) := by
    intro k e he
    have e1 : (2 * mesh'.rows.length + (3 * k + e) - 2 * mesh'.rows.length) / 3 = k := by omega
    have e2 : (2 * mesh'.rows.length + (3 * k + e) - 2 * mesh'.rows.length) % 3 = e := by omega
    rw [coverIndex, if_neg (by omega), e1, e2]
  refine ⟨?_, ?_, ha.Z, ha.lam, ha.err⟩
  · intro i hi e he
    have x1 := ha.x (2 * i + e) (by omega)
    have x2 := ha.mask (2 * i + e) (by omega)
    rw [pos i e hi he] at x1 x2
    exact ⟨x1, x2⟩
  · intro k i j hkc
    rw [← contacts_connections htlen' hcl', List.getElem?_map, Option.map_eq_some_iff] at hkc
    obtain ⟨x, hx, hij⟩ := hkc
    have hkl : k < l'.length := (List.getElem?_eq_some_iff.1 hx).1
    refine ⟨κ k, ?_, ?_⟩
    · rw [← contacts_connections htlen hcl, List.getElem?_map, hκ k x hx]
      simp only [Prod.mk.injEq] at hij
      simp only [Option.map_some, turnContact, hij.1, hij.2]
    · intro e he
      have hlt : 2 * mesh'.rows.length + (3 * k + e) < (assemble Km' cs').n := by omega
      have x1 := ha.x _ hlt
      have x2 := ha.q _ hlt
      have x3 := ha.mask _ hlt
      rw [posc k e he] at x1 x2 x3
      exact ⟨x1, x2, x3⟩

/-- A repeated mat has fibers if the mat has. -/
theorem tiling_nonempty (T : Tiling p φ cx cy m m') (hne : m.fibers ≠ []) : m'.fibers ≠ [] := by
  intro e
  apply hne
  rw [← List.length_eq_zero_iff] at e ⊢
  by_contra hcon
  obtain ⟨i, hi, -⟩ := T.cover.surj 0 (by omega)
  omega

/-- The whole simulation of a periodic planar mat repeated `p × p` times is the simulation of the mat, repeated: same number of steps, same
heights of the plate, same displacements, rotations, contact forces and gaps of all copies, whatever correct solvers are used. -/
theorem C113_chain {lp lp' : Linprog K} (hlp : GoodLinprog lp) (hlp' : GoodLinprog lp') (T : Tiling p φ cx cy m m') (h : GoodMat m)
    (h' : GoodMat m') {B : K} (hB : m.attrs.size = some B)
    (hpl : ∀ f ∈ m.fibers, Planar f) (hlen : ∀ f ∈ m.fibers, f.l ≤ B / 2) {net : Net K} (hn : netNew m true = .ok net)
    {threshold : Option K} {m1 : Mat K} {st : Net K} (hst : stackNew lp m net threshold = .ok (m1, st)) (hth : KeepsTouching m threshold)
    {mesh : Mesh K} (hmesh : meshNew st = .ok mesh) (hdist : DistinctNodes mesh.rows) {lmin lmax : Option K}
    (hp : PositiveLengths mesh.rows lmin lmax) {coupling : K}
    (hcoup : |coupling| ≤ 1) (hor : |coupling| < 1 ∨ ∀ f ∈ m.fibers, f.E = ⊤) {o : Opts K} (htol : 0 ≤ o.tol)
    (hlin : GoodLin o.lin) {lin' : LinSolver K} (hlin' : GoodLin lin') {perm perm' : Option (List ℕ)} {S S' : Sys K}
    {recs recs' : List (Rec K)} {stop stop' : Stop}
    (hs : chain lp true threshold lmin lmax coupling o perm m = .ok (S, recs, stop)) (hperm : PermOf S.n perm)
    (hs' : chain lp' true threshold lmin lmax coupling { o with lin := lin' } perm' m' = .ok (S', recs', stop')) (hperm' : PermOf S'.n perm') :
    ∃ net' m1' st' mesh' π, netNew m' true = .ok net' ∧ stackNew lp' m' net' threshold = .ok (m1', st') ∧ Tiling p φ cx cy m1 m1' ∧
      meshNew st' = .ok mesh' ∧ CoverMesh φ mesh.rows mesh'.rows π ∧ stop' = stop ∧
      List.Forall₂ (CoveredState mesh.rows mesh'.rows π) recs recs' := by
  have hs : solve m1 mesh lmin lmax coupling o perm = .ok (S, recs, stop) := by
    unfold chain at hs
    simpa only [hn, hst, hmesh, Bind.bind, Except.bind] using hs
  have hne := chain_nonempty hlp h hn hst hmesh hs
  have hne' := tiling_nonempty T hne
  obtain ⟨net', hn', -⟩ := C06_netNew_ok h' true
  obtain ⟨m1', st', mesh', hst', hmesh', -⟩ := C27_mesh_of_stack hlp' h' hn' threshold
  have hs' : solve m1' mesh' lmin lmax coupling { o with lin := lin' } perm' = .ok (S', recs', stop') := by
    unfold chain at hs'
    simpa only [hn', hst', hmesh', Bind.bind, Except.bind] using hs'
  obtain ⟨κ, T1, hcov, ho, ho'⟩ := tile_stack hlp hlp' T h h' hB hpl hlen hn hn' hst hst'
  obtain ⟨-, -, -, hgood, hsame, -, -, hvalid, -, -⟩ := chain_facts hlp h hne hn hst hmesh
  obtain ⟨-, -, -, hgood', hsame', -, -, hvalid', hof', -⟩ := chain_facts hlp' h' hne' hn' hst' hmesh'
  obtain ⟨π, hπ⟩ := C113_mesh T1.cover hcov ho ho' hmesh hmesh' hvalid hvalid'
  obtain ⟨Km, cs, hK, -⟩ := solve_run hs
  obtain ⟨Km', cs', hK', -⟩ := solve_run hs'
  have hp' := cover_positive hπ T1.cover hof' hvalid hvalid' hdist hK hK' hp
  obtain ⟨-, ⟨L', hL'⟩, -⟩ := C65_lengths hK'
  have hcopy : ∀ f' ∈ m'.fibers, ∃ f ∈ m.fibers, SameButPlace f f' := by
    intro f' hf'
    obtain ⟨i, hi⟩ := List.mem_iff_getElem?.1 hf'
    obtain ⟨f, hf, hff⟩ := T.cover.fiber i f' hi
    exact ⟨f, List.mem_of_getElem? hf, hff⟩
  have hor' : |coupling| < 1 ∨ ∀ f ∈ m'.fibers, f.E = ⊤ := by
    refine hor.imp_right (fun hE f' hf' => ?_)
    obtain ⟨f, hf, hff⟩ := hcopy f' hf'
    rw [hff.E]; exact hE f hf
  have hth' : KeepsTouching m' threshold := by
    intro t ht f' hf'
    obtain ⟨f, hf, hff⟩ := hcopy f' hf'
    rw [hff.h]; exact hth t ht f hf
  have hres := C113_solve hs hs' hgood hgood' hvalid hvalid' T1.cover hπ hof' hdist hp hcoup hL' htol hlin hlin' hperm hperm' (by
    intro a ha _ hf
    rw [C73_translation hK' hgood' hvalid' hp' hcoup hL' (hor'.imp_right (same_tensile hsame'))] at hf
    obtain ⟨k, hk⟩ := List.mem_iff_getElem?.1 ha
    exact chain_supported hlp' h' (fun f hf => (T.planar hpl f hf).1) hn' hst' hth' hmesh' hs' hp' htol hlin'.1 hperm' hk hf)
  exact ⟨net', m1', st', mesh', π, hn', hst', T1, hmesh', hπ, hres.1, hres.2⟩

/-- The simulation of a planar periodic mat repeated `p × p` times returns and is the simulation of the mat, repeated. -/
theorem C113_repeated {lp lp' : Linprog K} (hlp : GoodLinprog lp) (hlp' : GoodLinprog lp') (hp0 : 0 < p) (h : GoodMat m)
    {B : K} (hB : m.attrs.size = some B)
    (hpl : ∀ f ∈ m.fibers, Planar f) (hlen : ∀ f ∈ m.fibers, f.l ≤ B / 2) {net : Net K} (hn : netNew m true = .ok net)
    {threshold : Option K} {m1 : Mat K} {st : Net K} (hst : stackNew lp m net threshold = .ok (m1, st)) (hth : KeepsTouching m threshold)
    {mesh : Mesh K} (hmesh : meshNew st = .ok mesh) (hdist : DistinctNodes mesh.rows) {lmin lmax : Option K}
    (hp : PositiveLengths mesh.rows lmin lmax) {coupling : K}
    (hcoup : |coupling| ≤ 1) (hor : |coupling| < 1 ∨ ∀ f ∈ m.fibers, f.E = ⊤) {o : Opts K} (htol : 0 ≤ o.tol)
    (hlin : GoodLin o.lin) {lin' : LinSolver K} (hlin' : GoodLin lin') {perm : Option (List ℕ)} {S : Sys K}
    {recs : List (Rec K)} {stop : Stop}
    (hs : chain lp true threshold lmin lmax coupling o perm m = .ok (S, recs, stop)) (hperm : PermOf S.n perm) :
    ∃ S' recs' net' m1' st' mesh' π, chain lp' true threshold lmin lmax coupling { o with lin := lin' } none (tile p m) = .ok (S', recs', stop) ∧
      netNew (tile p m) true = .ok net' ∧ stackNew lp' (tile p m) net' threshold = .ok (m1', st') ∧ CoverMat (fun i => i / (p * p)) m1 m1' ∧
      meshNew st' = .ok mesh' ∧ CoverMesh (fun i => i / (p * p)) mesh.rows mesh'.rows π ∧
      List.Forall₂ (CoveredState mesh.rows mesh'.rows π) recs recs' := by
  obtain ⟨hgood, -, T⟩ := C113_tile hp0 h hB
  have hne : m.fibers ≠ [] := by
    have hs : solve m1 mesh lmin lmax coupling o perm = .ok (S, recs, stop) := by
      unfold chain at hs
      simpa only [hn, hst, hmesh, Bind.bind, Except.bind] using hs
    exact chain_nonempty hlp h hn hst hmesh hs
  obtain ⟨net', m1', st', mesh', S', recs', stop', e1, e2, e3, e4⟩ := C78_runs hlp' hgood (tiling_nonempty T hne) true threshold lmin lmax coupling
    { o with lin := lin' } none
  have hs' : chain lp' true threshold lmin lmax coupling { o with lin := lin' } none (tile p m) = .ok (S', recs', stop') := by
    unfold chain
    simp only [e1, e2, e3, Bind.bind, Except.bind]
    exact e4
  obtain ⟨net2, m2, st2, mesh2, π, f1, f2, T1, f3, hπ, rfl, hall⟩ := C113_chain hlp hlp' T h hgood hB hpl hlen hn hst hth hmesh hdist hp hcoup hor
    htol hlin hlin' hs hperm hs' (by intro q hq; cases hq)
  exact ⟨S', recs', net2, m2, st2, mesh2, π, hs', f1, f2, T1.cover, f3, hπ, hall⟩

end Fibermat
