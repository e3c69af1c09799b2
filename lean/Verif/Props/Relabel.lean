import Verif.Lemmas.RelabelMesh
import Verif.Props.Direction

/-! # Numbers of fibers do not matter as long as crossing fibers keep their order (C107) -/

set_option linter.unusedSectionVars false
set_option linter.unusedSimpArgs false

namespace Fibermat
variable {K : Type} [Field K] [LinearOrder K] [IsStrictOrderedRing K]
open Spec

/-- The net of the mat with other numbers is the net with other numbers, whether periodic or not. -/
theorem C107_net {φ : ℕ → ℕ} {m m' : Mat K} (h : RelabelledMat φ m m') (hm : GoodMat m) {periodic : Bool} {net : Net K}
    (hn : netNew m periodic = .ok net) (ho : KeepsOrder φ net.rows) :
    ∃ net', netNew m' periodic = .ok net' ∧ RelabelledNet φ net net' :=
  relabelled_net h hm hn ho

/-- Stacking the mat with other numbers gives the same heights, crossings and kept pairs, whatever correct linear programming solvers are
used. -/
theorem C107_stack {lp lp' : Linprog K} (hlp : GoodLinprog lp) (hlp' : GoodLinprog lp') {φ : ℕ → ℕ} {m m' : Mat K}
    (h : RelabelledMat φ m m') (hm : GoodMat m)
    (hw : ∀ f ∈ m.fibers, f.w = 0) {periodic : Bool} {net net' : Net K} (hn : netNew m periodic = .ok net)
    (hn' : netNew m' periodic = .ok net') (hk : KeepsOrder φ net.rows) {threshold : Option K} {m1 : Mat K} {st : Net K}
    (hst : stackNew lp m net threshold = .ok (m1, st)) :
    ∃ m1' st', stackNew lp' m' net' threshold = .ok (m1', st') ∧ RelabelledMat φ m1 m1' ∧ RelabelledNet φ st st' := by
  obtain ⟨net2, h2, hr⟩ := C107_net h hm hn hk
  rw [hn'] at h2; cases h2
  obtain ⟨m1', st', h1, h2, h3, -⟩ := relabelled_stack hlp hlp' h hm hw hn hn' hr hk hst
  exact ⟨m1', st', h1, h2, h3⟩

theorem meshNew_init {net : Net K} {mesh : Mesh K} (h : meshNew net = .ok mesh) : meshInit net = .ok mesh := by
  unfold meshNew at h
  cases h1 : meshInit net with
  | error e => rw [h1] at h; cases h
  | ok m =>
    rw [h1] at h
    simp only [Bind.bind, Except.bind] at h
    cases h2 : meshCheck m.frame with
    | error e => rw [h2] at h; cases h
    | ok u => rw [h2] at h; cases h; rfl

/-- The mesh of the net with other numbers has the same nodes, places and connections. -/
theorem C107_mesh {φ : ℕ → ℕ} {m m' : Mat K} (h : RelabelledMat φ m m') {net net' : Net K} (hn : RelabelledNet φ net net')
    (ho : OverMat m net.rows) {mesh mesh' : Mesh K} (hm : meshNew net = .ok mesh) (hm' : meshNew net' = .ok mesh') :
    ∃ σ, RelabelledMesh φ mesh.rows mesh'.rows σ :=
  relabelled_mesh h hn ho (meshNew_init hm) (meshNew_init hm')

/-- Solving the mesh with other numbers gives the same run: same displacements, rotations, contact forces, gaps and heights of the plate,
whatever correct solvers are used. -/
theorem C107_solve {mat mat' : Mat K} {mesh mesh' : Mesh K} {lmin lmax : Option K} {coupling : K} {o : Opts K} {perm : Option (List ℕ)}
    {S : Sys K} {recs : List (Rec K)} {stop : Stop}
    (h : solve mat mesh lmin lmax coupling o perm = .ok (S, recs, stop)) (hm : GoodMat mat)
    (hv : ValidMesh mesh.frame) (hv' : ValidMesh mesh'.frame) {φ σ : ℕ → ℕ} (hmm : RelabelledMat φ mat mat')
    (hσ : RelabelledMesh φ mesh.rows mesh'.rows σ) (hof : OverFibers mat mesh.rows) (hk : KeepsOrderMesh φ mesh.rows)
    (hd : DistinctNodes mesh.rows)
    (hp : PositiveLengths mesh.rows lmin lmax) (hcoup : |coupling| ≤ 1) {L : ℕ → K}
    (hL : BeamLengths mesh.rows lmin lmax L) (htol : 0 ≤ o.tol) (hlin : GoodLin o.lin) (hperm : PermOf S.n perm)
    (hfloat : ∀ a ∈ recs, Cell.lt a.rlambda o.packing = true → ¬ Floating mat mesh.rows coupling L o.tol a.Z a.x)
    {lin' : LinSolver K} (hlin' : GoodLin lin') {perm' : Option (List ℕ)} (hperm' : PermOf S.n perm') :
    ∃ S' recs', solve mat' mesh' lmin lmax coupling { o with lin := lin' } perm' = .ok (S', recs', stop) ∧
      List.Forall₂ (RelabelledState mesh.rows mesh'.rows σ) recs recs' := by
  have hreg := regular_or_none h hm hv hp hcoup hL htol hlin hperm hfloat
  obtain ⟨Km, cs, hK, hC, hS, hrun⟩ := solve_run h
  have hm' := hmm.good hm
  have hb : BeamsCyclic mesh.rows := by have := hv.beams; rwa [rows_meshFrame] at this
  have hb' : BeamsCyclic mesh'.rows := by have := hv'.beams; rwa [rows_meshFrame] at this
  have hs : NodesSorted mesh.rows := by have := hv.sorted; rwa [rows_meshFrame] at this
  have hs' : NodesSorted mesh'.rows := by have := hv'.sorted; rwa [rows_meshFrame] at this
  have hc : ConstraintsReciprocal mesh.rows := by have := hv.constraints; rwa [rows_meshFrame] at this
  have hc' : ConstraintsReciprocal mesh'.rows := by have := hv'.constraints; rwa [rows_meshFrame] at this
  obtain ⟨-, -, t, l, Z, ht, hcl, -, -⟩ := constraint_eq hC
  have hl := contacts_of' hC ht hcl
  obtain ⟨htlen, htf⟩ := nodeThickness_spec ht
  have hover := hσ.over hmm hof
  -- it has a beam
  have hstart : ∃ i, StartsBeam mesh'.rows i := by
    obtain ⟨-, -, bs, ls, hbs, hr, -⟩ := stiffness_eq hK
    cases bs with
    | nil => rw [List.map_nil, rescale_nil] at hr; cases hr
    | cons b bs =>
      have hB := hσ.beam hmm hof hs hs' hd hb hb' ((beams_spec hbs).1 b (by simp))
      have hlt := hB.lt
      obtain ⟨r, p, g1, -, g3, -⟩ := hB.rows
      exact ⟨_, r, g1, by omega⟩
  obtain ⟨Km', hK'⟩ := C35_stiffness_total lmin lmax coupling hm' hv' hover hstart
  have hne' : mesh'.rows ≠ [] := by
    obtain ⟨i, r, hr, -⟩ := hstart
    intro e
    rw [e] at hr
    simp at hr
  obtain ⟨cs', hC'⟩ := C37_total hm' ((C28_meshCheck_iff _).2 (Or.inr hv')) hc' hover hne'
  obtain ⟨-, -, t', l', Z', ht', hcl', -, -⟩ := constraint_eq hC'
  have hl' := contacts_of' hC' ht' hcl'
  obtain ⟨htlen', -⟩ := nodeThickness_spec ht'
  obtain ⟨κ, hκ, hren⟩ := relabelled_system hσ hmm hof hm hc hc' hs hs' hd hb hb' hk hK hK' hC hC' hl hl'
  obtain ⟨bl, has, hpos, -⟩ := assembled hK
  obtain ⟨-, bl', has', hpos'⟩ := hσ.stiffness hmm hof hc hs hs' hd hb hb' hK hK'
  have hsd := assemble_sound has hm (hpos hp) hl
  have hsd' := assemble_sound has' hm' (hpos' hp) hl'
  subst hS
  have hn : (assemble Km cs).n = 2 * mesh.rows.length + 3 * l.length := by
    unfold Sys.n assemble; simp only [has.eq, hl.C]
  have hrun' := hren.run (o := { o with perm := perm.getD (List.range (assemble Km cs).n) })
    (o' := { o with lin := lin', perm := perm'.getD (List.range (assemble Km' cs').n) }) hsd hsd' htol
    (permOf_getD hperm) (by rw [hren.n]; exact permOf_getD hperm') rfl rfl rfl rfl hlin hlin' (by rw [hrun]; exact hreg)
  set o2 : Opts K := { o with lin := lin', perm := perm'.getD (List.range (assemble Km' cs').n) } with ho2
  refine ⟨assemble Km' cs', ((assemble Km' cs').run o2).1, ?_, ?_⟩
  · unfold solve
    rw [hK', hC']
    have hst := hrun'.2
    rw [hrun] at hst
    have hst : ((assemble Km' cs').run o2).2 = stop := hst
    change Except.ok (assemble Km' cs', (assemble Km' cs').run o2) = _
    rw [← hst]
  · rw [hrun] at hrun'
    refine hrun'.1.imp ?_
    intro a a' ha
    have pos0 : ∀ i, i < mesh.rows.length → turnIndex (2 * mesh.rows.length) σ κ (2 * i) = 2 * σ i := by
      intro i hi
      have e1 : 2 * i / 2 = i := by omega
      have e2 : 2 * i % 2 = 0 := by omega
      rw [turnIndex, if_pos (by omega), turnPos, e1, e2, Nat.add_zero]
    have pos1 : ∀ i, i < mesh.rows.length → turnIndex (2 * mesh.rows.length) σ κ (2 * i + 1) = 2 * σ i + 1 := by
      intro i hi
      have e1 : (2 * i + 1) / 2 = i := by omega
      have e2 : (2 * i + 1) % 2 = 1 := by omega
      rw [turnIndex, if_pos (by omega), turnPos, e1, e2]
    have posc : ∀ k e, e < 3 → turnIndex (2 * mesh.rows.length) σ κ (2 * mesh.rows.length + (3 * k + e)) =
        2 * mesh.rows.length + (3 * κ k + e) := by
      intro k e he
      have e1 : (2 * mesh.rows.length + (3 * k + e) - 2 * mesh.rows.length) / 3 = k := by omega
      have e2 : (2 * mesh.rows.length + (3 * k + e) - 2 * mesh.rows.length) % 3 = e := by omega
      rw [turnIndex, if_neg (by omega), e1, e2]
    refine ⟨?_, ?_, ha.Z, ha.lam, ha.err⟩
    · intro i hi e he
      have x1 := ha.x (2 * i + e) (by omega)
      have x2 := ha.mask (2 * i + e) (by omega)
      rw [Bool.and_false] at x1
      have he2 : e = 0 ∨ e = 1 := by omega
      rcases he2 with rfl | rfl
      · rw [Nat.add_zero, pos0 i hi] at x1 x2
        exact ⟨x1, x2⟩
      · rw [pos1 i hi] at x1 x2
        exact ⟨x1, x2⟩
    · intro k i j hkc
      rw [← contacts_connections htlen hcl, List.getElem?_map, Option.map_eq_some_iff] at hkc
      obtain ⟨x, hx, hij⟩ := hkc
      have hkl : k < l.length := (List.getElem?_eq_some_iff.1 hx).1
      refine ⟨κ k, ?_, ?_⟩
      · rw [← contacts_connections htlen' hcl', List.getElem?_map, hκ k x hx]
        simp only [Prod.mk.injEq] at hij
        simp only [Option.map_some, turnContact, hij.1, hij.2]
      · intro e he
        have hlt : 2 * mesh.rows.length + (3 * k + e) < (assemble Km cs).n := by omega
        have x1 := ha.x _ hlt
        have x2 := ha.q _ hlt
        have x3 := ha.mask _ hlt
        rw [posc k e he] at x1 x2 x3
        rw [Bool.and_false] at x1
        exact ⟨x1, x2, x3⟩

/-- The whole simulation of a planar stacked mat does not depend on the numbers of the fibers, as long as crossing fibers keep their order
and no two crossings of a fiber coincide, whatever correct solvers are used. -/
theorem C107_chain {lp lp' : Linprog K} (hlp : GoodLinprog lp) (hlp' : GoodLinprog lp') {φ : ℕ → ℕ} {m m' : Mat K} (h : GoodMat m)
    (hmm : RelabelledMat φ m m')
    (hw : ∀ f ∈ m.fibers, f.w = 0) {periodic : Bool} {net : Net K} (hn : netNew m periodic = .ok net) (hk : KeepsOrder φ net.rows)
    {threshold : Option K}
    {m1 : Mat K} {st : Net K} (hst : stackNew lp m net threshold = .ok (m1, st)) (hth : KeepsTouching m threshold) {mesh : Mesh K}
    (hmesh : meshNew st = .ok mesh) (hdist : DistinctNodes mesh.rows) {lmin lmax : Option K}
    (hp : PositiveLengths mesh.rows lmin lmax) {coupling : K}
    (hcoup : |coupling| ≤ 1) (hor : |coupling| < 1 ∨ ∀ f ∈ m.fibers, f.E = ⊤) {o : Opts K} (htol : 0 ≤ o.tol)
    (hlin : GoodLin o.lin) {lin' : LinSolver K} (hlin' : GoodLin lin') {perm perm' : Option (List ℕ)} {S : Sys K} {recs : List (Rec K)}
    {stop : Stop} (hs : chain lp periodic threshold lmin lmax coupling o perm m = .ok (S, recs, stop)) (hperm : PermOf S.n perm)
    (hperm' : PermOf S.n perm') :
    ∃ S' recs' net' m1' st' mesh' σ, chain lp' periodic threshold lmin lmax coupling { o with lin := lin' } perm' m' = .ok (S', recs', stop) ∧
      netNew m' periodic = .ok net' ∧ stackNew lp' m' net' threshold = .ok (m1', st') ∧ RelabelledMat φ m1 m1' ∧
      meshNew st' = .ok mesh' ∧ RelabelledMesh φ mesh.rows mesh'.rows σ ∧
      List.Forall₂ (RelabelledState mesh.rows mesh'.rows σ) recs recs' := by
  have hs : solve m1 mesh lmin lmax coupling o perm = .ok (S, recs, stop) := by
    unfold chain at hs
    simpa only [hn, hst, hmesh, Bind.bind, Except.bind] using hs
  have hne := chain_nonempty hlp h hn hst hmesh hs
  obtain ⟨net', e1, hrn⟩ := C107_net hmm h hn hk
  obtain ⟨m1', st', e2, hmm1, hrst, hkst, hover⟩ := relabelled_stack hlp hlp' hmm h hw hn e1 hrn hk hst
  have hne' : m'.fibers ≠ [] := by
    intro e
    apply hne
    rw [← List.length_eq_zero_iff] at e ⊢
    rw [← hmm.count]; exact e
  obtain ⟨m2, st2, mesh', hst2, hmesh2, -⟩ := C27_mesh_of_stack hlp' (hmm.good h) e1 threshold
  rw [e2] at hst2
  cases hst2
  obtain ⟨σ, hσ⟩ := C107_mesh hmm1 hrst hover hmesh hmesh2
  obtain ⟨-, -, -, hgood, hsame, hend, h3, hvalid, hof, hner⟩ := chain_facts hlp h hne hn hst hmesh
  obtain ⟨-, -, -, -, -, -, h3', hvalid', -, -⟩ := chain_facts hlp' (hmm.good h) hne' e1 e2 hmesh2
  obtain ⟨place, hpl⟩ := C26_constraints h3
  have hsort : NodesSorted mesh.rows := by have := hvalid.sorted; rwa [rows_meshFrame] at this
  have hkm := placement_keeps hpl hsort (fun r hr => (hover r hr).2.1) hkst
  obtain ⟨Km, cs, hK, hC, -⟩ := solve_run hs
  obtain ⟨-, ⟨L, hL⟩, -⟩ := C65_lengths hK
  obtain ⟨S', recs', r1, r2⟩ := C107_solve hs hgood hvalid hvalid' hmm1 hσ hof hkm hdist hp hcoup hL htol
    hlin hperm (by
    intro a ha _ hf
    rw [C73_translation hK hgood hvalid hp hcoup hL (hor.imp_right (same_tensile hsame))] at hf
    obtain ⟨k, hk⟩ := List.mem_iff_getElem?.1 ha
    exact chain_supported hlp h hw hn hst hth hmesh hs hp htol hlin.1 hperm hk hf) hlin' hperm'
  refine ⟨S', recs', net', m1', st', mesh', σ, ?_, e1, e2, hmm1, hmesh2, hσ, r2⟩
  unfold chain
  simp only [e1, e2, hmesh2, Bind.bind, Except.bind]
  exact r1

end Fibermat
