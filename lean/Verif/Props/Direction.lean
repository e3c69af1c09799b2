import Verif.Lemmas.DirectionAssembly

/-! # The simulation does not depend on the direction chosen along each fiber (C104) -/

set_option linter.unusedSectionVars false
set_option linter.unusedSimpArgs false

namespace Fibermat
variable {K : Type} [Field K] [LinearOrder K] [IsStrictOrderedRing K]
open Spec

/-- The mesh of a reversed net has the same nodes, places and connections. -/
theorem C104_mesh {net : Net K} {half : Int → K} (he : Ended net.rows half) (d : ℕ → Bool) {mesh mesh' : Mesh K}
    (hm : meshNew net = .ok mesh) (hm' : meshNew (turnNet d net) = .ok mesh') :
    ∃ σ, TurnedMesh d mesh.rows mesh'.rows σ := by
  have key : ∀ {net : Net K} {mesh : Mesh K}, meshNew net = .ok mesh → meshInit net = .ok mesh := by
    intro net mesh h
    unfold meshNew at h
    cases h1 : meshInit net with
    | error e => rw [h1] at h; cases h
    | ok m =>
      rw [h1] at h
      simp only [Bind.bind, Except.bind] at h
      cases h2 : meshCheck m.frame with
      | error e => rw [h2] at h; cases h
      | ok u => rw [h2] at h; cases h; rfl
  exact turned_mesh he d (key hm) (key hm')

/-- The contacts of `constraint` are the connections, in order. -/
theorem contacts_connections {rows : List (MeshRow K)} {t : List K} {l : List (Contact K)} (hlen : t.length = rows.length)
    (h : contacts rows t = .ok l) : l.map (fun x => (x.i, x.j)) = connections rows := by
  unfold contacts at h
  rw [mapM_forall₂] at h
  have h1 : l.map (fun x => (x.i, x.j)) =
      (((rows.zip t).zipIdx.filter (fun p => (p.2 : Int) ≤ p.1.1.constraint)).map (fun p => (p.2, p.1.1.constraint.toNat))) := by
    generalize (rows.zip t).zipIdx.filter (fun p => (p.2 : Int) ≤ p.1.1.constraint) = L at h
    induction h with
    | nil => rfl
    | @cons p x L l hp _ ih =>
      rw [List.map_cons, List.map_cons, ih]
      congr 1
      cases hq : (rows.zip t)[p.1.1.constraint.toNat]? with
      | none => rw [hq] at hp; cases hp
      | some q => rw [hq] at hp; cases hp; rfl
  rw [h1]
  unfold connections
  have h2 : rows.zipIdx = (rows.zip t).zipIdx.map (fun p => (p.1.1, p.2)) := by
    apply List.ext_getElem?
    intro i
    simp only [List.getElem?_map, List.getElem?_zipIdx, Nat.zero_add, Option.map_map]
    rcases Nat.lt_or_ge i rows.length with hi | hi
    · rw [List.getElem?_eq_getElem hi, List.getElem?_eq_getElem (by simp [hlen]; exact hi)]
      simp
    · rw [List.getElem?_eq_none hi, List.getElem?_eq_none (by simp [hlen]; exact hi)]
      rfl
  rw [h2, List.filter_map, List.map_map]
  rfl

/-- Solving the reversed mesh gives the same run: same displacements, contact forces, gaps and heights of the plate, rotations being
counted in the other direction on reversed fibers, whatever correct solvers are used. -/
theorem C104_solve {mat : Mat K} {mesh mesh' : Mesh K} {lmin lmax : Option K} {coupling : K} {o : Opts K} {perm : Option (List ℕ)}
    {S : Sys K} {recs : List (Rec K)} {stop : Stop}
    (h : solve mat mesh lmin lmax coupling o perm = .ok (S, recs, stop)) (hm : GoodMat mat)
    (hv : ValidMesh mesh.frame) (hv' : ValidMesh mesh'.frame) {d : ℕ → Bool} {σ : ℕ → ℕ} (hσ : TurnedMesh d mesh.rows mesh'.rows σ)
    (hd : DistinctNodes mesh.rows) (ho : OtherFiber mesh.rows) (ho' : OtherFiber mesh'.rows)
    (hp : PositiveLengths mesh.rows lmin lmax) (hcoup : |coupling| ≤ 1) {L : ℕ → K}
    (hL : BeamLengths mesh.rows lmin lmax L) (htol : 0 ≤ o.tol) (hlin : GoodLin o.lin) (hperm : PermOf S.n perm)
    (hfloat : ∀ a ∈ recs, Cell.lt a.rlambda o.packing = true → ¬ Floating mat mesh.rows coupling L o.tol a.Z a.x)
    {lin' : LinSolver K} (hlin' : GoodLin lin') {perm' : Option (List ℕ)} (hperm' : PermOf S.n perm') :
    ∃ S' recs', solve (turnMat d mat) mesh' lmin lmax coupling { o with lin := lin' } perm' = .ok (S', recs', stop) ∧
      List.Forall₂ (TurnedState d mesh.rows mesh'.rows σ) recs recs' := by
  have hreg := regular_or_none h hm hv hp hcoup hL htol hlin hperm hfloat
  obtain ⟨Km, cs, hK, hC, hS, hrun⟩ := solve_run h
  have hm' := goodMat_turn d hm
  have hb : BeamsCyclic mesh.rows := by have := hv.beams; rwa [rows_meshFrame] at this
  have hb' : BeamsCyclic mesh'.rows := by have := hv'.beams; rwa [rows_meshFrame] at this
  have hs : NodesSorted mesh.rows := by have := hv.sorted; rwa [rows_meshFrame] at this
  have hs' : NodesSorted mesh'.rows := by have := hv'.sorted; rwa [rows_meshFrame] at this
  have hc : ConstraintsReciprocal mesh.rows := by have := hv.constraints; rwa [rows_meshFrame] at this
  have hc' : ConstraintsReciprocal mesh'.rows := by have := hv'.constraints; rwa [rows_meshFrame] at this
  obtain ⟨-, -, t, l, Z, ht, hcl, -, -⟩ := constraint_eq hC
  have hl := contacts_of' hC ht hcl
  obtain ⟨htlen, htf⟩ := nodeThickness_spec ht
  -- the reversed mesh is over the reversed mat
  have hover : OverFibers (turnMat d mat) mesh'.rows := by
    intro r' hr'
    obtain ⟨k, hk⟩ := List.mem_iff_getElem?.1 hr'
    obtain ⟨τ, t1, t2, -⟩ := inverse_of_inj hσ.lt hσ.inj
    have hkl : k < mesh.rows.length := by rw [← hσ.count]; exact (List.getElem?_eq_some_iff.1 hk).1
    have hr : mesh.rows[τ k]? = some (mesh.rows[τ k]'(t1 k hkl)) := List.getElem?_eq_getElem (t1 k hkl)
    obtain ⟨q, hq, e1, -⟩ := hσ.node _ _ hr
    rw [t2 k hkl, hk] at hq; cases hq
    obtain ⟨g1, f, g2, -⟩ := htf _ _ hr
    have := (List.getElem?_eq_some_iff.1 g2).1
    rw [e1]
    have hlen : (turnMat d mat).fibers.length = mat.fibers.length := by simp [turnMat]
    rw [hlen]
    omega
  -- it has a beam
  have hstart : ∃ i, StartsBeam mesh'.rows i := by
    obtain ⟨-, -, bs, ls, hbs, hr, -⟩ := stiffness_eq hK
    cases bs with
    | nil => rw [List.map_nil, rescale_nil] at hr; cases hr
    | cons b bs =>
      have hB := hσ.beam hs hs' hd hb hb' ((beams_spec hbs).1 b (by simp))
      have hlt := hB.lt
      obtain ⟨r, p, g1, -, g3, -⟩ := hB.rows
      exact ⟨_, r, g1, by omega⟩
  obtain ⟨Km', hK'⟩ := C35_stiffness_total lmin lmax coupling hm' hv' hover hstart
  have hne' : mesh'.rows ≠ [] := by
    obtain ⟨i, r, hr, -⟩ := hstart
    intro e
    rw [e] at hr
    simp at hr
  obtain ⟨cs', hC'⟩ := C37_total hm' ((C28_meshCheck_iff _).2 (Or.inr hv')) hc' hover hne'
  obtain ⟨-, -, t', l', Z', ht', hcl', -, -⟩ := constraint_eq hC'
  have hl' := contacts_of' hC' ht' hcl'
  obtain ⟨htlen', -⟩ := nodeThickness_spec ht'
  obtain ⟨κ, hκ, hren⟩ := turned_system hσ hm hc hc' hs hs' hd hb hb' ho ho' hK hK' hC hC' hl hl'
  obtain ⟨bl, has, hpos, -⟩ := assembled hK
  obtain ⟨-, bl', has', hpos'⟩ := hσ.stiffness hc hs hs' hd hb hb' hK hK'
  have hsd := assemble_sound has hm (hpos hp) hl
  have hsd' := assemble_sound has' hm' (hpos' hp) hl'
  subst hS
  have hn : (assemble Km cs).n = 2 * mesh.rows.length + 3 * l.length := by
    unfold Sys.n assemble; simp only [has.eq, hl.C]
  have hrun' := hren.run (o := { o with perm := perm.getD (List.range (assemble Km cs).n) })
    (o' := { o with lin := lin', perm := perm'.getD (List.range (assemble Km' cs').n) }) hsd hsd' htol
    (permOf_getD hperm) (by rw [hren.n]; exact permOf_getD hperm') rfl rfl rfl rfl hlin hlin' (by rw [hrun]; exact hreg)
  set o2 : Opts K := { o with lin := lin', perm := perm'.getD (List.range (assemble Km' cs').n) } with ho2
  refine ⟨assemble Km' cs', ((assemble Km' cs').run o2).1, ?_, ?_⟩
  · unfold solve
    rw [hK', hC']
    have hst := hrun'.2
    rw [hrun] at hst
    have hst : ((assemble Km' cs').run o2).2 = stop := hst
    change Except.ok (assemble Km' cs', (assemble Km' cs').run o2) = _
    rw [← hst]
  · rw [hrun] at hrun'
    refine hrun'.1.imp ?_
    intro a a' ha
    have pos0 : ∀ i, i < mesh.rows.length → turnIndex (2 * mesh.rows.length) σ κ (2 * i) = 2 * σ i := by
      intro i hi
      have e1 : 2 * i / 2 = i := by omega
      have e2 : 2 * i % 2 = 0 := by omega
      rw [turnIndex, if_pos (by omega), turnPos, e1, e2, Nat.add_zero]
    have pos1 : ∀ i, i < mesh.rows.length → turnIndex (2 * mesh.rows.length) σ κ (2 * i + 1) = 2 * σ i + 1 := by
      intro i hi
      have e1 : (2 * i + 1) / 2 = i := by omega
      have e2 : (2 * i + 1) % 2 = 1 := by omega
      rw [turnIndex, if_pos (by omega), turnPos, e1, e2]
    have posc : ∀ k e, e < 3 → turnIndex (2 * mesh.rows.length) σ κ (2 * mesh.rows.length + (3 * k + e)) =
        2 * mesh.rows.length + (3 * κ k + e) := by
      intro k e he
      have e1 : (2 * mesh.rows.length + (3 * k + e) - 2 * mesh.rows.length) / 3 = k := by omega
      have e2 : (2 * mesh.rows.length + (3 * k + e) - 2 * mesh.rows.length) % 3 = e := by omega
      rw [turnIndex, if_neg (by omega), e1, e2]
    have flipc : ∀ k, turnFlip d mesh.rows (2 * mesh.rows.length) (2 * mesh.rows.length + k) = false := by
      intro k
      simp [turnFlip]
    refine ⟨?_, ?_, ?_, ?_, ha.Z, ha.lam, ha.err⟩
    · intro i hi
      have := ha.x (2 * i) (by omega)
      rw [pos0 i hi] at this
      rw [this]
      have e2 : ¬ (2 * i % 2 = 1) := by omega
      simp [turnFlip, turnSign, sg]
    · intro i r hr
      have hi : i < mesh.rows.length := (List.getElem?_eq_some_iff.1 hr).1
      have := ha.x (2 * i + 1) (by omega)
      rw [pos1 i hi] at this
      rw [this]
      have e1 : (2 * i + 1) / 2 = i := by omega
      have e2 : (2 * i + 1) % 2 = 1 := by omega
      have e3 : 2 * i + 1 < 2 * mesh.rows.length := by omega
      have : turnFlip d mesh.rows (2 * mesh.rows.length) (2 * i + 1) = d r.fiber.toNat := by
        simp [turnFlip, turnSign, e1, e2, e3, turnedAt_eq hr]
      rw [this]; rfl
    · intro i hi e he
      have := ha.mask (2 * i + e) (by omega)
      have he2 : e = 0 ∨ e = 1 := by omega
      rcases he2 with rfl | rfl
      · rw [Nat.add_zero, pos0 i hi] at this
        exact this
      · rw [pos1 i hi] at this
        exact this
    · intro k i j hk
      rw [← contacts_connections htlen hcl, List.getElem?_map, Option.map_eq_some_iff] at hk
      obtain ⟨x, hx, hij⟩ := hk
      have hkl : k < l.length := (List.getElem?_eq_some_iff.1 hx).1
      refine ⟨κ k, ?_, ?_⟩
      · rw [← contacts_connections htlen' hcl', List.getElem?_map, hκ k x hx]
        simp only [Prod.mk.injEq] at hij
        simp only [Option.map_some, turnContact, hij.1, hij.2]
      · intro e he
        have hlt : 2 * mesh.rows.length + (3 * k + e) < (assemble Km cs).n := by omega
        have x1 := ha.x _ hlt
        have x2 := ha.q _ hlt
        have x3 := ha.mask _ hlt
        rw [posc k e he] at x1 x2 x3
        rw [flipc] at x1
        exact ⟨x1, x2, x3⟩

/-- The whole simulation of a planar stacked mat does not depend on the direction chosen along each fiber, as long as no two crossings
of a fiber coincide, whatever correct solvers are used. -/
theorem C104_chain {lp lp' : Linprog K} (hlp : GoodLinprog lp) (hlp' : GoodLinprog lp') {m : Mat K} (h : GoodMat m)
    (hw : ∀ f ∈ m.fibers, f.w = 0) {periodic : Bool} {net : Net K} (hn : netNew m periodic = .ok net) {threshold : Option K}
    {m1 : Mat K} {st : Net K} (hst : stackNew lp m net threshold = .ok (m1, st)) (hth : KeepsTouching m threshold) {mesh : Mesh K}
    (hmesh : meshNew st = .ok mesh) (hdist : DistinctNodes mesh.rows) {lmin lmax : Option K}
    (hp : PositiveLengths mesh.rows lmin lmax) {coupling : K}
    (hcoup : |coupling| ≤ 1) (hor : |coupling| < 1 ∨ ∀ f ∈ m.fibers, f.E = ⊤) {o : Opts K} (htol : 0 ≤ o.tol)
    (hlin : GoodLin o.lin) {lin' : LinSolver K} (hlin' : GoodLin lin') {perm perm' : Option (List ℕ)} {S : Sys K} {recs : List (Rec K)}
    {stop : Stop} (hs : chain lp periodic threshold lmin lmax coupling o perm m = .ok (S, recs, stop)) (hperm : PermOf S.n perm)
    (hperm' : PermOf S.n perm') (d : ℕ → Bool) :
    ∃ S' recs' mesh' σ, chain lp' periodic threshold lmin lmax coupling { o with lin := lin' } perm' (turnMat d m) = .ok (S', recs', stop) ∧
      meshNew (turnNet d st) = .ok mesh' ∧ TurnedMesh d mesh.rows mesh'.rows σ ∧
      List.Forall₂ (TurnedState d mesh.rows mesh'.rows σ) recs recs' := by
  have hs : solve m1 mesh lmin lmax coupling o perm = .ok (S, recs, stop) := by
    unfold chain at hs
    simpa only [hn, hst, hmesh, Bind.bind, Except.bind] using hs
  have hne := chain_nonempty hlp h hn hst hmesh hs
  have e1 := C104_net h d hn
  have e2 := C104_stack hlp hlp' h d hn hst
  have hne' : (turnMat d m).fibers ≠ [] := by
    intro e
    apply hne
    rw [← List.length_eq_zero_iff] at e ⊢
    simpa [turnMat] using e
  obtain ⟨m2, st2, mesh', hst2, hmesh2, -⟩ := C27_mesh_of_stack hlp' (goodMat_turn d h) e1 threshold
  rw [e2] at hst2
  cases hst2
  obtain ⟨net', g1, rfl, hgood, hsame, hend, h3, hvalid, hof, hner⟩ := chain_facts hlp h hne hn hst hmesh
  obtain ⟨-, -, -, -, -, -, h3', hvalid', -, -⟩ := chain_facts hlp' (goodMat_turn d h) hne' e1 e2 hmesh2
  obtain ⟨σ, hσ⟩ := C104_mesh hend d hmesh hmesh2
  obtain ⟨place, hpl⟩ := C26_constraints h3
  obtain ⟨place', hpl'⟩ := C26_constraints h3'
  obtain ⟨Km, cs, hK, hC, -⟩ := solve_run hs
  obtain ⟨-, ⟨L, hL⟩, -⟩ := C65_lengths hK
  obtain ⟨S', recs', r1, r2⟩ := C104_solve hs hgood hvalid hvalid' hσ hdist (placement_other hpl) (placement_other hpl') hp hcoup hL htol
    hlin hperm (by
    intro a ha _ hf
    rw [C73_translation hK hgood hvalid hp hcoup hL (hor.imp_right (same_tensile hsame))] at hf
    obtain ⟨k, hk⟩ := List.mem_iff_getElem?.1 ha
    exact chain_supported hlp h hw hn hst hth hmesh hs hp htol hlin.1 hperm hk hf) hlin' hperm'
  refine ⟨S', recs', mesh', σ, ?_, hmesh2, hσ, r2⟩
  unfold chain
  simp only [e1, e2, hmesh2, Bind.bind, Except.bind]
  exact r1

end Fibermat
