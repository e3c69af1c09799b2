import Verif.Lemmas.MirrorMesh
import Verif.Lemmas.MirrorNet
import Verif.Props.Relabel

/-! # The mat compressed from above or from below (C109) -/

set_option linter.unusedSectionVars false
set_option linter.unusedSimpArgs false

namespace Fibermat
variable {K : Type} [Field K] [LinearOrder K] [IsStrictOrderedRing K]
open Spec

theorem top_unique {mat : Mat K} {rows : List (MeshRow K)} {Z Z' : K} (h : IsTop mat rows Z) (h' : IsTop mat rows Z') : Z = Z' := by
  obtain ⟨⟨i, hi, e⟩, hall⟩ := h
  obtain ⟨⟨i', hi', e'⟩, hall'⟩ := h'
  exact le_antisymm (by rw [e]; exact hall' i hi) (by rw [e']; exact hall i' hi')

theorem assembled_deform {mat : Mat K} {mesh : Mesh K} {u : ℕ → K} {c : K} {Km : Coo (Cell K)} {bl : List (Beam K × K)}
    (h : Assembled mat (mesh.deform u).rows c Km bl) : Assembled mat mesh.rows c Km bl := by
  refine ⟨by rw [h.eq, deform_length], ?_, ?_, h.nodup⟩
  · intro p hp
    obtain ⟨hlt, r, q, h1, h2, h3, h4, h5, h6⟩ := h.beam p hp
    rw [deform_getElem?, Option.map_eq_some_iff] at h1 h2
    obtain ⟨r0, h1, rfl⟩ := h1
    obtain ⟨q0, h2, rfl⟩ := h2
    exact ⟨hlt, r0, q0, h1, h2, h3, h4, h5, h6⟩
  · rintro i ⟨r, hr, hb⟩
    exact h.all i ⟨{ r with z := r.z + u (2 * i) }, by rw [deform_getElem?, hr]; rfl, hb⟩

theorem forall₂_trans {α β γ : Type} {R : α → β → Prop} {Q : β → γ → Prop} {l : List α} {l1 : List β} {l2 : List γ}
    (h : List.Forall₂ R l l1) (h' : List.Forall₂ Q l1 l2) : List.Forall₂ (fun a c => ∃ b, R a b ∧ Q b c) l l2 := by
  induction h generalizing l2 with
  | nil => cases h'; exact .nil
  | cons hab _ ih =>
    cases h' with
    | cons hbc ht => exact .cons ⟨_, hab, hbc⟩ (ih ht)

/-- Meshes turned upside down, for a mat with the same sections. -/
theorem mirrored_solve {mat mat' : Mat K} {mesh mesh' : Mesh K} {lmin lmax : Option K} {coupling : K} {o : Opts K} {perm : Option (List ℕ)}
    {S : Sys K} {recs : List (Rec K)} {stop : Stop}
    (h : solve mat mesh lmin lmax coupling o perm = .ok (S, recs, stop)) (hm : GoodMat mat)
    (hv : ValidMesh mesh.frame) (hv' : ValidMesh mesh'.frame) {φ σ : ℕ → ℕ} (hmm : RelabelledMat φ mat mat')
    {Z : K} (hZ : IsTop mat mesh.rows Z)
    (hσ : MirroredMesh φ Z mesh.rows mesh'.rows σ) (hof : OverFibers mat mesh.rows) (hk : ReversesOrderMesh φ mesh.rows)
    (hfl : RestsOnFloor mat mesh.rows)
    (hd : DistinctNodes mesh.rows)
    (hp : PositiveLengths mesh.rows lmin lmax) (hcoup : |coupling| ≤ 1) {L : ℕ → K}
    (hL : BeamLengths mesh.rows lmin lmax L) (htol : 0 ≤ o.tol) (hlin : GoodLin o.lin) (hperm : PermOf S.n perm)
    (hfloat : ∀ a ∈ recs, Cell.lt a.rlambda o.packing = true → ¬ Floating mat mesh.rows coupling L o.tol a.Z a.x)
    {lin' : LinSolver K} (hlin' : GoodLin lin') {perm' : Option (List ℕ)} (hperm' : PermOf S.n perm') :
    ∃ S' recs', solve mat' mesh' lmin lmax coupling { o with lin := lin' } perm' = .ok (S', recs', stop) ∧
      List.Forall₂ (MirroredState mesh.rows mesh'.rows σ) recs recs' := by
  have hreg := regular_or_none h hm hv hp hcoup hL htol hlin hperm hfloat
  obtain ⟨Km, cs, hK, hC, hS, hrun⟩ := solve_run h
  have hm' := hmm.good hm
  have hb : BeamsCyclic mesh.rows := by have := hv.beams; rwa [rows_meshFrame] at this
  have hb' : BeamsCyclic mesh'.rows := by have := hv'.beams; rwa [rows_meshFrame] at this
  have hs : NodesSorted mesh.rows := by have := hv.sorted; rwa [rows_meshFrame] at this
  have hs' : NodesSorted mesh'.rows := by have := hv'.sorted; rwa [rows_meshFrame] at this
  have hc : ConstraintsReciprocal mesh.rows := by have := hv.constraints; rwa [rows_meshFrame] at this
  have hc' : ConstraintsReciprocal mesh'.rows := by have := hv'.constraints; rwa [rows_meshFrame] at this
  obtain ⟨hZ1, -⟩ := C37_geometric hC hm hc
  have hZe : cs.Z = Z := top_unique hZ1 hZ
  obtain ⟨-, -, t, l, Z2, ht, hcl, -, -⟩ := constraint_eq hC
  have hl := contacts_of' hC ht hcl
  obtain ⟨htlen, htf⟩ := nodeThickness_spec ht
  have hrel := hσ.relabelled
  have hover : OverFibers mat' mesh'.rows := by
    have := hrel.over hmm hof
    unfold OverFibers at this
    rwa [deform_forall (fun _ _ => Iff.rfl)] at this
  -- it has a beam
  have hstart : ∃ i, StartsBeam mesh'.rows i := by
    obtain ⟨-, -, bs, ls, hbs, hr, -⟩ := stiffness_eq hK
    cases bs with
    | nil => rw [List.map_nil, rescale_nil] at hr; cases hr
    | cons b bs =>
      have hB := hrel.beam hmm hof hs (deform_sorted.2 hs') hd hb (deform_beams.2 hb') ((beams_spec hbs).1 b (by simp))
      have hlt := hB.lt
      obtain ⟨r, p, g1, -, g3, -⟩ := hB.rows
      rw [deform_getElem?, Option.map_eq_some_iff] at g1
      obtain ⟨r0, g1, rfl⟩ := g1
      have g3 : r0.beam = _ := g3
      exact ⟨_, r0, g1, by omega⟩
  obtain ⟨Km', hK'⟩ := C35_stiffness_total lmin lmax coupling hm' hv' hover hstart
  have hne' : mesh'.rows ≠ [] := by
    obtain ⟨i, r, hr, -⟩ := hstart
    intro e
    rw [e] at hr
    simp at hr
  obtain ⟨cs', hC'⟩ := C37_total hm' ((C28_meshCheck_iff _).2 (Or.inr hv')) hc' hover hne'
  obtain ⟨-, -, t', l', Z', ht', hcl', -, -⟩ := constraint_eq hC'
  have hl' := contacts_of' hC' ht' hcl'
  obtain ⟨htlen', -⟩ := nodeThickness_spec ht'
  obtain ⟨bl, has, hpos, -⟩ := assembled hK
  obtain ⟨-, bl', has', hpos'⟩ := hrel.stiffness hmm hof hc hs (deform_sorted.2 hs') hd hb (deform_beams.2 hb') hK
    (by rw [deform_stiffness]; exact hK')
  have has' := assembled_deform has'
  have hsd := assemble_sound has hm (hpos hp) hl
  have hsd' := assemble_sound has' hm' (hpos' hp) hl'
  have hgauge := upward_gauge has hl hc
  obtain ⟨κ, hκ, hren⟩ := mirrored_system hσ hmm hof hm hc hc' hs hs' hd hb hb' hk hfl hK hK' hC' hZe hl hl' (table mesh.rows coupling bl)
    (fun r hr => hgauge.zero r (by simpa only [assemble, has.eq] using hr))
  subst hS
  have hn : (assemble Km cs).n = 2 * mesh.rows.length + 3 * l.length := by
    unfold Sys.n assemble; simp only [has.eq, hl.C]
  have hgrun := gauged_run (o := { o with perm := perm.getD (List.range (assemble Km cs).n) }) hsd hgauge htol (permOf_getD hperm) hlin
    (by rw [hrun]; exact hreg)
  have hnS : (assemble Km' cs').n = (assemble Km cs).n := hren.n
  have hrun' := hren.run (o := { o with perm := perm.getD (List.range (assemble Km cs).n) })
    (o' := { o with lin := lin', perm := perm'.getD (List.range (assemble Km' cs').n) }) (gauged_sound hsd hgauge) hsd' htol
    (permOf_getD hperm) (by rw [hnS]; exact permOf_getD hperm') rfl rfl rfl rfl hlin hlin' hgrun.2.2
  set o2 : Opts K := { o with lin := lin', perm := perm'.getD (List.range (assemble Km' cs').n) } with ho2
  refine ⟨assemble Km' cs', ((assemble Km' cs').run o2).1, ?_, ?_⟩
  · unfold solve
    rw [hK', hC']
    have hst := hrun'.2.trans hgrun.2.1
    rw [hrun] at hst
    have hst : ((assemble Km' cs').run o2).2 = stop := hst
    change Except.ok (assemble Km' cs', (assemble Km' cs').run o2) = _
    rw [← hst]
  · have hboth := forall₂_trans hgrun.1 hrun'.1
    rw [hrun] at hboth
    refine hboth.imp ?_
    rintro a a' ⟨b, hg, ha⟩
    have hrn : ∀ r, r < 2 * mesh.rows.length + 3 * l.length → r < (gauged (assemble Km cs)
      (wholeTable (2 * mesh.rows.length) (table mesh.rows coupling bl) cs.C) (upward (2 * mesh.rows.length))).n := by
      intro r hr
      have : r < (assemble Km cs).n := by rw [hn]; exact hr
      exact this
    have pos0 : ∀ i, i < mesh.rows.length → mirrorIndex (2 * mesh.rows.length) σ κ (2 * i) = 2 * σ i := by
      intro i hi
      have e1 : 2 * i / 2 = i := by omega
      have e2 : 2 * i % 2 = 0 := by omega
      rw [mirrorIndex, if_pos (by omega), turnPos, e1, e2, Nat.add_zero]
    have pos1 : ∀ i, i < mesh.rows.length → mirrorIndex (2 * mesh.rows.length) σ κ (2 * i + 1) = 2 * σ i + 1 := by
      intro i hi
      have e1 : (2 * i + 1) / 2 = i := by omega
      have e2 : (2 * i + 1) % 2 = 1 := by omega
      rw [mirrorIndex, if_pos (by omega), turnPos, e1, e2]
    have posc : ∀ k e, e < 3 → mirrorIndex (2 * mesh.rows.length) σ κ (2 * mesh.rows.length + (3 * k + e)) =
        2 * mesh.rows.length + (3 * κ k + (2 - e)) := by
      intro k e he
      have e1 : (2 * mesh.rows.length + (3 * k + e) - 2 * mesh.rows.length) / 3 = k := by omega
      have e2 : (2 * mesh.rows.length + (3 * k + e) - 2 * mesh.rows.length) % 3 = e := by omega
      rw [mirrorIndex, if_neg (by omega), e1, e2]
    have up0 : ∀ i, i < mesh.rows.length → upward (K := K) (2 * mesh.rows.length) (2 * i) = 1 :=
      fun i hi => by rw [upward, if_pos (by omega)]
    have up1 : ∀ i, upward (K := K) (2 * mesh.rows.length) (2 * i + 1) = 0 := fun i => by rw [upward, if_neg (by omega)]
    have upc : ∀ r, 2 * mesh.rows.length ≤ r → upward (K := K) (2 * mesh.rows.length) r = 0 :=
      fun r hr => by rw [upward, if_neg (by omega)]
    have hZ0 : (assemble Km cs).Z0 = Z := hZe
    refine ⟨?_, ?_, ?_, ?_, ?_, ha.lam.trans hg.lam, ha.err.trans hg.err⟩
    · intro i hi
      have x1 := ha.x (2 * i) (hrn _ (by omega))
      have x2 := hg.x (2 * i) (by omega)
      rw [pos0 i hi, x2, up0 i hi, decide_eq_true (by omega : 2 * i < 2 * mesh.rows.length), hZ0] at x1
      rw [x1, (hσ.height hmm hof hi).1]
      show _ + -_ = _
      ring
    · intro i hi
      have x1 := ha.x (2 * i + 1) (hrn _ (by omega))
      have x2 := hg.x (2 * i + 1) (by omega)
      rw [pos1 i hi, x2, up1 i, decide_eq_true (by omega : 2 * i + 1 < 2 * mesh.rows.length)] at x1
      rw [x1]
      show -_ = _
      ring
    · intro i hi e he
      have x1 := ha.mask (2 * i + e) (hrn _ (by omega))
      have x2 := hg.mask (2 * i + e) (by omega)
      have he2 : e = 0 ∨ e = 1 := by omega
      rcases he2 with rfl | rfl
      · rw [Nat.add_zero, pos0 i hi] at x1
        rw [Nat.add_zero] at x2
        exact x1.trans x2
      · rw [pos1 i hi] at x1
        exact x1.trans x2
    · intro k i j hkc
      rw [← contacts_connections htlen hcl, List.getElem?_map, Option.map_eq_some_iff] at hkc
      obtain ⟨x, hx, hij⟩ := hkc
      have hkl : k < l.length := (List.getElem?_eq_some_iff.1 hx).1
      refine ⟨κ k, ?_, ?_⟩
      · rw [← contacts_connections htlen' hcl', List.getElem?_map, hκ k x hx]
        simp only [Prod.mk.injEq] at hij
        simp only [Option.map_some, mirrorContact, hij.1, hij.2]
      · intro e he
        have hlt : 2 * mesh.rows.length + (3 * k + e) < (assemble Km cs).n := by omega
        have x1 := ha.x _ (hrn _ (by omega : 2 * mesh.rows.length + (3 * k + e) < _))
        have x2 := hg.x _ hlt
        have x3 := ha.mask _ (hrn _ (by omega : 2 * mesh.rows.length + (3 * k + e) < _))
        have x4 := hg.mask _ hlt
        rw [posc k e he] at x1 x3
        rw [upc _ (by omega), mul_zero, sub_zero] at x2
        rw [decide_eq_false (by omega : ¬ 2 * mesh.rows.length + (3 * k + e) < 2 * mesh.rows.length), x2] at x1
        exact ⟨x1, x3.trans x4⟩
    · exact ha.Z.trans hg.Z

/-- The net of a mat turned upside down, its crossing fibers being numbered in the opposite order, is the net turned upside down. -/
theorem C109_net {φ : ℕ → ℕ} {Z : K} {m m' : Mat K} (h : MirroredMat φ Z m m') (hm : GoodMat m) {net : Net K}
    (hn : netNew m false = .ok net) (ho : ReversesOrder φ net.rows) : ∃ net', netNew m' false = .ok net' ∧ MirroredNet φ Z net net' :=
  mirrored_net h hm hn ho

/-- The mesh of a net turned upside down is the mesh turned upside down. -/
theorem C109_mesh {φ : ℕ → ℕ} {Z : K} {m m' : Mat K} (h : MirroredMat φ Z m m') {net net' : Net K} (hn : MirroredNet φ Z net net')
    (ho : OverMat m net.rows) {mesh mesh' : Mesh K} (hm : meshNew net = .ok mesh) (hm' : meshNew net' = .ok mesh') :
    ∃ σ, MirroredMesh φ Z mesh.rows mesh'.rows σ :=
  mirrored_mesh h hn ho (meshNew_init hm) (meshNew_init hm')

/-- Turned upside down, a mat lying on the floor is compressed in the same way: at each recorded step the nodes are the mirror images of
those of the first run between the same two plates, with the same contact forces, whatever correct solvers are used. -/
theorem C109_solve {mat mat' : Mat K} {mesh mesh' : Mesh K} {lmin lmax : Option K} {coupling : K} {o : Opts K} {perm : Option (List ℕ)}
    {S : Sys K} {recs : List (Rec K)} {stop : Stop}
    (h : solve mat mesh lmin lmax coupling o perm = .ok (S, recs, stop)) (hm : GoodMat mat)
    (hv : ValidMesh mesh.frame) (hv' : ValidMesh mesh'.frame) {φ σ : ℕ → ℕ} {Z : K} (hmm : MirroredMat φ Z mat mat')
    (hZ : IsTop mat mesh.rows Z)
    (hσ : MirroredMesh φ Z mesh.rows mesh'.rows σ) (hof : OverFibers mat mesh.rows) (hk : ReversesOrderMesh φ mesh.rows)
    (hfl : RestsOnFloor mat mesh.rows)
    (hd : DistinctNodes mesh.rows)
    (hp : PositiveLengths mesh.rows lmin lmax) (hcoup : |coupling| ≤ 1) {L : ℕ → K}
    (hL : BeamLengths mesh.rows lmin lmax L) (htol : 0 ≤ o.tol) (hlin : GoodLin o.lin) (hperm : PermOf S.n perm)
    (hfloat : ∀ a ∈ recs, Cell.lt a.rlambda o.packing = true → ¬ Floating mat mesh.rows coupling L o.tol a.Z a.x)
    {lin' : LinSolver K} (hlin' : GoodLin lin') {perm' : Option (List ℕ)} (hperm' : PermOf S.n perm') :
    ∃ S' recs', solve mat' mesh' lmin lmax coupling { o with lin := lin' } perm' = .ok (S', recs', stop) ∧
      List.Forall₂ (MirroredState mesh.rows mesh'.rows σ) recs recs' := by
  obtain ⟨S', recs', h1, h2⟩ := mirrored_solve h hm hv hv' hmm.back hZ hσ hof hk hfl hd hp hcoup hL htol hlin hperm hfloat hlin' hperm'
  rw [turned_solve (hmm.good hm)] at h1
  exact ⟨S', recs', h1, h2⟩

theorem mesh_valid {m : Mat K} (hgood : GoodMat m) {periodic : Bool} {net : Net K} (g1 : netNew m periodic = .ok net) {mesh : Mesh K}
    (hmesh : meshNew net = .ok mesh) : ValidMesh mesh.frame := by
  have h3 := meshNew_init hmesh
  have hend := netNew_ended hgood g1
  obtain ⟨place, hp⟩ := C26_constraints h3
  have hvn : ValidNet net.frame := by
    obtain ⟨net2, q1, -, q3, -⟩ := C06_netNew_ok hgood periodic
    rw [g1] at q1; cases q1
    exact q3
  have h3' := h3
  obtain ⟨-, rfl⟩ := meshInit_ok h3
  rw [meshRows_valid_iff hvn, placement_ends hp]
  intro k r hk i hik hfl
  by_contra hAB
  have hsort := (C24_mesh_sorted h3').2
  rcases hfl with ⟨a, ha, hfirst⟩ | ⟨a, ha, hlast⟩
  · obtain ⟨-, -, -, ⟨j, b, hb, hbf, hbs⟩, -, hlt⟩ := ended_nodes hend hp ha
    have hl := abs_lt.1 (hlt k r hk hik hAB)
    exact hfirst j b (sorted_lt hsort hb ha hbf (by rw [hbs]; exact hl.1)) hb hbf
  · obtain ⟨-, -, ⟨j, b, hb, hbf, hbs⟩, -, -, hlt⟩ := ended_nodes hend hp ha
    have hl := abs_lt.1 (hlt k r hk hik hAB)
    exact hlast j b (sorted_lt hsort ha hb hbf.symm (by rw [hbs]; exact hl.2)) hb hbf

/-- A planar stacked mat turned upside down between its two plates is compressed in the same way, upside down: same number of steps, same
packings, same contact forces. -/
theorem C109_chain {lp : Linprog K} (hlp : GoodLinprog lp) {φ : ℕ → ℕ} {m : Mat K} (h : GoodMat m)
    (hw : ∀ f ∈ m.fibers, f.w = 0) {net : Net K} (hn : netNew m false = .ok net) (hk : ReversesOrder φ net.rows)
    {m1 : Mat K} {st : Net K} (hst : stackNew lp m net none = .ok (m1, st)) {mesh : Mesh K}
    (hmesh : meshNew st = .ok mesh) (hdist : DistinctNodes mesh.rows) {Z : K} (hZ : IsTop m1 mesh.rows Z)
    {m2 : Mat K} (hmm : MirroredMat φ Z m1 m2) {lmin lmax : Option K}
    (hp : PositiveLengths mesh.rows lmin lmax) {coupling : K}
    (hcoup : |coupling| ≤ 1) (hor : |coupling| < 1 ∨ ∀ f ∈ m.fibers, f.E = ⊤) {o : Opts K} (htol : 0 ≤ o.tol)
    (hlin : GoodLin o.lin) {lin' : LinSolver K} (hlin' : GoodLin lin') {perm perm' : Option (List ℕ)} {S : Sys K} {recs : List (Rec K)}
    {stop : Stop} (hs : solve m1 mesh lmin lmax coupling o perm = .ok (S, recs, stop)) (hperm : PermOf S.n perm)
    (hperm' : PermOf S.n perm') :
    ∃ net2 mesh2 σ S' recs', netNew m2 false = .ok net2 ∧ meshNew net2 = .ok mesh2 ∧ MirroredMesh φ Z mesh.rows mesh2.rows σ ∧
      solve m2 mesh2 lmin lmax coupling { o with lin := lin' } perm' = .ok (S', recs', stop) ∧
      List.Forall₂ (MirroredState mesh.rows mesh2.rows σ) recs recs' := by
  have hne := chain_nonempty hlp h hn hst hmesh hs
  have hth : KeepsTouching m (none : Option K) := fun t ht => by cases ht
  obtain ⟨hck, ho, hper⟩ := netNew_over h hn
  obtain ⟨hlen, hlow, -⟩ := stack_lowest hlp h hck ho hst
  obtain ⟨net', g1, e, hgood, hsame, hend, h3, hvalid, hof, hner⟩ := chain_facts hlp h hne hn hst hmesh
  obtain rfl : st = net' := e
  have hplan := (C12_heights_irrelevant h hgood hw hsame hn g1).2
  have hk1 : ReversesOrder φ st.rows := by
    intro r hr hlt
    obtain ⟨r', hr', eA, eB⟩ := plan_mem (show planColumns st.rows = planColumns net.rows from hplan.symm) hr
    rw [← eA, ← eB] at hlt ⊢
    exact hk r' hr' hlt
  have hover := C06_labels hgood g1
  obtain ⟨net2, n2, hmn⟩ := C109_net hmm hgood g1 hk1
  have hgood2 := hmm.good hgood
  obtain ⟨mesh2, hm2, hmc⟩ := C27_mesh_of_net hgood2 n2
  obtain ⟨σ, hσ⟩ := C109_mesh hmm hmn hover hmesh hm2
  have hv2 : ValidMesh mesh2.frame := mesh_valid hgood2 n2 hm2
  obtain ⟨place, hpl⟩ := C26_constraints h3
  have hsort : NodesSorted mesh.rows := by have := hvalid.sorted; rwa [rows_meshFrame] at this
  have hkm := placement_reverses hpl hsort (fun r hr => (hover r hr).2.1) hk1
  obtain ⟨Km, cs, hK, hC, -⟩ := solve_run hs
  obtain ⟨-, ⟨L, hL⟩, -⟩ := C65_lengths hK
  have hfl : RestsOnFloor m1 mesh.rows := by
    obtain ⟨-, a0, ha0, hx0, -⟩ := C40_itermax hs
    obtain ⟨hnp, -⟩ := C78_nonPenetrating hlp h hw hn hst hmesh hs hp htol hlin.1 hperm 0 a0 ha0
    have h0 : 0 < m.fibers.length := List.length_pos_iff.2 hne
    refine ⟨?_, fun i hi => by have := hnp.floor i hi; rwa [hx0, add_zero] at this⟩
    rcases C20_supported hlp h hck ho hst 0 h0 with hfloor | ⟨r, hr, hAB, hB, -⟩
    · obtain ⟨q, e, he, hA, hB, -⟩ := C07_end_row hgood g1 (List.getElem?_eq_getElem (by omega : 0 < m1.fibers.length))
      obtain ⟨b, hb, eb, -⟩ := hpl.endA q e he
      refine ⟨place (2 * q), (List.getElem?_eq_some_iff.1 hb).1, ?_⟩
      have hzz := (row_heights hgood (same_planar hsame hw) g1 (List.mem_of_getElem? he)).1
      have t1 : nodeThick m1 mesh.rows (place (2 * q)) = thick m1 b.fiber.toNat := by simp [nodeThick, thick, hb]
      have t2 : nodeHeight mesh.rows (place (2 * q)) = b.z := by simp [nodeHeight, hb]
      rw [t1, t2, eb.z, eb.fiber, hzz, hA, Int.toNat_natCast, same_thick hsame]
      exact hfloor
    · have := ho r hr
      omega
  obtain ⟨S', recs', r1, r2⟩ := C109_solve hs hgood hvalid hv2 hmm hZ hσ hof hkm hfl hdist hp hcoup hL htol
    hlin hperm (by
    intro a ha _ hf
    rw [C73_translation hK hgood hvalid hp hcoup hL (hor.imp_right (same_tensile hsame))] at hf
    obtain ⟨k, hk⟩ := List.mem_iff_getElem?.1 ha
    exact chain_supported hlp h hw hn hst hth hmesh hs hp htol hlin.1 hperm hk hf) hlin' hperm'
  exact ⟨net2, mesh2, σ, S', recs', n2, hm2, hσ, r1, r2⟩

/-- The mat turned upside down with its fibers in reverse order, which reverses the order of any two fibers. -/
theorem C109_upsideDown (Z : K) (m : Mat K) : MirroredMat (reversed m.fibers.length) Z m (upsideDown Z m) ∧
    ∀ rows : List (NetRow K), OverMat m rows → ReversesOrder (reversed m.fibers.length) rows := by
  refine ⟨⟨rfl, by simp [upsideDown], ?_, ?_⟩, ?_⟩
  · intro i j hi hj e
    simp only [reversed] at e
    omega
  · intro i hi
    simp only [upsideDown, reversed]
    rw [List.getElem?_reverse (by simp; omega), List.getElem?_map, List.length_map]
    congr 2
    omega
  · intro rows ho r hr hlt
    have := ho r hr
    simp only [reversed]
    omega

end Fibermat
