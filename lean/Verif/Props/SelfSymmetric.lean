import Verif.Spec.SelfSymmetric
import Verif.Props.Symmetry
import Verif.Props.Direction
import Verif.Props.Relabel
import Verif.Props.Draw

/-! # C111: symmetric mats are compressed symmetrically -/

set_option linter.unusedSectionVars false

namespace Fibermat
open Spec
variable {K : Type} [Field K] [LinearOrder K] [IsStrictOrderedRing K]

/-- Parts of the simulations of two mats that differ by their places only. -/
theorem same_parts {R : Fiber K → Fiber K → Prop} (hR : ∀ f f', R f f' → SameButPlace f f')
    (hz : ∀ f f' z, R f f' → R { f with z := z } { f' with z := z }) {periodic : Bool} {S : K}
    (hnet : ∀ {m m' : Mat K}, GoodMat m → GoodMat m' → m.attrs.size = some S → m'.attrs = m.attrs → List.Forall₂ R m.fibers m'.fibers →
      ∀ {net net' : Net K}, netNew m periodic = .ok net → netNew m' periodic = .ok net' → SameConnections net.rows net'.rows)
    {m m' : Mat K} (h : GoodMat m) (h' : GoodMat m') (hS : m.attrs.size = some S) (ha : m'.attrs = m.attrs)
    (hf : List.Forall₂ R m.fibers m'.fibers) (he : m.fibers ≠ []) {lp : Linprog K} (hlp : GoodLinprog lp) {threshold : Option K}
    {net st : Net K} {m1 : Mat K} {mesh : Mesh K} (hn : netNew m periodic = .ok net) (hst : stackNew lp m net threshold = .ok (m1, st))
    (hmesh : meshNew st = .ok mesh) :
    ∃ net' m1' st' mesh', netNew m' periodic = .ok net' ∧ stackNew lp m' net' threshold = .ok (m1', st') ∧ meshNew st' = .ok mesh' ∧
      SameConnections net.rows net'.rows ∧ SameNodes mesh.rows mesh'.rows := by
  obtain ⟨net', hn', -⟩ := C06_netNew_ok h' periodic
  have hconn := hnet h h' hS ha hf hn hn'
  have hsf := hf.imp hR
  obtain ⟨hck, hov, hper⟩ := netNew_over h hn
  obtain ⟨hck', hov', hper'⟩ := netNew_over h' hn'
  obtain ⟨m1', st', mesh', hst', hmesh', -⟩ := C27_mesh_of_stack hlp h' hn' threshold
  refine ⟨net', m1', st', mesh', hn', hst', hmesh', hconn, ?_⟩
  have he' : m'.fibers ≠ [] := by
    intro h0
    rw [h0] at hf
    exact he (List.forall₂_nil_right_iff.1 hf)
  obtain ⟨sys, hs, -, -, z, hzo, -⟩ := C15_unique_optimum h hck hov
  rw [stackConstraint_eq ((matCheck_frame_iff m).2 (Or.inr h)) hck hov] at hs
  cases hs
  obtain ⟨y, hy, hopt⟩ := hlp _ ⟨z, hzo⟩
  have hl := ((optimal_iff h hov y).1 hopt).1
  have hl' : y.length = m'.fibers.length := hl.trans hf.length_eq
  obtain ⟨n1, g1, e1⟩ := stackNew_eq h hck hov he threshold hy hl
  rw [same_stackSys hsf hconn] at hy
  obtain ⟨n1', g1', e1'⟩ := stackNew_eq h' hck' hov' he' threshold hy hl'
  rw [hper] at g1
  rw [hper'] at g1'
  rw [hst] at e1
  rw [hst'] at e1'
  cases e1
  cases e1'
  have hf1 := setZ_forall₂ hz hf y
  exact same_meshNew (same_keep (hnet (setZ_good h hl) (setZ_good h' hl') hS ha hf1 g1 g1') threshold) hmesh hmesh'

/-- Distinct nodes are at positive distances along the fibers. -/
theorem lengths_distinct {rows : List (MeshRow K)} (hd : DistinctNodes rows) (hs : NodesSorted rows) (hb : BeamsCyclic rows)
    {lmin lmax : Option K} (h1 : ∀ a, lmin = some a → 0 < a) (h2 : ∀ a, lmax = some a → 0 < a) : PositiveLengths rows lmin lmax := by
  have hpos : ∀ i, StartsBeam rows i → 0 < beamLength rows i := by
    rintro i ⟨r, hr, hi⟩
    obtain ⟨j, hj, r', p, hr', hp, hf, -⟩ := hb i r hr
    rw [hr] at hr'
    cases hr'
    have hij : i < j := by omega
    have e : beamLength rows i = p.s - r.s := by
      simp [beamLength, abscissa, succNode, hr, hj, hp]
    rw [e]
    have hil : i < rows.length := (List.getElem?_eq_some_iff.1 hr).1
    have hjl : j < rows.length := (List.getElem?_eq_some_iff.1 hp).1
    have hij' := List.pairwise_iff_getElem.1 hs i j hil hjl hij
    have er : rows[i] = r := (List.getElem?_eq_some_iff.1 hr).2
    have ep : rows[j] = p := (List.getElem?_eq_some_iff.1 hp).2
    rw [er, ep, hf] at hij'
    have hle : r.s ≤ p.s := by
      rcases hij' with h | h
      · exact absurd h (lt_irrefl _)
      · exact h.2
    have hne : r.s ≠ p.s := fun h => hij.ne (hd i j r p hr hp hf.symm h)
    exact sub_pos.2 (lt_of_le_of_ne hle hne)
  exact ⟨h1, h2, fun _ => hpos, fun _ ⟨i, hi⟩ => ⟨i, hi, hpos i hi⟩⟩

/-- The mat with its fibers renumbered and reversed. -/
def pulledMat (φ : ℕ → ℕ) (m : Mat K) : Mat K := { m with fibers := (List.range m.fibers.length).filterMap (fun i => m.fibers[φ i]?) }

section
variable {move : Fiber K → Fiber K → Prop} {φ : ℕ → ℕ} {d : ℕ → Bool} {m : Mat K}

theorem Spec.SymmetricMat.lt (h : SymmetricMat move φ d m) {i : ℕ} (hi : i < m.fibers.length) : φ i < m.fibers.length := by
  obtain ⟨g, hg, -⟩ := h.moved i _ (List.getElem?_eq_getElem hi)
  exact (List.getElem?_eq_some_iff.1 hg).1

theorem pulledMat_eq (h : SymmetricMat move φ d m) : (pulledMat φ m).fibers = (List.range m.fibers.length).pmap
    (fun i hi => m.fibers[φ i]'(h.lt hi)) (fun i hi => List.mem_range.1 hi) := by
  have key : ∀ (l : List ℕ) (hl : ∀ i ∈ l, i < m.fibers.length),
      l.filterMap (fun i => m.fibers[φ i]?) = l.pmap (fun i hi => m.fibers[φ i]'(h.lt hi)) hl := by
    intro l
    induction l with
    | nil => intro _; rfl
    | cons i l ih =>
      intro hl
      rw [List.pmap_cons, List.filterMap_cons, List.getElem?_eq_getElem (h.lt (hl i (List.mem_cons_self)))]
      simp only [List.cons.injEq, true_and]
      exact ih _
  exact key _ _

theorem pulledMat_get (h : SymmetricMat move φ d m) {i : ℕ} (hi : i < m.fibers.length) : (pulledMat φ m).fibers[i]? = m.fibers[φ i]? := by
  rw [pulledMat_eq h]
  simp [hi, h.lt hi]

theorem pulledMat_length (h : SymmetricMat move φ d m) : (pulledMat φ m).fibers.length = m.fibers.length := by
  rw [pulledMat_eq h]; simp

theorem pulledMat_relabelled (h : SymmetricMat move φ d m) : RelabelledMat φ (pulledMat φ m) m where
  attrs := rfl
  count := (pulledMat_length h).symm
  inj i j hi hj := h.inj i j (by rwa [pulledMat_length h] at hi) (by rwa [pulledMat_length h] at hj)
  fiber i hi := (pulledMat_get h (by rwa [pulledMat_length h] at hi)).symm

theorem pulledMat_mem {f : Fiber K} (hf : f ∈ (pulledMat φ m).fibers) : f ∈ m.fibers := by
  obtain ⟨i, -, hi⟩ := List.mem_filterMap.1 hf
  exact List.mem_of_getElem? hi

theorem pulledMat_good (h : SymmetricMat move φ d m) (hm : GoodMat m) : GoodMat (pulledMat φ m) := by
  obtain ⟨S, hS, hf⟩ := hm.size
  exact ⟨by rw [pulledMat_length h]; exact hm.n, S, hS, fun f hf' => hf f (pulledMat_mem hf')⟩

theorem pulledMat_moved (h : SymmetricMat move φ d m) : List.Forall₂ move m.fibers (turnMat d (pulledMat φ m)).fibers := by
  rw [List.forall₂_iff_get]
  have hl : m.fibers.length = (turnMat d (pulledMat φ m)).fibers.length := by
    simp only [turnMat, List.length_mapIdx]; exact (pulledMat_length h).symm
  refine ⟨hl, ?_⟩
  intro i h1 h2
  obtain ⟨g, hg, hmv⟩ := h.moved i _ (List.getElem?_eq_getElem h1)
  have e : (turnMat d (pulledMat φ m)).fibers[i]? = some (turnFiber (d i) g) := by
    rw [getElem?_turnMat, pulledMat_get h h1, hg]; rfl
  rw [List.getElem?_eq_getElem h2] at e
  simp only [Option.some.injEq] at e
  show move m.fibers[i] (turnMat d (pulledMat φ m)).fibers[i]
  rw [e]
  exact hmv
end

/-- Symmetric mats are compressed symmetrically: general form. -/
theorem symmetric_states {move : Fiber K → Fiber K → Prop} (hR : ∀ f f', move f f' → SameButPlace f f')
    (hz : ∀ f f' z, move f f' → move { f with z := z } { f' with z := z }) {periodic : Bool} {size : K}
    (hnet : ∀ {m m' : Mat K}, GoodMat m → GoodMat m' → m.attrs.size = some size → m'.attrs = m.attrs →
      List.Forall₂ move m.fibers m'.fibers →
      ∀ {net net' : Net K}, netNew m periodic = .ok net → netNew m' periodic = .ok net' → SameConnections net.rows net'.rows)
    {lp : Linprog K} (hlp : GoodLinprog lp) {φ : ℕ → ℕ} {d : ℕ → Bool} {m : Mat K} (h : GoodMat m) (hsize : m.attrs.size = some size)
    (hsym : SymmetricMat move φ d m)
    (hw : ∀ f ∈ m.fibers, f.w = 0) {net : Net K} (hn : netNew m periodic = .ok net) (hk : KeepsOrder φ net.rows)
    {threshold : Option K}
    {m1 : Mat K} {st : Net K} (hst : stackNew lp m net threshold = .ok (m1, st)) (hth : KeepsTouching m threshold) {mesh : Mesh K}
    (hmesh : meshNew st = .ok mesh) (hdist : DistinctNodes mesh.rows) {lmin lmax : Option K}
    (hlo : ∀ a, lmin = some a → 0 < a) (hhi : ∀ a, lmax = some a → 0 < a) {coupling : K}
    (hcoup : |coupling| ≤ 1) (hor : |coupling| < 1 ∨ ∀ f ∈ m.fibers, f.E = ⊤) {o : Opts K} (htol : 0 ≤ o.tol)
    (hlin : GoodLin o.lin) {perm : Option (List ℕ)} {S : Sys K} {recs : List (Rec K)}
    {stop : Stop} (hs : chain lp periodic threshold lmin lmax coupling o perm m = .ok (S, recs, stop)) (hperm : PermOf S.n perm) :
    ∃ τ, SymmetricNodes φ d mesh.rows τ ∧ ∀ a ∈ recs, SymmetricState d mesh.rows τ a := by
  have hs0 : solve m1 mesh lmin lmax coupling o perm = .ok (S, recs, stop) := by
    unfold chain at hs
    simpa only [hn, hst, hmesh, Bind.bind, Except.bind] using hs
  have hne := chain_nonempty hlp h hn hst hmesh hs0
  -- lengths
  have lens : ∀ {m m1 : Mat K} {net st : Net K} {mesh : Mesh K}, GoodMat m → m.fibers ≠ [] → netNew m periodic = .ok net →
      stackNew lp m net threshold = .ok (m1, st) → meshNew st = .ok mesh → DistinctNodes mesh.rows →
      PositiveLengths mesh.rows lmin lmax := by
    intro m m1 net st mesh h hne hn hst hmesh hd
    obtain ⟨-, -, -, -, -, -, -, hvalid, -, -⟩ := chain_facts hlp h hne hn hst hmesh
    have hb : BeamsCyclic mesh.rows := by have := hvalid.beams; rwa [rows_meshFrame] at this
    have hs : NodesSorted mesh.rows := by have := hvalid.sorted; rwa [rows_meshFrame] at this
    exact lengths_distinct hd hs hb hlo hhi
  have hp := lens h hne hn hst hmesh hdist
  -- without permutation
  obtain ⟨-, -, -, hgood, hsame, -, -, hvalid, -, -⟩ := chain_facts hlp h hne hn hst hmesh
  obtain ⟨Km, cs, hK, hC, -⟩ := solve_run hs0
  obtain ⟨-, ⟨L, hL⟩, -⟩ := C65_lengths hK
  have hs1 := C74_determined hs0 hgood hvalid hp hcoup hL htol hlin hperm (by
    intro a ha _ hf
    rw [C73_translation hK hgood hvalid hp hcoup hL (hor.imp_right (same_tensile hsame))] at hf
    obtain ⟨k, hk⟩ := List.mem_iff_getElem?.1 ha
    exact chain_supported hlp h hw hn hst hth hmesh hs0 hp htol hlin.1 hperm hk hf) hlin (perm' := none) (by rintro p ⟨⟩)
  have hs1 : chain lp periodic threshold lmin lmax coupling o none m = .ok (S, recs, stop) := by
    unfold chain
    simp only [hn, hst, hmesh, Bind.bind, Except.bind]
    exact hs1
  -- the moved mat
  have g2 := pulledMat_good hsym h
  have g1 := goodMat_turn d g2
  have hmv := pulledMat_moved hsym
  have hsame1 := chain_same hR hz hnet h g1 hsize rfl hmv hlp threshold lmin lmax coupling o none
  rw [hs1] at hsame1
  obtain ⟨net', m1', st', mesh', hn', hst', hmesh', hconn, hnodes⟩ := same_parts hR hz hnet h g1 hsize rfl hmv hne hlp hn hst hmesh
  have hne2 : (pulledMat φ m).fibers ≠ [] := by
    intro e
    apply hne
    rw [← List.length_eq_zero_iff] at e ⊢
    rwa [pulledMat_length hsym] at e
  have hne1 : (turnMat d (pulledMat φ m)).fibers ≠ [] := by
    intro e
    apply hne2
    rw [← List.length_eq_zero_iff] at e ⊢
    simpa [turnMat] using e
  have hmem : ∀ f ∈ (turnMat d (pulledMat φ m)).fibers, ∃ b, ∃ g ∈ m.fibers, f = turnFiber b g := by
    intro f hf
    obtain ⟨i, hi⟩ := List.mem_iff_getElem?.1 hf
    rw [getElem?_turnMat] at hi
    cases hg : (pulledMat φ m).fibers[i]? with
    | none => rw [hg] at hi; cases hi
    | some g =>
      rw [hg] at hi
      exact ⟨d i, g, pulledMat_mem (List.mem_of_getElem? hg), (Option.some.inj hi).symm⟩
  have hlen' : mesh'.rows.length = mesh.rows.length := by
    have := congrArg List.length hnodes
    simpa using this.symm
  have hnode : ∀ (i : ℕ) (r' : MeshRow K), mesh'.rows[i]? = some r' → ∃ r, mesh.rows[i]? = some r ∧ r.fiber = r'.fiber ∧ r.s = r'.s ∧
      r.z = r'.z ∧ r.constraint = r'.constraint := by
    intro i r' hr'
    have := congrArg (fun l => l[i]?) hnodes
    simp only [List.getElem?_map, hr'] at this
    cases hr : mesh.rows[i]? with
    | none => rw [hr] at this; cases this
    | some r =>
      rw [hr] at this
      simp only [Option.map_some, Option.some.injEq, Prod.mk.injEq] at this
      exact ⟨r, rfl, this.1, this.2.1, this.2.2.1, this.2.2.2.2⟩
  have hnode2 : ∀ (i : ℕ) (r : MeshRow K), mesh.rows[i]? = some r → ∃ r', mesh'.rows[i]? = some r' ∧ r.fiber = r'.fiber ∧ r.s = r'.s ∧
      r.z = r'.z ∧ r.constraint = r'.constraint := by
    intro i r hr
    have hi : i < mesh'.rows.length := by rw [hlen']; exact (List.getElem?_eq_some_iff.1 hr).1
    obtain ⟨r2, h2, h3⟩ := hnode i _ (List.getElem?_eq_getElem hi)
    rw [hr] at h2
    cases h2
    exact ⟨_, List.getElem?_eq_getElem hi, h3⟩
  have hconns : connections mesh'.rows = connections mesh.rows := by
    have e : mesh'.rows.map (·.constraint) = mesh.rows.map (·.constraint) := by
      have := congrArg (List.map (fun t : Int × K × K × Int × Int => t.2.2.2.2)) hnodes
      rw [List.map_map, List.map_map] at this
      exact this.symm
    have key : ∀ rows : List (MeshRow K), connections rows =
        (((rows.map (·.constraint)).zipIdx.filter (fun p => (p.2 : Int) ≤ p.1)).map (fun p => (p.2, p.1.toNat))) := by
      intro rows
      unfold connections
      rw [List.zipIdx_map, List.filter_map, List.map_map]
      rfl
    rw [key, key, e]
  have hdist' : DistinctNodes mesh'.rows := by
    intro i j r p hr hp hf hs
    obtain ⟨r2, hr2, f1, s1, -⟩ := hnode i r hr
    obtain ⟨p2, hp2, f2, s2, -⟩ := hnode j p hp
    exact hdist i j r2 p2 hr2 hp2 (by rw [f1, f2, hf]) (by rw [s1, s2, hs])
  have hw1 : ∀ f ∈ (turnMat d (pulledMat φ m)).fibers, f.w = 0 := by
    intro f hf
    obtain ⟨b, g, hg, rfl⟩ := hmem f hf
    simp only [turnFiber, hw g hg]
    cases b <;> simp [turned]
  have hth1 : KeepsTouching (turnMat d (pulledMat φ m)) threshold := by
    intro t ht f hf
    obtain ⟨b, g, hg, rfl⟩ := hmem f hf
    exact hth t ht g hg
  have hor1 : |coupling| < 1 ∨ ∀ f ∈ (turnMat d (pulledMat φ m)).fibers, f.E = ⊤ := by
    refine hor.imp_right (fun hE f hf => ?_)
    obtain ⟨b, g, hg, rfl⟩ := hmem f hf
    exact hE g hg
  have hp' := lens g1 hne1 hn' hst' hmesh' hdist'
  -- the directions reversed back
  obtain ⟨S2, recs2, mesh2, σ, hs2, hmesh2, hσ, hst2⟩ := C104_chain hlp hlp g1 hw1 hn' hst' hth1 hmesh' hdist' hp' hcoup hor1 htol hlin
    hlin hsame1.symm (by rintro p ⟨⟩) (perm' := none) (by rintro p ⟨⟩) d
  have hn2 := C104_net g1 d hn'
  have hstk2 := C104_stack hlp hlp g1 d hn' hst'
  rw [turnMat_turn] at hs2 hn2 hstk2
  have hdist2 := hσ.distinct hdist'
  have hp2 := lens g2 hne2 hn2 hstk2 hmesh2 hdist2
  have hk2 : KeepsOrder φ (turnNet d net').rows := by
    intro r hr hab
    obtain ⟨q, hq, rfl⟩ := List.mem_map.1 hr
    have eAB : (turnRow d q).A = q.A ∧ (turnRow d q).B = q.B := by
      unfold turnRow
      split
      · split <;> exact ⟨rfl, rfl⟩
      · exact ⟨rfl, rfl⟩
    rw [eAB.1, eAB.2] at hab ⊢
    have hmemq : (q.A, q.B) ∈ net.rows.map (fun r => (r.A, r.B)) := by
      have := congrArg (List.map (fun t : Int × Int × K × K × K × K => (t.1, t.2.1))) hconn
      rw [List.map_map, List.map_map] at this
      have e : net.rows.map (fun r => (r.A, r.B)) = net'.rows.map (fun r => (r.A, r.B)) := this
      rw [e]
      exact List.mem_map.2 ⟨q, hq, rfl⟩
    obtain ⟨q', hq', he⟩ := List.mem_map.1 hmemq
    simp only [Prod.mk.injEq] at he
    rw [← he.1, ← he.2] at hab ⊢
    exact hk q' hq' hab
  -- the numbers changed back
  obtain ⟨S3, recs3, net3, m3, st3, mesh3, ρ, hs3, hn3, hstk3, -, hmesh3, hρ, hst3⟩ := C107_chain hlp hlp g2 (pulledMat_relabelled hsym)
    (fun f hf => hw f (pulledMat_mem hf)) hn2 hk2 hstk2 (fun t ht f hf => hth t ht f (pulledMat_mem hf)) hmesh2 hdist2 hp2 hcoup
    (hor.imp_right (fun hE f hf => hE f (pulledMat_mem hf))) htol hlin hlin hs2 (by rintro p ⟨⟩) (perm' := none) (by rintro p ⟨⟩)
  rw [hn] at hn3
  cases hn3
  rw [hst] at hstk3
  cases hstk3
  rw [hmesh] at hmesh3
  cases hmesh3
  have hs3' : chain lp periodic threshold lmin lmax coupling o none m = .ok (S3, recs3, stop) := hs3
  rw [hs1] at hs3'
  simp only [Except.ok.injEq, Prod.mk.injEq] at hs3'
  obtain ⟨rfl, rfl, -⟩ := hs3'
  have hl2 : mesh2.rows.length = mesh.rows.length := hσ.count.trans hlen'
  refine ⟨fun i => ρ (σ i), ⟨?_, ?_, ?_⟩, ?_⟩
  · intro i hi
    have := hρ.lt (σ i) (by rw [hσ.count]; exact hσ.lt i (by rw [hlen']; exact hi))
    rwa [hl2] at this
  · intro i j hi hj he
    rw [← hlen'] at hi hj
    exact hσ.inj i j hi hj (hρ.inj _ _ (by rw [hσ.count]; exact hσ.lt i hi) (by rw [hσ.count]; exact hσ.lt j hj) he)
  · intro i r hr
    obtain ⟨r1, hr1, f1, s1, z1, c1⟩ := hnode2 i r hr
    obtain ⟨r2, hr2, f2, s2, -, -, z2, c2⟩ := hσ.node i r1 hr1
    obtain ⟨r3, hr3, f3, s3, -, -, z3, c3⟩ := hρ.node _ r2 hr2
    refine ⟨r3, hr3, ?_, ?_, ?_, ?_⟩
    · rw [f3, f2, f1]
    · rw [s3, s2, s1, f1]
    · rw [z3, z2, z1]
    · rw [c3, c2, c1, Int.toNat_natCast]
  · intro a ha
    obtain ⟨k, hk⟩ := List.mem_iff_getElem?.1 ha
    obtain ⟨b, hb, ht⟩ : ∃ b, recs2[k]? = some b ∧ TurnedState d mesh'.rows mesh2.rows σ a b := by
      obtain ⟨hlt, hka⟩ := List.getElem?_eq_some_iff.1 hk
      have hlt2 : k < recs2.length := by rw [← hst2.length_eq]; exact hlt
      have := (List.forall₂_iff_get.1 hst2).2 k hlt hlt2
      simp only [List.get_eq_getElem, hka] at this
      exact ⟨_, List.getElem?_eq_getElem hlt2, this⟩
    have hq : RelabelledState mesh2.rows mesh.rows ρ b a := by
      obtain ⟨hlt, hkb⟩ := List.getElem?_eq_some_iff.1 hb
      obtain ⟨hlt2, hka⟩ := List.getElem?_eq_some_iff.1 hk
      have := (List.forall₂_iff_get.1 hst3).2 k hlt hlt2
      simp only [List.get_eq_getElem, hka, hkb] at this
      exact this
    refine ⟨?_, ?_, ?_, ?_⟩
    · intro i hi
      rw [← hlen'] at hi
      have h1 := (hq.node (σ i) (by rw [hσ.count]; exact hσ.lt i hi) 0 (by omega)).1
      simp only [Nat.add_zero] at h1
      rw [h1, ht.displacement i hi]
    · intro i r hr
      obtain ⟨r1, hr1, f1, -⟩ := hnode2 i r hr
      have hi : i < mesh'.rows.length := (List.getElem?_eq_some_iff.1 hr1).1
      rw [(hq.node (σ i) (by rw [hσ.count]; exact hσ.lt i hi) 1 (by omega)).1, ht.rotation i r1 hr1, f1]
    · intro i hi e he
      rw [← hlen'] at hi
      rw [(hq.node (σ i) (by rw [hσ.count]; exact hσ.lt i hi) e he).2, ht.mask i hi e he]
    · intro k i j hkij
      rw [← hconns] at hkij
      obtain ⟨k1, hk1, e1⟩ := ht.contact k i j hkij
      obtain ⟨k2, hk2, e2⟩ := hq.contact k1 _ _ hk1
      refine ⟨k2, hk2, fun e he => ?_⟩
      obtain ⟨a1, a2, a3⟩ := e1 e he
      obtain ⟨b1, b2, b3⟩ := e2 e he
      rw [hl2] at b1 b2 b3
      rw [hlen'] at a1 a2 a3
      exact ⟨b1.trans a1, b2.trans a2, b3.trans a3⟩

theorem turned_place {b : Bool} {f g : Fiber K} {a b' c e p q : K} (h : Turned a b' c e p q f (turnFiber b g)) (s : K) :
    g.x + turned b s * g.u = a * (f.x + s * f.u) + b' * (f.y + s * f.v) + p ∧
    g.y + turned b s * g.v = c * (f.x + s * f.u) + e * (f.y + s * f.v) + q := by
  obtain ⟨-, hx, hy, hu, hv⟩ := h
  cases b
  · simp only [turnFiber, turned, Bool.false_eq_true, if_false] at *
    rw [hx, hy, hu, hv]
    constructor <;> ring
  · simp only [turnFiber, turned, if_true] at *
    rw [hx, hy, show g.u = -(a * f.u + b' * f.v) by rw [← hu, neg_neg], show g.v = -(c * f.u + e * f.v) by rw [← hv, neg_neg]]
    constructor <;> ring

/-- C111: a mat which is its own image by a rotation, a mirror or a translation of the plane, crossing fibers being in the same order in
the image, is compressed symmetrically: at every step nodes exchanged by the symmetry have the same displacement and the same contact
forces and gaps, and the same or opposite rotations. -/
theorem C111_plain {a b c e p q : K} (ho : Orthogonal a b c e) {lp : Linprog K} (hlp : GoodLinprog lp) {φ : ℕ → ℕ} {d : ℕ → Bool}
    {m : Mat K} (h : GoodMat m) (hsym : SymmetricMat (Turned a b c e p q) φ d m)
    (hw : ∀ f ∈ m.fibers, f.w = 0) {net : Net K} (hn : netNew m false = .ok net) (hk : KeepsOrder φ net.rows)
    {threshold : Option K} {m1 : Mat K} {st : Net K} (hst : stackNew lp m net threshold = .ok (m1, st)) (hth : KeepsTouching m threshold)
    {mesh : Mesh K} (hmesh : meshNew st = .ok mesh) (hdist : DistinctNodes mesh.rows) {lmin lmax : Option K}
    (hlo : ∀ a, lmin = some a → 0 < a) (hhi : ∀ a, lmax = some a → 0 < a) {coupling : K}
    (hcoup : |coupling| ≤ 1) (hor : |coupling| < 1 ∨ ∀ f ∈ m.fibers, f.E = ⊤) {o : Opts K} (htol : 0 ≤ o.tol)
    (hlin : GoodLin o.lin) {perm : Option (List ℕ)} {S : Sys K} {recs : List (Rec K)}
    {stop : Stop} (hs : chain lp false threshold lmin lmax coupling o perm m = .ok (S, recs, stop)) (hperm : PermOf S.n perm) :
    ∃ τ, SymmetricNodes φ d mesh.rows τ ∧
      (∀ (i : ℕ) (r r' : MeshRow K), mesh.rows[i]? = some r → mesh.rows[τ i]? = some r' →
        r'.x = a * r.x + b * r.y + p ∧ r'.y = c * r.x + e * r.y + q) ∧
      ∀ x ∈ recs, SymmetricState d mesh.rows τ x := by
  obtain ⟨size, hsize, -⟩ := h.size
  obtain ⟨τ, h1, h2⟩ := symmetric_states (move := Turned a b c e p q) (fun _ _ h => h.1)
    (by rintro f f' z ⟨h, h2⟩; exact ⟨⟨h.l, h.b, h.h, rfl, h.w, h.G, h.E⟩, h2⟩)
    (by intro n n' g g' _ _ gf net net' hn hn'; exact C80_plain_net g g' ho gf hn hn')
    hlp h hsize hsym hw hn hk hst hth hmesh hdist hlo hhi hcoup hor htol hlin hs hperm
  refine ⟨τ, h1, ?_, h2⟩
  have hs0 : solve m1 mesh lmin lmax coupling o perm = .ok (S, recs, stop) := by
    unfold chain at hs
    simpa only [hn, hst, hmesh, Bind.bind, Except.bind] using hs
  have hne := chain_nonempty hlp h hn hst hmesh hs0
  obtain ⟨net', g1, rfl, hgood, hsame, -, hinit, -⟩ := chain_facts hlp h hne hn hst hmesh
  have same : ∀ (k : ℕ) (f : Fiber K), m1.fibers[k]? = some f → ∃ g, m.fibers[k]? = some g ∧ f = { g with z := f.z } := by
    intro k f hf
    have hk := congrArg (fun l : List (Fiber K) => l[k]?) hsame.2
    simp only [List.getElem?_map, hf, Option.map_some] at hk
    cases hg : m.fibers[k]? with
    | none => rw [hg] at hk; cases hk
    | some g =>
      rw [hg, Option.map_some, Option.some.injEq] at hk
      refine ⟨g, rfl, ?_⟩
      obtain ⟨⟩ := f
      obtain ⟨⟩ := g
      simp only [Fiber.mk.injEq] at hk ⊢
      tauto
  intro i r r' hr hr'
  obtain ⟨r2, hr2, hfib, hs', -, -⟩ := h1.node i r hr
  rw [hr'] at hr2
  cases hr2
  obtain ⟨k, f, hk, hf, hpos⟩ := node_on_fiber hgood g1 hinit (List.mem_of_getElem? hr)
  obtain ⟨k', f', hk', hf', hpos'⟩ := node_on_fiber hgood g1 hinit (List.mem_of_getElem? hr')
  obtain ⟨g, hg, eg⟩ := same k f hf
  obtain ⟨g', hg', eg'⟩ := same k' f' hf'
  rw [hk, Int.toNat_natCast] at hfib hs'
  have e2 : k' = φ k := by rw [hk'] at hfib; exact_mod_cast hfib
  obtain ⟨g2, hg2, hmv⟩ := hsym.moved k g hg
  rw [← e2, hg'] at hg2
  cases hg2
  have hpl := turned_place hmv r.s
  simp only [MeshRow.pos, pointAt, Prod.mk.injEq] at hpos hpos'
  obtain ⟨x1, y1, -⟩ := hpos
  obtain ⟨x2, y2, -⟩ := hpos'
  rw [eg] at x1 y1
  rw [eg', hs'] at x2 y2
  rw [x1, y1, x2, y2]
  exact hpl

/-- C111 in a periodic box: translations by any vector, quarter turns and mirrors, for fibers no longer than half the box. -/
theorem C111_periodic {a b c e : ℤ} {p q : K} (ho : Orthogonal (a : K) b c e) {lp : Linprog K} (hlp : GoodLinprog lp) {φ : ℕ → ℕ}
    {d : ℕ → Bool} {m : Mat K} (h : GoodMat m) {size : K} (hsize : m.attrs.size = some size)
    (hsym : SymmetricMat (TurnedInBox size (a : K) b c e p q) φ d m) (hlen : ∀ f ∈ m.fibers, f.l ≤ size / 2)
    (hpl : ∀ f ∈ m.fibers, Planar f) {net : Net K} (hn : netNew m true = .ok net) (hk : KeepsOrder φ net.rows)
    {threshold : Option K} {m1 : Mat K} {st : Net K} (hst : stackNew lp m net threshold = .ok (m1, st)) (hth : KeepsTouching m threshold)
    {mesh : Mesh K} (hmesh : meshNew st = .ok mesh) (hdist : DistinctNodes mesh.rows) {lmin lmax : Option K}
    (hlo : ∀ a, lmin = some a → 0 < a) (hhi : ∀ a, lmax = some a → 0 < a) {coupling : K}
    (hcoup : |coupling| ≤ 1) (hor : |coupling| < 1 ∨ ∀ f ∈ m.fibers, f.E = ⊤) {o : Opts K} (htol : 0 ≤ o.tol)
    (hlin : GoodLin o.lin) {perm : Option (List ℕ)} {S : Sys K} {recs : List (Rec K)}
    {stop : Stop} (hs : chain lp true threshold lmin lmax coupling o perm m = .ok (S, recs, stop)) (hperm : PermOf S.n perm) :
    ∃ τ, SymmetricNodes φ d mesh.rows τ ∧ ∀ x ∈ recs, SymmetricState d mesh.rows τ x := by
  refine symmetric_states (move := fun f f' => TurnedInBox size (a : K) b c e p q f f' ∧ Planar f ∧ f.l ≤ size / 2) ?_ ?_ ?_
    hlp h hsize ⟨hsym.inj, ?_⟩ (fun f hf => (hpl f hf).1) hn hk hst hth hmesh hdist hlo hhi hcoup hor htol hlin hs hperm
  · rintro f f' ⟨⟨i, j, h, -⟩, -⟩; exact h
  · rintro f f' z ⟨⟨i, j, h, h2⟩, h3, h4⟩
    exact ⟨⟨i, j, ⟨h.l, h.b, h.h, rfl, h.w, h.G, h.E⟩, h2⟩, h3, h4⟩
  · intro n n' g g' gS ga gf net net' hn hn'
    have hmem : ∀ f ∈ n.fibers, Planar f ∧ f.l ≤ size / 2 := by
      intro f hf
      obtain ⟨k, hk⟩ := List.mem_iff_getElem?.1 hf
      obtain ⟨f', -, -, h1⟩ := forall₂_get gf hk
      exact h1
    exact C80_periodic_net g g' gS (by rw [ga, gS]) (fun f hf => (hmem f hf).1) (fun f hf => (hmem f hf).2) ho
      (gf.imp (fun _ _ h => h.1)) hn hn'
  · intro i f hf
    obtain ⟨g, hg, hmv⟩ := hsym.moved i f hf
    exact ⟨g, hg, hmv, hpl f (List.mem_of_getElem? hf), hlen f (List.mem_of_getElem? hf)⟩

/-- The middle of a fiber which the symmetry turns end for end does not rotate. -/
theorem C111_middle {φ : ℕ → ℕ} {d : ℕ → Bool} {rows : List (MeshRow K)} {τ : ℕ → ℕ} (h : SymmetricNodes φ d rows τ)
    (hdist : DistinctNodes rows) {a : Rec K} (ha : SymmetricState d rows τ a) {k : ℕ} (hk : φ k = k) (hd : d k = true) {i : ℕ}
    {r : MeshRow K} (hr : rows[i]? = some r) (hf : r.fiber = (k : Int)) (hs : r.s = 0) : a.x (2 * i + 1) = 0 := by
  obtain ⟨r', hr', hf', hs', -⟩ := h.node i r hr
  have e := hdist _ _ r' r hr' hr (by rw [hf', hf, Int.toNat_natCast, hk]) (by rw [hs', hs]; simp [turned])
  have := ha.rotation i r hr
  rw [e, hf, Int.toNat_natCast, hd] at this
  simp only [turned, if_true] at this
  linarith

end Fibermat
