import Verif.Props.SelfSymmetric
import Verif.Props.RelabelExamples

/-! # Concrete cases of symmetric mats (C111) -/

set_option linter.unusedSectionVars false
set_option linter.unusedSimpArgs false

namespace Fibermat
open Spec

/-- One fiber below three parallel ones that cross it, one of them in the middle. -/
def rakeMat : Mat ℚ :=
  { fibers := [⟨4, 1, 1, 0, 0, 0, 1, 0, 0, 1, ⊤⟩, ⟨4, 1, 1, 1, 1, 0, 0, 1, 0, 1, 2⟩, ⟨4, 1, 1, -1, -1, 0, 0, 1, 0, 1, 2⟩,
      ⟨6, 1, 2, 0, 0, 0, 0, 1, 0, 1, 3⟩]
    attrs := { n := some 4, size := some 10 } }

theorem rakeMat_good : GoodMat rakeMat := by
  have h : matCheck rakeMat.frame = .ok () := by decide +kernel
  exact ((matCheck_frame_iff _).1 h).resolve_left (by simp [Skipped, rakeMat])

/-- Exchanging 1 and 2. -/
theorem rakeMat_symmetric : SymmetricMat (Turned (-1) 0 0 (-1) 0 0) swapLast (fun _ => true) rakeMat where
  inj := by
    intro i j hi hj
    simp only [rakeMat, List.length_cons, List.length_nil] at hi hj
    interval_cases i <;> interval_cases j <;> decide
  moved := by
    intro i f hf
    have hi : i < 4 := by simpa [rakeMat] using (List.getElem?_eq_some_iff.1 hf).1
    interval_cases i <;> cases hf <;> refine ⟨_, rfl, ⟨rfl, rfl, rfl, rfl, ?_, rfl, rfl⟩, ?_⟩ <;> norm_num [turnFiber, turned]

theorem rakeMat_keeps {net : Net ℚ} (hn : netNew rakeMat false = .ok net) : KeepsOrder swapLast net.rows := by
  have h : (netNew rakeMat false).toOption.map (fun n : Net ℚ =>
      n.rows.all (fun r => decide (r.A < r.B → swapLast r.A.toNat < swapLast r.B.toNat))) = some true := by decide +kernel
  rw [hn] at h
  simp only [Except.toOption, Option.map_some, Option.some.injEq, List.all_eq_true, decide_eq_true_eq] at h
  exact h

theorem rakeMat_moved {lp : Linprog ℚ} (hlp : GoodLinprog lp) {net st : Net ℚ} {m' : Mat ℚ} (hn : netNew rakeMat false = .ok net)
    {threshold : Option ℚ} (hst : stackNew lp rakeMat net threshold = .ok (m', st)) : m' = rakeMat.setZ [1 / 2, 3 / 2, 3 / 2, 2] := by
  obtain ⟨hck, ho, -⟩ := netNew_over rakeMat_good hn
  obtain ⟨-, hlow, hsame, -⟩ := stack_lowest hlp rakeMat_good hck ho hst
  have hg := lowest_unique hlow (greedy_lowest ho ((C06_increasing rakeMat_good hn).imp (by intro a b hab; omega)))
  have hgr : ((netNew rakeMat false).toOption.map (fun n =>
      (List.range 4).map (greedy rakeMat n.rows (fun i => thick rakeMat i / 2)))) = some [1 / 2, 3 / 2, 3 / 2, 2] := by
    decide +kernel
  rw [hn] at hgr
  simp only [Except.toOption, Option.map_some, Option.some.injEq] at hgr
  have e3 : (List.range rakeMat.fibers.length).map (heightOf m') = [1 / 2, 3 / 2, 3 / 2, 2] := by
    rw [← hgr]
    exact List.map_congr_left (fun i hi => hg i (List.mem_range.1 hi))
  rw [same_setZ hsame, e3]

/-- Nodes of the stacked rake: all distinct; the first fiber has a node in its middle. -/
theorem rakeMat_nodes {lp : Linprog ℚ} (hlp : GoodLinprog lp) {net st : Net ℚ} {m' : Mat ℚ} {mesh : Mesh ℚ}
    (hn : netNew rakeMat false = .ok net) (hst : stackNew lp rakeMat net (some 2) = .ok (m', st)) (hmesh : meshNew st = .ok mesh) :
    DistinctNodes mesh.rows ∧ ∃ (i : ℕ) (r : MeshRow ℚ), mesh.rows[i]? = some r ∧ r.fiber = 0 ∧ r.s = 0 := by
  obtain ⟨net', g1, rfl, -⟩ := chain_facts hlp rakeMat_good (by simp [rakeMat]) hn hst hmesh
  rw [rakeMat_moved hlp hn hst] at g1
  have e1 : (((netNew (rakeMat.setZ [1 / 2, 3 / 2, 3 / 2, 2]) false).bind (fun n => (meshNew (keep (some 2) n)).map (fun mesh =>
      (mesh.rows.map (fun r : MeshRow ℚ => (r.fiber, r.s)), decide (mesh.rows.map (fun r : MeshRow ℚ => (r.fiber, r.s))).Nodup,
        mesh.rows.any (fun r => decide (r.fiber = 0 ∧ r.s = 0)))))).toOption).map
        (fun p => p.2) = some (true, true) := by
    decide +kernel
  rw [g1] at e1
  simp only [Except.bind] at e1
  rw [hmesh] at e1
  simp only [Except.map, Except.toOption, Option.map_some, Option.some.injEq, Prod.mk.injEq, decide_eq_true_eq, List.any_eq_true] at e1
  obtain ⟨e1, r, hr, h1, h2⟩ := e1
  refine ⟨?_, ?_⟩
  · intro i j r p hr hp h1 h2
    obtain ⟨hi, rfl⟩ := List.getElem?_eq_some_iff.1 hr
    obtain ⟨hj, rfl⟩ := List.getElem?_eq_some_iff.1 hp
    have := (List.Nodup.getElem_inj_iff (hi := by simpa using hi) (hj := by simpa using hj) e1).1 (by simp [h1, h2])
    exact this
  · obtain ⟨i, hi⟩ := List.mem_iff_getElem?.1 hr
    exact ⟨i, r, hi, h1, h2⟩

/-- C111: the rake is its own image by the half turn, is compressed symmetrically to any target with any correct solvers, and the middle of
its lower fiber does not rotate. -/
example (lp : Linprog ℚ) (hlp : GoodLinprog lp) (pk : Cell ℚ) (lin : LinSolver ℚ) (hlin : GoodLin lin) :
    ∃ S recs stop rows τ i r,
      chain lp false (some 2) none none (1 / 2) ⟨pk, 100, 1 / 1000, 1 / 1000, [], lin⟩ none rakeMat = .ok (S, recs, stop) ∧
      SymmetricNodes swapLast (fun _ => true) rows τ ∧ (∀ a ∈ recs, SymmetricState (fun _ => true) rows τ a) ∧
      rows[i]? = some r ∧ r.fiber = 0 ∧ r.s = 0 ∧ ∀ a ∈ recs, a.x (2 * i + 1) = 0 := by
  obtain ⟨net, m', st, mesh, S, recs, stop, hn, hst, hmesh, hs⟩ := C78_runs hlp rakeMat_good (by simp [rakeMat]) false
    (some 2) none none (1 / 2) ⟨pk, 100, 1 / 1000, 1 / 1000, [], lin⟩ none
  have hth : KeepsTouching rakeMat (some 2) := by
    intro t ht f hf
    cases ht
    simp only [rakeMat, List.mem_cons, List.not_mem_nil, or_false] at hf
    rcases hf with rfl | rfl | rfl | rfl <;> norm_num
  have hc : chain lp false (some 2) none none (1 / 2) ⟨pk, 100, 1 / 1000, 1 / 1000, [], lin⟩ none rakeMat = .ok (S, recs, stop) := by
    unfold chain
    simp only [hn, hst, hmesh, Bind.bind, Except.bind]
    exact hs
  obtain ⟨hd, i, r, hr, hf, hz⟩ := rakeMat_nodes hlp hn hst hmesh
  obtain ⟨τ, h1, -, h2⟩ := C111_plain (a := -1) (b := 0) (c := 0) (e := -1) (p := 0) (q := 0) (by norm_num [Orthogonal]) hlp rakeMat_good
    rakeMat_symmetric (by simp [rakeMat]) hn (rakeMat_keeps hn) hst hth hmesh hd (by simp) (by simp) (by norm_num [abs_le])
    (Or.inl (by norm_num [abs_lt])) (by norm_num) hlin hc (by rintro p ⟨⟩)
  exact ⟨S, recs, stop, mesh.rows, τ, i, r, hc, h1, h2, hr, hf, hz, fun a ha => C111_middle h1 hd (h2 a ha) (k := 0) rfl rfl hr hf hz⟩

/-- Two equal fibers crossing in their middles at right angles. -/
def crossedMat : Mat ℚ :=
  { fibers := [⟨4, 1, 1, 0, 0, 0, 1, 0, 0, 1, 2⟩, ⟨4, 1, 1, 0, 0, 0, 0, 1, 0, 1, 2⟩], attrs := { n := some 2, size := some 10 } }

theorem crossedMat_good : GoodMat crossedMat := by
  have h : matCheck crossedMat.frame = .ok () := by decide +kernel
  exact ((matCheck_frame_iff _).1 h).resolve_left (by simp [Skipped, crossedMat])

/-- The order of crossing fibers matters: a quarter turn exchanges the two fibers of a cross, but one of them lies above the other, so
that no correspondence of the nodes keeps their heights. -/
theorem C111_order {lp : Linprog ℚ} (hlp : GoodLinprog lp) (threshold : Option ℚ) :
    SymmetricMat (Turned 0 (-1) 1 0 0 0) swapFirst (fun i => decide (i = 1)) crossedMat ∧ ∃ net m1 st mesh,
      netNew crossedMat false = .ok net ∧ stackNew lp crossedMat net threshold = .ok (m1, st) ∧ meshNew st = .ok mesh ∧
      ¬ ∃ τ, SymmetricNodes swapFirst (fun i => decide (i = 1)) mesh.rows τ := by
  refine ⟨⟨?_, ?_⟩, ?_⟩
  · intro i j hi hj
    simp only [crossedMat, List.length_cons, List.length_nil] at hi hj
    interval_cases i <;> interval_cases j <;> decide
  · intro i f hf
    have hi : i < 2 := by simpa [crossedMat] using (List.getElem?_eq_some_iff.1 hf).1
    interval_cases i <;> cases hf <;> refine ⟨_, rfl, ⟨rfl, rfl, rfl, rfl, ?_, rfl, rfl⟩, ?_⟩ <;> norm_num [turnFiber, turned]
  · obtain ⟨net, hn, -⟩ := C06_netNew_ok crossedMat_good false
    obtain ⟨m1, st, mesh, hst, hmesh, -⟩ := C27_mesh_of_stack hlp crossedMat_good hn threshold
    refine ⟨net, m1, st, mesh, hn, hst, hmesh, ?_⟩
    rintro ⟨τ, hτ⟩
    obtain ⟨hck, ho, -⟩ := netNew_over crossedMat_good hn
    obtain ⟨-, hlow, hsame, -⟩ := stack_lowest hlp crossedMat_good hck ho hst
    have hg := lowest_unique hlow (greedy_lowest ho ((C06_increasing crossedMat_good hn).imp (by intro a b hab; omega)))
    have hgr : ((netNew crossedMat false).toOption.map (fun n =>
        (List.range 2).map (greedy crossedMat n.rows (fun i => thick crossedMat i / 2)))) = some [1 / 2, 3 / 2] := by
      decide +kernel
    rw [hn] at hgr
    simp only [Except.toOption, Option.map_some, Option.some.injEq] at hgr
    have e3 : (List.range crossedMat.fibers.length).map (heightOf m1) = [1 / 2, 3 / 2] := by
      rw [← hgr]
      exact List.map_congr_left (fun i hi => hg i (List.mem_range.1 hi))
    have em := same_setZ hsame
    rw [e3] at em
    obtain ⟨net', g1, rfl, hgood, -, -, hinit, -, -, hne⟩ := chain_facts hlp crossedMat_good (by simp [crossedMat]) hn hst hmesh
    have hz : ∀ r ∈ mesh.rows, r.fiber = 0 ∧ r.z = 1 / 2 ∨ r.fiber = 1 ∧ r.z = 3 / 2 := by
      intro r hr
      obtain ⟨k, f, hk, hf, hpos⟩ := node_on_fiber hgood g1 hinit hr
      rw [em] at hf
      have hk2 : k < 2 := by simpa [crossedMat, Mat.setZ] using (List.getElem?_eq_some_iff.1 hf).1
      simp only [MeshRow.pos, pointAt, Prod.mk.injEq] at hpos
      obtain ⟨-, -, hz⟩ := hpos
      interval_cases k
      · cases hf; left; exact ⟨hk, by rw [hz]; norm_num⟩
      · cases hf; right; exact ⟨hk, by rw [hz]; norm_num⟩
    obtain ⟨r, hr⟩ := List.exists_mem_of_ne_nil _ hne
    obtain ⟨i, hi⟩ := List.mem_iff_getElem?.1 hr
    obtain ⟨r', hr', hf', -, hz', -⟩ := hτ.node i r hi
    rcases hz r hr with ⟨h1, h2⟩ | ⟨h1, h2⟩ <;> rcases hz r' (List.mem_of_getElem? hr') with ⟨h3, h4⟩ | ⟨h3, h4⟩
    · rw [h1, h3] at hf'; revert hf'; decide
    · rw [h2, h4] at hz'; norm_num at hz'
    · rw [h2, h4] at hz'; norm_num at hz'
    · rw [h1, h3] at hf'; revert hf'; decide

/-- Two fibers crossing, and their copies half a box further. -/
def twinMat : Mat ℚ :=
  { fibers := [⟨4, 1, 1, 0, 0, 0, 1, 0, 0, 1, 2⟩, ⟨4, 1, 1, 1, 1, 0, 0, 1, 0, 1, 3⟩, ⟨4, 1, 1, 5, 0, 0, 1, 0, 0, 1, 2⟩,
      ⟨4, 1, 1, -4, 1, 0, 0, 1, 0, 1, 3⟩]
    attrs := { n := some 4, size := some 10 } }

theorem twinMat_good : GoodMat twinMat := by
  have h : matCheck twinMat.frame = .ok () := by decide +kernel
  exact ((matCheck_frame_iff _).1 h).resolve_left (by simp [Skipped, twinMat])

/-- Exchanging the two pairs. -/
def swapPairs (i : ℕ) : ℕ := if i < 2 then i + 2 else i - 2

theorem twinMat_symmetric : SymmetricMat (TurnedInBox 10 ((1 : ℤ) : ℚ) ((0 : ℤ) : ℚ) ((0 : ℤ) : ℚ) ((1 : ℤ) : ℚ) 5 0) swapPairs
    (fun _ => false) twinMat where
  inj := by
    intro i j hi hj
    simp only [twinMat, List.length_cons, List.length_nil] at hi hj
    interval_cases i <;> interval_cases j <;> decide
  moved := by
    intro i f hf
    have hi : i < 4 := by simpa [twinMat] using (List.getElem?_eq_some_iff.1 hf).1
    interval_cases i
    · cases hf; refine ⟨_, rfl, 0, 0, ⟨rfl, rfl, rfl, rfl, ?_, rfl, rfl⟩, ?_⟩ <;> norm_num [turnFiber, turned]
    · cases hf; refine ⟨_, rfl, -1, 0, ⟨rfl, rfl, rfl, rfl, ?_, rfl, rfl⟩, ?_⟩ <;> norm_num [turnFiber, turned]
    · cases hf; refine ⟨_, rfl, -1, 0, ⟨rfl, rfl, rfl, rfl, ?_, rfl, rfl⟩, ?_⟩ <;> norm_num [turnFiber, turned]
    · cases hf; refine ⟨_, rfl, 0, 0, ⟨rfl, rfl, rfl, rfl, ?_, rfl, rfl⟩, ?_⟩ <;> norm_num [turnFiber, turned]

theorem twinMat_keeps {net : Net ℚ} (hn : netNew twinMat true = .ok net) : KeepsOrder swapPairs net.rows ∧
    ∃ r ∈ net.rows, r.A = 2 ∧ r.B = 3 := by
  have h : (netNew twinMat true).toOption.map (fun n : Net ℚ =>
      (n.rows.all (fun r => decide (r.A < r.B → swapPairs r.A.toNat < swapPairs r.B.toNat)), n.rows.any (fun r => decide (r.A = 2 ∧ r.B = 3)))) =
      some (true, true) := by decide +kernel
  rw [hn] at h
  simp only [Except.toOption, Option.map_some, Option.some.injEq, Prod.mk.injEq, List.all_eq_true, List.any_eq_true, decide_eq_true_eq] at h
  exact h

theorem twinMat_nodes {lp : Linprog ℚ} (hlp : GoodLinprog lp) {net st : Net ℚ} {m' : Mat ℚ} {mesh : Mesh ℚ}
    (hn : netNew twinMat true = .ok net) (hst : stackNew lp twinMat net none = .ok (m', st)) (hmesh : meshNew st = .ok mesh) :
    DistinctNodes mesh.rows := by
  obtain ⟨hck, ho, -⟩ := netNew_over twinMat_good hn
  obtain ⟨-, hlow, hsame, -⟩ := stack_lowest hlp twinMat_good hck ho hst
  have hg := lowest_unique hlow (greedy_lowest ho ((C06_increasing twinMat_good hn).imp (by intro a b hab; omega)))
  have hgr : ((netNew twinMat true).toOption.map (fun n =>
      (List.range 4).map (greedy twinMat n.rows (fun i => thick twinMat i / 2)))) = some [1 / 2, 3 / 2, 1 / 2, 3 / 2] := by
    decide +kernel
  rw [hn] at hgr
  simp only [Except.toOption, Option.map_some, Option.some.injEq] at hgr
  have e3 : (List.range twinMat.fibers.length).map (heightOf m') = [1 / 2, 3 / 2, 1 / 2, 3 / 2] := by
    rw [← hgr]
    exact List.map_congr_left (fun i hi => hg i (List.mem_range.1 hi))
  obtain ⟨net', g1, rfl, -⟩ := chain_facts hlp twinMat_good (by simp [twinMat]) hn hst hmesh
  rw [same_setZ hsame, e3] at g1
  have e1 : (((netNew (twinMat.setZ [1 / 2, 3 / 2, 1 / 2, 3 / 2]) true).bind (fun n => (meshNew (keep none n)).map (fun mesh =>
      decide (mesh.rows.map (fun r : MeshRow ℚ => (r.fiber, r.s))).Nodup))).toOption) = some true := by
    decide +kernel
  rw [g1] at e1
  simp only [Except.bind, keep] at e1
  rw [hmesh] at e1
  simp only [Except.map, Except.toOption, Option.some.injEq, decide_eq_true_eq] at e1
  intro i j r p hr hp h1 h2
  obtain ⟨hi, rfl⟩ := List.getElem?_eq_some_iff.1 hr
  obtain ⟨hj, rfl⟩ := List.getElem?_eq_some_iff.1 hp
  have := (List.Nodup.getElem_inj_iff (hi := by simpa using hi) (hj := by simpa using hj) e1).1 (by simp [h1, h2])
  exact this

/-- C111: in a periodic box, the two copies of the crossing deform in the same way. -/
example (lp : Linprog ℚ) (hlp : GoodLinprog lp) (o : Opts ℚ) (ho : 0 ≤ o.tol) (hlin : GoodLin o.lin) :
    ∃ S recs stop rows τ, chain lp true none none none 0 o none twinMat = .ok (S, recs, stop) ∧
      SymmetricNodes swapPairs (fun _ => false) rows τ ∧ ∀ a ∈ recs, SymmetricState (fun _ => false) rows τ a := by
  obtain ⟨net, m', st, mesh, S, recs, stop, hn, hst, hmesh, hs⟩ := C78_runs hlp twinMat_good (by simp [twinMat]) true
    none none none 0 o none
  have hc : chain lp true none none none 0 o none twinMat = .ok (S, recs, stop) := by
    unfold chain
    simp only [hn, hst, hmesh, Bind.bind, Except.bind]
    exact hs
  obtain ⟨τ, h1, h2⟩ := C111_periodic (a := 1) (b := 0) (c := 0) (e := 1) (p := 5) (q := 0) (by norm_num [Orthogonal]) hlp twinMat_good
    rfl twinMat_symmetric (by simp only [twinMat, List.mem_cons, List.not_mem_nil, or_false]; rintro f (rfl | rfl | rfl | rfl) <;> norm_num)
    (by simp only [twinMat, List.mem_cons, List.not_mem_nil, or_false]; rintro f (rfl | rfl | rfl | rfl) <;> norm_num [Planar])
    hn (twinMat_keeps hn).1 hst (by rintro t ⟨⟩) hmesh (twinMat_nodes hlp hn hst hmesh) (by simp) (by simp) (by norm_num)
    (Or.inl (by norm_num)) ho hlin hc (by rintro p ⟨⟩)
  exact ⟨S, recs, stop, mesh.rows, τ, hc, h1, h2⟩

end Fibermat
