import Verif.Props.Direction
import Verif.Props.UnitsExamples

/-! # Concrete cases of the choice of directions (C104) -/

set_option linter.unusedSectionVars false
set_option linter.unusedSimpArgs false

namespace Fibermat
open Spec

/-- No two nodes of a fiber of the stacked example at the same abscissa. -/
theorem crossMat_distinct {lp : Linprog ℚ} (hlp : GoodLinprog lp) {net st : Net ℚ} {m' : Mat ℚ} {mesh : Mesh ℚ}
    (hn : netNew crossMat true = .ok net) (hst : stackNew lp crossMat net (some 2) = .ok (m', st)) (hmesh : meshNew st = .ok mesh) :
    DistinctNodes mesh.rows := by
  obtain ⟨net2, st2, hn2, hst2⟩ := crossMat_moved hlp (some 2)
  rw [hn] at hn2; cases hn2
  rw [hst] at hst2; cases hst2
  obtain ⟨net', g1, rfl, -⟩ := chain_facts hlp crossMat_good (by simp [crossMat]) hn hst hmesh
  have e1 : (((netNew (crossMat.setZ [1 / 2, 2, 3 / 2]) true).bind (fun n => (meshNew (keep (some 2) n)).map (fun mesh =>
      (mesh.rows.map (fun r : MeshRow ℚ => (r.fiber, r.s)), decide (mesh.rows.map (fun r : MeshRow ℚ => (r.fiber, r.s))).Nodup)))).toOption).map
        (fun p => p.2) = some true := by
    decide +kernel
  rw [g1] at e1
  simp only [Except.bind] at e1
  rw [hmesh] at e1
  simp only [Except.map, Except.toOption, Option.map_some, Option.some.injEq, decide_eq_true_eq] at e1
  intro i j r p hr hp h1 h2
  obtain ⟨hi, rfl⟩ := List.getElem?_eq_some_iff.1 hr
  obtain ⟨hj, rfl⟩ := List.getElem?_eq_some_iff.1 hp
  have := (List.Nodup.getElem_inj_iff (hi := by simpa using hi) (hj := by simpa using hj) e1).1 (by simp [h1, h2])
  exact this

/-- C104: the three crossing fibers with the first two reversed: same run, with any correct solvers and any target. -/
example (lp lp' : Linprog ℚ) (hlp : GoodLinprog lp) (hlp' : GoodLinprog lp') (pk : Cell ℚ) (lin' : LinSolver ℚ) (hlin' : GoodLin lin') :
    ∃ S recs stop S' recs' rows rows' σ,
      chain lp true (some 2) (some (1 / 100)) none 1 ⟨pk, 100, 1 / 1000, 1 / 1000, [], goodGauss⟩ none crossMat =
        .ok (S, recs, stop) ∧
      chain lp' true (some 2) (some (1 / 100)) none 1 ⟨pk, 100, 1 / 1000, 1 / 1000, [], lin'⟩ none
        { crossMat with fibers := [⟨10, 1, 1, 8, 0, 5, -1, 0, 0, 1, ⊤⟩, ⟨8, 1, 2, 5, 1, 0, 0, -1, 0, 1, ⊤⟩,
               ⟨10, 1, 1, -9, 0, 7, 3 / 5, 4 / 5, 0, 1, ⊤⟩] } = .ok (S', recs', stop) ∧
      TurnedMesh (fun i => decide (i < 2)) rows rows' σ ∧
      List.Forall₂ (TurnedState (fun i => decide (i < 2)) rows rows' σ) recs recs' := by
  obtain ⟨net, m', st, mesh, S, recs, stop, hn, hst, hmesh, hs⟩ := C78_runs hlp crossMat_good (by simp [crossMat]) true
    (some 2) (some (1 / 100)) none 1 ⟨pk, 100, 1 / 1000, 1 / 1000, [], goodGauss⟩ none
  obtain ⟨hp, -⟩ := C78_positive hlp crossMat_good (by simp [crossMat]) hn hst hmesh (a := 1 / 100) (by norm_num) (lmax := none)
    (by simp)
  have hth : KeepsTouching crossMat (some 2) := by
    intro t ht f hf
    cases ht
    simp only [crossMat, List.mem_cons, List.not_mem_nil, or_false] at hf
    rcases hf with rfl | rfl | rfl <;> norm_num
  have hperm : PermOf S.n none := by intro p hp; cases hp
  have hc : chain lp true (some 2) (some (1 / 100)) none 1 ⟨pk, 100, 1 / 1000, 1 / 1000, [], goodGauss⟩ none crossMat =
      .ok (S, recs, stop) := by
    unfold chain
    simp only [hn, hst, hmesh, Bind.bind, Except.bind]
    exact hs
  obtain ⟨S', recs', mesh', σ, h1, -, h2, h3⟩ := C104_chain hlp hlp' crossMat_good crossMat_flat hn hst hth hmesh
    (crossMat_distinct hlp hn hst hmesh) hp (by norm_num) (Or.inr crossMat_rigid) (by norm_num) goodGauss_good hlin' hc hperm
    (perm' := none) hperm (fun i => decide (i < 2))
  refine ⟨S, recs, stop, S', recs', mesh.rows, mesh'.rows, σ, hc, ?_, h2, h3⟩
  have e : turnMat (fun i => decide (i < 2)) crossMat = { crossMat with fibers := [⟨10, 1, 1, 8, 0, 5, -1, 0, 0, 1, ⊤⟩,
      ⟨8, 1, 2, 5, 1, 0, 0, -1, 0, 1, ⊤⟩, ⟨10, 1, 1, -9, 0, 7, 3 / 5, 4 / 5, 0, 1, ⊤⟩] } := by
    simp [turnMat, crossMat, turnFiber, turned, List.mapIdx_cons]
  rw [← e]
  exact h1

/-- A fiber carrying, at the same point, two collinear fibers of different thicknesses. -/
def sharedMat : Mat ℚ :=
  { fibers := [⟨4, 1, 1, -2, 0, 1 / 2, 0, 1, 0, 1, ⊤⟩, ⟨4, 1, 1, 2, 0, 5 / 2, 0, 1, 0, 1, ⊤⟩, ⟨10, 1, 1, 0, 0, 3 / 2, 1, 0, 0, 1, ⊤⟩,
               ⟨4, 1, 2, 2, 0, 3, 0, 1, 0, 1, ⊤⟩]
    attrs := { n := some 4, size := some 20 } }

/-- The chain after stacking, for a given mat: heights of the plate, positions of node 3 and its fiber. -/
def sharedRun (m : Mat ℚ) : Option (Option (Int × ℚ × ℚ) × List (ℚ × ℚ)) :=
  (netNew m false).toOption.bind (fun n => (meshNew n).toOption.bind (fun me =>
    (solve m me (some (1 / 2)) none 0 ⟨.fin 2, 1, 0, 0, [], gauss⟩ none).toOption.map (fun r =>
      (me.rows[3]?.map (fun r => (r.fiber, r.x, r.y)), r.2.1.map (fun a => (a.Z, a.x 6))))))

theorem sharedRun_some {m : Mat ℚ} {p : Option (Int × ℚ × ℚ)} {l : List (ℚ × ℚ)} (h : sharedRun m = some (p, l)) :
    ∃ net mesh S recs stop, netNew m false = .ok net ∧ meshNew net = .ok mesh ∧
      solve m mesh (some (1 / 2)) none 0 ⟨.fin 2, 1, 0, 0, [], gauss⟩ none = .ok (S, recs, stop) ∧
      mesh.rows[3]?.map (fun r => (r.fiber, r.x, r.y)) = p ∧ recs.map (fun a => (a.Z, a.x 6)) = l := by
  unfold sharedRun at h
  cases h1 : netNew m false with
  | error e => rw [h1] at h; cases h
  | ok n =>
    rw [h1] at h
    simp only [Except.toOption, Option.bind_some] at h
    cases h2 : meshNew n with
    | error e => rw [h2] at h; cases h
    | ok me =>
      rw [h2] at h
      simp only [Option.bind_some] at h
      cases h3 : solve m me (some (1 / 2)) none 0 ⟨.fin 2, 1, 0, 0, [], gauss⟩ none with
      | error e => rw [h3] at h; cases h
      | ok r =>
        rw [h3] at h
        simp only [Option.map_some, Option.some.injEq, Prod.mk.injEq] at h
        exact ⟨n, me, r.1, r.2.1, r.2.2, rfl, h2, h3, h.1, h.2⟩

set_option synthInstance.maxSize 1000 in
set_option synthInstance.maxHeartbeats 200000 in
theorem sharedRun_first : sharedRun sharedMat = some (some (1, 2, -2), [(4, 0), (3, -8 / 9)]) := by decide +kernel

set_option synthInstance.maxSize 1000 in
set_option synthInstance.maxHeartbeats 200000 in
theorem sharedRun_second : sharedRun (turnMat (fun i => i == 2) sharedMat) = some (some (1, 2, -2), [(4, 0), (3, -1)]) := by
  decide +kernel

theorem sharedMat_good : GoodMat sharedMat :=
  ((matCheck_frame_iff _).1 (by decide +kernel)).resolve_left (by simp [Skipped, sharedMat])

/-- Distinct abscissae are needed: when two crossings of a fiber coincide, their order along the fiber is that of the labels whatever
the direction.  Reversing the third fiber of `sharedMat`, the end of the second fiber goes down by 1 instead of 8/9, under the same
plate. -/
theorem C104_concurrent : GoodMat sharedMat ∧ ∃ (d : ℕ → Bool) (net net' : Net ℚ) (mesh mesh' : Mesh ℚ) (S S' : Sys ℚ)
    (recs recs' : List (Rec ℚ)) (stop stop' : Stop), netNew sharedMat false = .ok net ∧ meshNew net = .ok mesh ∧
    solve sharedMat mesh (some (1 / 2)) none 0 ⟨.fin 2, 1, 0, 0, [], gauss⟩ none = .ok (S, recs, stop) ∧
    netNew (turnMat d sharedMat) false = .ok net' ∧ meshNew net' = .ok mesh' ∧
    solve (turnMat d sharedMat) mesh' (some (1 / 2)) none 0 ⟨.fin 2, 1, 0, 0, [], gauss⟩ none = .ok (S', recs', stop') ∧
    mesh.rows[3]?.map (fun r => (r.fiber, r.x, r.y)) = some ((1 : Int), (2 : ℚ), (-2 : ℚ)) ∧
    mesh'.rows[3]?.map (fun r => (r.fiber, r.x, r.y)) = some ((1 : Int), (2 : ℚ), (-2 : ℚ)) ∧
    recs.map (fun a => (a.Z, a.x 6)) = [(4, 0), (3, -8 / 9)] ∧ recs'.map (fun a => (a.Z, a.x 6)) = [(4, 0), (3, -1)] := by
  have h := sharedRun_some sharedRun_first
  have h' := sharedRun_some sharedRun_second
  have hg := sharedMat_good
  generalize sharedMat = m at h h' hg ⊢
  obtain ⟨net, mesh, S, recs, stop, h1, h2, h3, h4, h5⟩ := h
  obtain ⟨net', mesh', S', recs', stop', h1', h2', h3', h4', h5'⟩ := h'
  exact ⟨hg, _, net, net', mesh, mesh', S, S', recs, recs', stop, stop', h1, h2, h3, h1', h2', h3', h4, h4', h5, h5'⟩

end Fibermat
