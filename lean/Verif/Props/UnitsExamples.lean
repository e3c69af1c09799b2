import Verif.Props.UnitsChain
import Verif.Props.RegularExamples
import Verif.Props.PipelineExamples

/-! # Concrete cases of the change of units (C81) -/

set_option linter.unusedSectionVars false
set_option linter.unusedSimpArgs false

namespace Fibermat
open Spec

/-- C81: the three crossing fibers described in micrometres instead of millimetres (the moduli, force per area, divided by 10⁶), with
any two correct solvers of linear programs, any packing and any exact linear solver for the second description. -/
example (lp lp' : Linprog ℚ) (hlp : GoodLinprog lp) (hlp' : GoodLinprog lp') (pk : Cell ℚ) (lin' : LinSolver ℚ) (hlin' : GoodLin lin') :
    ∃ S recs stop S' recs' n,
      chain lp true (some 2) (some (1 / 100)) none 1 ⟨pk, 100, 1 / 1000, 1 / 1000, [], goodGauss⟩ none crossMat =
        .ok (S, recs, stop) ∧
      chain lp' true (some 2000) (some 10) none 1 ⟨pk, 100, 1, 1 / 1000, [], lin'⟩ none
        (matIn 1000 (1 / 1000000) crossMat) = .ok (S', recs', stop) ∧
      List.Forall₂ (RecIn 1000 (1 / 1000000) n) recs recs' := by
  obtain ⟨net, m', st, mesh, S, recs, stop, hn, hst, hmesh, hs⟩ := C78_runs hlp crossMat_good (by simp [crossMat]) true
    (some 2) (some (1 / 100)) none 1 ⟨pk, 100, 1 / 1000, 1 / 1000, [], goodGauss⟩ none
  obtain ⟨hp, -⟩ := C78_positive hlp crossMat_good (by simp [crossMat]) hn hst hmesh (a := 1 / 100) (by norm_num) (lmax := none)
    (by simp)
  have hth : KeepsTouching crossMat (some 2) := by
    intro t ht f hf
    cases ht
    simp only [crossMat, List.mem_cons, List.not_mem_nil, or_false] at hf
    rcases hf with rfl | rfl | rfl <;> norm_num
  have hperm : PermOf S.n none := by intro p hp; cases hp
  have hc : chain lp true (some 2) (some (1 / 100)) none 1 ⟨pk, 100, 1 / 1000, 1 / 1000, [], goodGauss⟩ none crossMat =
      .ok (S, recs, stop) := by
    unfold chain
    simp only [hn, hst, hmesh, Bind.bind, Except.bind]
    exact hs
  obtain ⟨S', recs', h1, h2⟩ := C81_chain (α := 1000) (μ := 1 / 1000000) hlp hlp' crossMat_good crossMat_flat hn hst hth hmesh hp
    (by norm_num) (Or.inr crossMat_rigid) (by norm_num) goodGauss_good hlin' hc hperm (perm' := none) hperm (by norm_num) (by norm_num)
  refine ⟨S, recs, stop, S', recs', mesh.rows.length, hc, ?_, h2⟩
  have e : (⟨pk, 100, 1, 1 / 1000, [], lin'⟩ : Opts ℚ) =
      { (⟨pk, 100, 1 / 1000, 1 / 1000, [], goodGauss⟩ : Opts ℚ) with tol := 1000 * (1 / 1000), lin := lin' } := by norm_num
  rw [e]
  norm_num at h1 ⊢
  exact h1

set_option synthInstance.maxSize 1000 in
set_option synthInstance.maxHeartbeats 200000 in
/-- The tolerance of the solver is an absolute length: described in a hundred times larger unit, with the same `tol`, the same
mat does not compress at all. -/
theorem C81_tol : ∃ (mat : Mat ℚ) (mesh : Mesh ℚ) (o : Opts ℚ) (S S' : Sys ℚ) (recs recs' : List (Rec ℚ)) (stop stop' : Stop),
    GoodMat mat ∧ ValidMesh mesh.frame ∧ o.tol = 1 / 10 ∧
    solve mat mesh none none 0 o none = .ok (S, recs, stop) ∧
    solve (matIn (1 / 100) 1 mat) (meshIn (1 / 100) mesh) none none 0 o none = .ok (S', recs', stop') ∧
    recs.map (fun a => a.Z) = [3, 2] ∧ recs'.map (fun a => a.Z) = [3 / 100] := by
  have h1 : (solve towerMat towerMesh none none 0 { towerOpts with tol := 1 / 10 } none).toOption.map (fun r =>
      r.2.1.map (fun a => a.Z)) = some [3, 2] := by decide +kernel
  have h2 : (solve (matIn (1 / 100) 1 towerMat) (meshIn (1 / 100) towerMesh) none none 0 { towerOpts with tol := 1 / 10 }
      none).toOption.map (fun r => r.2.1.map (fun a => a.Z)) = some [3 / 100] := by decide +kernel
  cases e1 : solve towerMat towerMesh none none 0 { towerOpts with tol := 1 / 10 } none with
  | error e => rw [e1] at h1; cases h1
  | ok r1 =>
    cases e2 : solve (matIn (1 / 100) 1 towerMat) (meshIn (1 / 100) towerMesh) none none 0 { towerOpts with tol := 1 / 10 } none with
    | error e => rw [e2] at h2; cases h2
    | ok r2 =>
      rw [e1] at h1
      rw [e2] at h2
      simp only [Except.toOption, Option.map_some, Option.some.injEq] at h1 h2
      exact ⟨towerMat, towerMesh, _, r1.1, r2.1, r1.2.1, r2.2.1, r1.2.2, r2.2.2, towerMat_good, towerMesh_valid, rfl, e1, e2, h1, h2⟩

end Fibermat
