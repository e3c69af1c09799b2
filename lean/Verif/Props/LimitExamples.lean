import Verif.Props.Limit
import Verif.Props.PipelineExamples

/-! # Concrete cases of the limit of compression (C82) -/

set_option linter.unusedSectionVars false
set_option linter.unusedSimpArgs false

namespace Fibermat
open Spec

theorem towerMat_flat : ∀ f ∈ towerMat.fibers, f.w = 0 := by simp [towerMat]

theorem towerMat_uniform : ∀ f ∈ towerMat.fibers, f.h = 1 := by simp [towerMat]

/-- The three fibers of the tower, stacked with any correct linear programming solver, and the height of the stack. -/
theorem tower_chain {lp : Linprog ℚ} (hlp : GoodLinprog lp) : ∃ net m' st mesh, netNew towerMat true = .ok net ∧
    stackNew lp towerMat net (some 1) = .ok (m', st) ∧ meshNew st = .ok mesh ∧ (∃ r ∈ net.rows, r.A ≠ r.B) ∧
    ∀ cs, constraint m' mesh = .ok cs → cs.Z = 3 := by
  obtain ⟨net, hn, -⟩ := C06_netNew_ok towerMat_good true
  obtain ⟨hck, ho, hper⟩ := netNew_over towerMat_good hn
  obtain ⟨m', st, mesh, hst, hmesh, -⟩ := C27_mesh_of_stack hlp towerMat_good hn (some 1)
  obtain ⟨hlen, hlow, hsame, hgood, -⟩ := stack_lowest hlp towerMat_good hck ho hst
  have hg := lowest_unique hlow (greedy_lowest ho ((C06_increasing towerMat_good hn).imp (by intro a b hab; omega)))
  have hgr : ((netNew towerMat true).toOption.map (fun n =>
      (List.range 3).map (greedy towerMat n.rows (fun i => thick towerMat i / 2)))) = some [1 / 2, 3 / 2, 5 / 2] := by
    decide +kernel
  rw [hn] at hgr
  simp only [Except.toOption, Option.map_some, Option.some.injEq, List.range_succ, List.range_zero, List.nil_append, List.cons_append,
    List.map_cons, List.map_nil, List.cons.injEq, and_true] at hgr
  have e := same_setZ hsame
  have e3 : (List.range towerMat.fibers.length).map (heightOf m') = [1 / 2, 3 / 2, 5 / 2] := by
    have e : (List.range towerMat.fibers.length).map (heightOf m') = [heightOf m' 0, heightOf m' 1, heightOf m' 2] := rfl
    rw [e, hg 0 (by decide), hg 1 (by decide), hg 2 (by decide), hgr.1, hgr.2.1, hgr.2.2]
  rw [e3] at e
  subst e
  refine ⟨net, _, st, mesh, hn, hst, hmesh, ?_, ?_⟩
  · have hany : (netNew towerMat true).toOption.map (fun n => n.rows.any (fun r => decide (r.A ≠ r.B))) = some true := by
      decide +kernel
    rw [hn] at hany
    simpa [Except.toOption] using hany
  · intro cs hcs
    obtain ⟨net', g1, rfl, -⟩ := chain_facts hlp towerMat_good (by simp [towerMat]) hn hst hmesh
    have e1 : (((netNew (towerMat.setZ [1 / 2, 3 / 2, 5 / 2]) true).bind (fun n => (meshNew (keep (some 1) n)).bind (fun mesh =>
        (constraint (towerMat.setZ [1 / 2, 3 / 2, 5 / 2]) mesh).map (fun cs => cs.Z))))).toOption = some 3 := by
      decide +kernel
    rw [g1] at e1
    simp only [Except.bind] at e1
    rw [hmesh] at e1
    simpa only [hcs, Except.map, Except.toOption, Option.some.injEq] using e1

/-- C82: the tower of three fibers of thickness 1 and height 3, with a tolerance of 1/1000: the packing 1.49 is reached, the packing
1.51 is not, and the limit of the plate is the height 2. -/
example (lp : Linprog ℚ) (hlp : GoodLinprog lp) (p : ℚ) : ∃ net m' st mesh S recs stop,
    netNew towerMat true = .ok net ∧ stackNew lp towerMat net (some 1) = .ok (m', st) ∧ meshNew st = .ok mesh ∧
      solve m' mesh (some (1 / 100)) none (99 / 100) ⟨.fin p, 3 * mesh.rows.length + 1, 1 / 1000, 1 / 1000, [], goodGauss⟩ none =
        .ok (S, recs, stop) ∧
      (∀ a ∈ recs, 2 ≤ a.Z) ∧
      (p ≤ 149 / 100 → ∃ a, recs.getLast? = some a ∧ ∃ x, a.rlambda = .fin x ∧ p ≤ x) ∧
      (151 / 100 ≤ p → ∃ a, recs.getLast? = some a ∧ 2 ≤ a.Z ∧ a.Z ≤ 2 + 3 / 1000) := by
  obtain ⟨net, m', st, mesh, hn, hst, hmesh, hc, hZ⟩ := tower_chain hlp
  obtain ⟨net', m2, st', mesh', S, recs, stop, hn', hst', hmesh', hs⟩ := C78_runs hlp towerMat_good (by simp [towerMat]) true
    (some 1) (some (1 / 100)) none (99 / 100) ⟨.fin p, 3 * mesh.rows.length + 1, 1 / 1000, 1 / 1000, [], goodGauss⟩ none
  rw [hn] at hn'; cases hn'
  rw [hst] at hst'; cases hst'
  rw [hmesh] at hmesh'; cases hmesh'
  obtain ⟨hp, -⟩ := C78_positive hlp towerMat_good (by simp [towerMat]) hn hst hmesh (a := 1 / 100) (by norm_num) (lmax := none)
    (by simp)
  have hth : KeepsTouching towerMat (some 1) := by
    intro t ht f hf
    cases ht
    rw [towerMat_uniform f hf]
  have hperm : PermOf S.n none := by intro p hp; cases hp
  have hH := C82_uniform hlp towerMat_good towerMat_flat hn hst hth towerMat_uniform hc
  obtain ⟨Km, cs, hK, hC, -⟩ := solve_run hs
  obtain ⟨net', g1, -, hgood, -⟩ := chain_facts hlp towerMat_good (by simp [towerMat]) hn hst hmesh
  have hZ0 : S.Z0 = 3 := by
    obtain ⟨bl, hs', l, has, -, hc, -, hnK, hn', hnC, hZ0, -⟩ := solve_sound hs hgood hp hK hC
    rw [hZ0, hZ cs hC]
  have hlim := C82_limit hlp towerMat_good towerMat_flat hn hst hmesh hs hp (by norm_num) goodGauss_good.1 hperm hH
  refine ⟨net, m', st, mesh, S, recs, stop, hn, hst, hmesh, hs, ?_, ?_, ?_⟩
  · intro a ha
    obtain ⟨k, hk⟩ := List.mem_iff_getElem?.1 ha
    have := (hlim k a hk).2.1
    linarith
  · intro hle
    exact C82_reached hlp towerMat_good towerMat_flat hn hst hth hmesh hs hp (by norm_num [abs_lt]) (Or.inl (by norm_num [abs_lt]))
      (by norm_num) (by norm_num) goodGauss_good hperm (by simp) hH rfl (by rw [hZ0]; norm_num at hle ⊢; linarith)
  · intro hle
    obtain ⟨a, ha, hcase⟩ := C82_final hlp towerMat_good towerMat_flat hn hst hth hmesh hs hp (by norm_num [abs_lt])
      (Or.inl (by norm_num [abs_lt])) (by norm_num) (by norm_num) goodGauss_good hperm (by simp) hH
    refine ⟨a, ha, ?_⟩
    have hnev := C82_never hlp towerMat_good towerMat_flat hn hst hmesh hs hp (by norm_num) goodGauss_good.1 hperm hH (p := p)
      (by rw [hZ0]; linarith) a (List.mem_of_getLast? ha)
    rcases hcase with hc | ⟨h1, h2⟩
    · exact absurd hc (by rw [hnev]; simp)
    · norm_num at h1 h2 ⊢
      exact ⟨by linarith, by linarith⟩

end Fibermat
