import Verif.Props.Loaded
import Verif.Props.LimitExamples

/-! # Concrete cases for C135 -/

set_option linter.unusedSimpArgs false

namespace Fibermat
open Spec

/-- The tower of three fibers, stacked and compressed to the packing 1.49: the run has several records, at each of them all nodes are
linked with the floor and a chain connects the plates, the force grows from one record to the next, and the returned force strictly
increases with the pseudo-time, also if it is sampled at 100 points. -/
example (lp : Linprog ℚ) (hlp : GoodLinprog lp) : ∃ net m' st mesh S recs stop cs,
    netNew towerMat true = .ok net ∧ stackNew lp towerMat net (some 1) = .ok (m', st) ∧ meshNew st = .ok mesh ∧
      solve m' mesh (some (1 / 100)) none (99 / 100) ⟨.fin (149 / 100), 3 * mesh.rows.length + 1, 1 / 1000, 1 / 1000, [], goodGauss⟩ none =
        .ok (S, recs, stop) ∧ constraint m' mesh = .ok cs ∧ 2 ≤ recs.length ∧
      (∀ a ∈ recs, (∀ i, i < mesh.rows.length → Based m' mesh.rows (1 / 1000) a.x i) ∧ Bridged m' mesh.rows (1 / 1000) a.Z a.x) ∧
      (∀ k a b, recs[k]? = some a → recs[k + 1]? = some b →
        totalForce cs.C (fun j => a.x (2 * mesh.rows.length + j)) 2 < totalForce cs.C (fun j => b.x (2 * mesh.rows.length + j)) 2) ∧
      forceAt cs.C (2 * mesh.rows.length) recs (some 100) (1 / 3) < forceAt cs.C (2 * mesh.rows.length) recs (some 100) (1 / 2) := by
  obtain ⟨net, m', st, mesh, hn, hst, hmesh, hc, hZ⟩ := tower_chain hlp
  obtain ⟨net', m2, st', mesh', S, recs, stop, hn', hst', hmesh', hs⟩ := C78_runs hlp towerMat_good (by simp [towerMat]) true
    (some 1) (some (1 / 100)) none (99 / 100) ⟨.fin (149 / 100), 3 * mesh.rows.length + 1, 1 / 1000, 1 / 1000, [], goodGauss⟩ none
  rw [hn] at hn'; cases hn'
  rw [hst] at hst'; cases hst'
  rw [hmesh] at hmesh'; cases hmesh'
  obtain ⟨hp, -⟩ := C78_positive hlp towerMat_good (by simp [towerMat]) hn hst hmesh (a := 1 / 100) (by norm_num) (lmax := none)
    (by simp)
  have hth : KeepsTouching towerMat (some 1) := by
    intro t ht f hf
    cases ht
    rw [towerMat_uniform f hf]
  have hperm : PermOf S.n none := by intro p hp; cases hp
  have hH := C82_uniform hlp towerMat_good towerMat_flat hn hst hth towerMat_uniform hc
  obtain ⟨Km, cs, hK, hC, -⟩ := solve_run hs
  obtain ⟨net', g1, -, hgood, -⟩ := chain_facts hlp towerMat_good (by simp [towerMat]) hn hst hmesh
  have hZ0 : S.Z0 = 3 := by
    obtain ⟨bl, hs', l, has, -, hc, -, hnK, hn', hnC, hZ0, -⟩ := solve_sound hs hgood hp hK hC
    rw [hZ0, hZ cs hC]
  have hc1 : |(99 / 100 : ℚ)| < 1 := by norm_num [abs_lt]
  have hlen : 2 ≤ recs.length := by
    obtain ⟨a, ha, x, hx, hpx⟩ := C82_reached hlp towerMat_good towerMat_flat hn hst hth hmesh hs hp hc1.le (Or.inl hc1)
      (by norm_num) (by norm_num) goodGauss_good hperm (by simp) hH rfl (by rw [hZ0]; norm_num)
    obtain ⟨-, a0, ha0, -, -, -, hl0⟩ := C40_itermax hs
    by_contra hlt
    have h1 : recs.length = 1 := by
      have := (List.getElem?_eq_some_iff.1 ha0).1
      omega
    obtain ⟨c, rfl⟩ := List.length_eq_one_iff.1 h1
    simp only [List.getLast?_singleton, Option.some.injEq, List.getElem?_cons_zero] at ha ha0
    subst ha ha0
    rw [hx] at hl0
    cases hl0
    norm_num at hpx
  have ht : (0 : ℚ) ≤ 1 / 1000 := by norm_num
  refine ⟨net, m', st, mesh, S, recs, stop, cs, hn, hst, hmesh, hs, hC, hlen, ?_, ?_, ?_⟩
  · intro a ha
    obtain ⟨k, hk⟩ := List.mem_iff_getElem?.1 ha
    exact C135_based hlp towerMat_good towerMat_flat hn hst hth hmesh hs hp ht goodGauss_good.1 hperm k a hk
  · intro k a b ha hb
    exact C135_grows hlp towerMat_good towerMat_flat hn hst hth hmesh hs hp ht goodGauss_good.1 hperm hc1.le (Or.inl hc1) hC k a b ha hb
  · exact C135_curve hlp towerMat_good towerMat_flat hn hst hth hmesh hs hp ht goodGauss_good.1 hperm hc1.le (Or.inl hc1) hC hlen (some 100)
      (by rintro k ⟨⟩; norm_num) (by norm_num) (by norm_num) (by norm_num)

end Fibermat
