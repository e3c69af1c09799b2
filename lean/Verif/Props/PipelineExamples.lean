import Verif.Props.Pipeline
import Verif.Props.RegularExamples
import Verif.Props.PlateExamples

/-! # Concrete cases of the whole chain (C77, C78) -/

set_option linter.unusedSectionVars false
set_option linter.unusedSimpArgs false

namespace Fibermat
open Spec

theorem crossMat_flat : ∀ f ∈ crossMat.fibers, f.w = 0 := by simp [crossMat]

theorem crossMat_rigid : ∀ f ∈ crossMat.fibers, f.E = ⊤ := by simp [crossMat]

theorem same_setZ {m m' : Mat ℚ} (h : SameExceptZ m m') : m' = m.setZ ((List.range m.fibers.length).map (heightOf m')) := by
  obtain ⟨fs', at'⟩ := m'
  obtain ⟨h1, h2⟩ := h
  have hl : m.fibers.length = fs'.length := by simpa using congrArg List.length h2
  simp only at h1
  subst h1
  simp only [Mat.setZ, Mat.mk.injEq, and_true]
  apply List.ext_getElem
  · simp [hl]
  · intro i hi hi'
    have e := congrArg (fun l : List (Fiber ℚ) => l[i]?) h2
    simp only [List.getElem?_map, List.getElem?_eq_getElem hi, List.getElem?_eq_getElem (show i < m.fibers.length by omega),
      Option.map_some, Option.some.injEq] at e
    simp only [List.getElem_map, List.getElem_zip, List.getElem_range, heightOf, List.getElem?_eq_getElem hi, Option.map_some,
      Option.getD_some]
    generalize fs'[i] = f at e
    generalize m.fibers[i] = g at e
    cases f; cases g
    simp only [Fiber.mk.injEq] at e ⊢
    tauto

/-- The stacked mat of the example, for any correct linear programming solver. -/
theorem crossMat_moved {lp : Linprog ℚ} (hlp : GoodLinprog lp) (threshold : Option ℚ) :
    ∃ net st, netNew crossMat true = .ok net ∧
      stackNew lp crossMat net threshold = .ok (crossMat.setZ [1 / 2, 2, 3 / 2], st) := by
  obtain ⟨net, m', st, hn, hst, z0, z1, z2⟩ := crossMat_stack hlp threshold
  obtain ⟨hck, ho, hper⟩ := netNew_over crossMat_good hn
  obtain ⟨hlen, -, hsame, -, -⟩ := stack_lowest hlp crossMat_good hck ho hst
  refine ⟨net, st, hn, ?_⟩
  have e := same_setZ hsame
  have e3 : (List.range crossMat.fibers.length).map (heightOf m') = [1 / 2, 2, 3 / 2] := by
    have e : (List.range crossMat.fibers.length).map (heightOf m') = [heightOf m' 0, heightOf m' 1, heightOf m' 2] := rfl
    rw [e, z0, z1, z2]
  rw [e3] at e
  rw [hst, e]

/-- C77, C78: the whole chain on the three crossing fibers, with a minimal length of 1/100 and any options: it runs to the target or
until the material is squeezed solid, with the same result for all exact solvers, and the nodes move down. -/
example (lp : Linprog ℚ) (hlp : GoodLinprog lp) (pk : Cell ℚ) : ∃ net m' st mesh S recs stop,
    netNew crossMat true = .ok net ∧ stackNew lp crossMat net (some 2) = .ok (m', st) ∧ meshNew st = .ok mesh ∧
      solve m' mesh (some (1 / 100)) none 1 ⟨pk, 3 * mesh.rows.length + 1, 1 / 1000, 1 / 1000, [], goodGauss⟩ none =
        .ok (S, recs, stop) ∧
      PositiveLengths mesh.rows (some (1 / 100)) none ∧
      (∃ a, recs.getLast? = some a ∧ (Cell.lt a.rlambda pk = false ∨ Jammed m' mesh.rows (1 / 1000) a.Z a.x)) ∧
      (∀ a ∈ recs, NonPenetrating m' mesh.rows a.Z a.x ∧ ∀ i, i < mesh.rows.length → a.x (2 * i) ≤ 0) ∧
      ∑ i ∈ beamsOf mesh.rows 0, beamLength mesh.rows i = 10 := by
  obtain ⟨net, hn, -⟩ := C06_netNew_ok crossMat_good true
  obtain ⟨m', st, mesh, hst, hmesh, -⟩ := C27_mesh_of_stack hlp crossMat_good hn (some 2)
  obtain ⟨net', m2, st', mesh', S, recs, stop, hn', hst', hmesh', hs⟩ := C78_runs hlp crossMat_good (by simp [crossMat]) true
    (some 2) (some (1 / 100)) none 1 ⟨pk, 3 * mesh.rows.length + 1, 1 / 1000, 1 / 1000, [], goodGauss⟩ none
  rw [hn] at hn'; cases hn'
  rw [hst] at hst'; cases hst'
  rw [hmesh] at hmesh'; cases hmesh'
  obtain ⟨hp, -⟩ := C78_positive hlp crossMat_good (by simp [crossMat]) hn hst hmesh (a := 1 / 100) (by norm_num) (lmax := none)
    (by simp)
  have hth : KeepsTouching crossMat (some 2) := by
    intro t ht f hf
    cases ht
    simp only [crossMat, List.mem_cons, List.not_mem_nil, or_false] at hf
    rcases hf with rfl | rfl | rfl <;> norm_num
  have hperm : PermOf S.n none := by intro p hp; cases hp
  refine ⟨net, m', st, mesh, S, recs, stop, hn, hst, hmesh, hs, hp, ?_, ?_, ?_⟩
  · exact C78_end hlp crossMat_good crossMat_flat hn hst hth hmesh hs hp (by norm_num) (Or.inr crossMat_rigid) (by norm_num)
      (by norm_num) goodGauss_good hperm (by simp)
  · intro a ha
    obtain ⟨k, hk⟩ := List.mem_iff_getElem?.1 ha
    refine ⟨(C78_nonPenetrating hlp crossMat_good crossMat_flat hn hst hmesh hs hp (by norm_num) goodGauss_good.1 hperm k a hk).1,
      fun i hi => (C78_downward hlp crossMat_good crossMat_flat hn hst hth hmesh hs hp (Or.inr crossMat_rigid) (by norm_num)
        goodGauss_good.1 hperm k a hk i hi).2⟩
  · exact (C78_beam_lengths hlp crossMat_good hn hst hmesh (k := 0) rfl).1

/-- The condition on the threshold is needed: it bounds the distance between the axes of the fibers, not the gap between them.  A
threshold smaller than the thickness drops contacts between fibers that touch, and leaves fibers without support. -/
theorem C78_threshold {lp : Linprog ℚ} (hlp : GoodLinprog lp) : ∃ net st mesh cs, netNew crossMat true = .ok net ∧
    stackNew lp crossMat net (some (1 / 2)) = .ok (crossMat.setZ [1 / 2, 2, 3 / 2], st) ∧ meshNew st = .ok mesh ∧
      constraint (crossMat.setZ [1 / 2, 2, 3 / 2]) mesh = .ok cs ∧
      Unsupported (crossMat.setZ [1 / 2, 2, 3 / 2]) mesh.rows (1 / 2) cs.Z (fun _ => 0) := by
  obtain ⟨net, st, hn, hst⟩ := crossMat_moved hlp (some (1 / 2))
  obtain ⟨m', st', mesh, cs, hst', hmesh, -, hcs⟩ := C38_chain hlp crossMat_good (by simp [crossMat]) hn (some (1 / 2))
  rw [hst] at hst'; cases hst'
  refine ⟨net, st, mesh, cs, hn, hst, hmesh, hcs, ?_⟩
  obtain ⟨net', g1, rfl, -⟩ := chain_facts hlp crossMat_good (by simp [crossMat]) hn hst hmesh
  have e1 : (((netNew (crossMat.setZ [1 / 2, 2, 3 / 2]) true).bind (fun n => (meshNew (keep (some (1 / 2)) n)).bind (fun mesh =>
      (constraint (crossMat.setZ [1 / 2, 2, 3 / 2]) mesh).map (fun cs => (mesh.rows.map (fun r : MeshRow ℚ => (r.fiber, r.z, r.constraint)), cs.Z)))))
      ).toOption = some ([(0, 1 / 2, 0), (0, 1 / 2, 1), (1, 2, 2), (1, 2, 3), (2, 3 / 2, 4), (2, 3 / 2, 5)], 3) := by
    decide +kernel
  rw [g1] at e1
  simp only [Except.bind] at e1
  rw [hmesh] at e1
  simp only [hcs, Except.map, Except.toOption, Option.some.injEq, Prod.mk.injEq] at e1
  obtain ⟨e1, hZ⟩ := e1
  have hlen : mesh.rows.length = 6 := by simpa using congrArg List.length e1
  have hrow : ∀ (i : ℕ) (r : MeshRow ℚ), mesh.rows[i]? = some r → ([(0, 1 / 2, 0), (0, 1 / 2, 1), (1, 2, 2), (1, 2, 3), (2, 3 / 2, 4), (2, 3 / 2, 5)] :
      List (Int × ℚ × Int))[i]? = some (r.fiber, r.z, r.constraint) := by
    intro i r hr
    rw [← e1]; simp [hr]
  refine ⟨fun r => if r = 8 ∨ r = 10 then 1 else 0, ⟨4, by omega, by norm_num⟩, ?_, ?_⟩
  · rintro i j ⟨r, p, hr, hp, hf⟩
    have hi : i < 6 := by rw [← hlen]; exact (List.getElem?_eq_some_iff.1 hr).1
    have hj : j < 6 := by rw [← hlen]; exact (List.getElem?_eq_some_iff.1 hp).1
    have h1 := hrow i r hr
    have h2 := hrow j p hp
    interval_cases i <;> interval_cases j <;> simp at h1 h2 ⊢ <;> omega
  · rintro i j ⟨hij, r, hr, hc⟩
    have hi : i < 6 := by rw [← hlen]; exact (List.getElem?_eq_some_iff.1 hr).1
    have h1 := hrow i r hr
    have hji : j = i := by
      interval_cases i <;> simp at h1 <;> omega
    subst hji
    have hht : nodeHeight mesh.rows j = r.z := by simp [nodeHeight, hr]
    have hth : nodeThick (crossMat.setZ [1 / 2, 2, 3 / 2]) mesh.rows j = thick (crossMat.setZ [1 / 2, 2, 3 / 2]) r.fiber.toNat := by
      simp [nodeThick, thick, hr]
    have ht : thick (crossMat.setZ [1 / 2, 2, 3 / 2]) 2 = 1 := by decide +kernel
    refine ⟨fun hg => ?_, fun hne => absurd rfl hne, fun hg => ?_⟩
    · by_cases h8 : j = 4 ∨ j = 5
      · exfalso
        unfold floorGap at hg
        rw [hht, hth] at hg
        rcases h8 with rfl | rfl <;> simp at h1 <;> obtain ⟨f1, f2, -⟩ := h1 <;> rw [← f1, ← f2] at hg <;>
          rw [show Int.toNat 2 = 2 from rfl, ht] at hg <;> norm_num at hg
      · exact if_neg (by omega)
    · by_cases h8 : j = 4 ∨ j = 5
      · exfalso
        unfold roofGap at hg
        rw [hht, hth, hZ] at hg
        rcases h8 with rfl | rfl <;> simp at h1 <;> obtain ⟨f1, f2, -⟩ := h1 <;> rw [← f1, ← f2] at hg <;>
          rw [show Int.toNat 2 = 2 from rfl, ht] at hg <;> norm_num at hg
      · exact if_neg (by omega)

/-- C77: the three fibers of the tower are supported at the beginning, hence after the first step. -/
example : ∃ (S : Sys ℚ) (recs : List (Rec ℚ)) (stop : Stop) (a b : Rec ℚ),
    solve towerMat towerMesh none none (99 / 100) towerOpts none = .ok (S, recs, stop) ∧ recs[0]? = some a ∧ recs[1]? = some b ∧
      ¬ Unsupported towerMat towerMesh.rows 0 a.Z a.x ∧ ¬ Unsupported towerMat towerMesh.rows 0 b.Z b.x := by
  obtain ⟨S, recs, stop, h, hr⟩ := tower_run
  have hl : recs.length = 2 := by simpa using congrArg List.length hr
  have hp : PermOf S.n none := by rintro p ⟨⟩
  obtain ⟨-, a, h0, hx0, -⟩ := C40_itermax h
  have h1 : recs[1]? = some (recs[1]'(by omega)) := List.getElem?_eq_getElem _
  generalize recs[1] = b at h1
  have ha := congrArg (fun l => l[0]?) hr
  simp only [List.getElem?_map, h0, Option.map_some, List.getElem?_cons_zero, Option.some.injEq, Prod.mk.injEq] at ha
  have hs : ¬ Unsupported towerMat towerMesh.rows 0 a.Z a.x := by
    rw [ha.1]; exact tower_supported _ hx0
  exact ⟨S, recs, stop, a, b, h, h0, h1, hs, C77_supported h towerMat_good towerMesh_lengths (le_refl _) gauss_exact hp 0 1 (by omega)
    a b h0 h1 hs⟩

example : ∃ lp : Linprog ℚ, GoodLinprog lp := exists_goodLinprog

end Fibermat
