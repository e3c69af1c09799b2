import Verif.Props.Regular
import Verif.Props.EnergyExamples
import Verif.Props.SolverStopExamples

/-! # Concrete cases of C72-C74 -/

namespace Fibermat
open Spec

/-- Gauss-Jordan elimination first, then any solution. -/
noncomputable def goodGauss : LinSolver ℚ := fun A b =>
  match gauss A b with
  | some x => some x
  | none => choiceLin A b

theorem goodGauss_good : GoodLin goodGauss := by
  constructor
  · intro A b x hsq h
    unfold goodGauss at h
    split at h
    · rename_i y hy
      cases h
      exact gauss_exact A b _ hsq hy
    · unfold choiceLin at h
      split_ifs at h with hx
      cases h
      obtain ⟨A', h1, h2⟩ := hx.choose_spec
      rwa [cells_inj h1] at h2
  · rintro A b hsq ⟨x, hx, -⟩
    unfold goodGauss
    split
    · exact ⟨_, rfl⟩
    · unfold choiceLin
      rw [dif_pos ⟨x, A, rfl, hx⟩]
      exact ⟨_, rfl⟩

noncomputable def leverGood : Opts ℚ := { leverOpts with lin := goodGauss }

/-- With the default coupling 1 the lever could turn without any elastic energy, but it is held by the floor at two nodes. -/
theorem lever_held (Z : ℚ) (u : ℕ → ℚ) (h0 : u 0 = 0) (h2 : u 2 = 0) (h6 : u 6 = 0) (h8 : u 8 = 0) :
    ¬ Floating leverMat leverMesh.rows 1 (beamLength leverMesh.rows) 0 Z u := by
  rintro ⟨v, ⟨i, hi, hv⟩, hg, he, hk⟩
  obtain ⟨S, recs, h, -⟩ := lever_run
  obtain ⟨Km, -, hK, -⟩ := solve_run h
  have hr := (C72_rigid hK leverMat_good leverMesh_valid leverMesh_lengths (by norm_num) lever_lengths v).1 ⟨hg, he⟩
  obtain ⟨l0, l1, l3⟩ : beamLength leverMesh.rows 0 = 5 ∧ beamLength leverMesh.rows 1 = 5 ∧ beamLength leverMesh.rows 3 = 10 := by
    decide +kernel
  obtain ⟨a1, a2, -⟩ := hr 0 _ ⟨_, rfl, by decide⟩ rfl
  obtain ⟨b1, b2, -⟩ := hr 1 _ ⟨_, rfl, by decide⟩ rfl
  obtain ⟨c1, c2, -⟩ := hr 3 _ ⟨_, rfl, by decide⟩ rfl
  have s0 : succNode leverMesh.rows 0 = 1 := rfl
  have s1 : succNode leverMesh.rows 1 = 2 := rfl
  have s3 : succNode leverMesh.rows 3 = 4 := rfl
  rw [s0] at a1 a2
  rw [s1] at b1 b2
  rw [s3] at c1 c2
  have w0 := (hk 0 0 ⟨le_rfl, _, rfl, rfl⟩).1 (by norm_num [floorGap, nodeHeight, nodeThick, leverMesh, leverMat, h0])
  have w1 := (hk 1 1 ⟨le_rfl, _, rfl, rfl⟩).1 (by norm_num [floorGap, nodeHeight, nodeThick, leverMesh, leverMat, h2])
  have w3 := (hk 3 3 ⟨le_rfl, _, rfl, rfl⟩).1 (by norm_num [floorGap, nodeHeight, nodeThick, leverMesh, leverMat, h6])
  have w4 := (hk 4 4 ⟨le_rfl, _, rfl, rfl⟩).1 (by norm_num [floorGap, nodeHeight, nodeThick, leverMesh, leverMat, h8])
  norm_num [l0, l1, l3] at a1 a2 b1 b2 c1 c2 w0 w1 w3 w4
  have t1 : v 1 = 0 := by linarith
  have t3 : v 3 = 0 := by linarith
  have t5 : v 5 = 0 := by linarith
  have t4 : v 4 = 0 := by linarith
  have t7 : v 7 = 0 := by linarith
  have t9 : v 9 = 0 := by linarith
  have hi : i < 5 := hi
  interval_cases i <;> simp_all

set_option synthInstance.maxSize 1000 in
set_option synthInstance.maxHeartbeats 200000 in
/-- The run of the lever with a good solver: none of its states is floating, the last one is jammed. -/
theorem lever_good : ∃ S recs, solve leverMat leverMesh none none 1 leverGood none = .ok (S, recs, .blocked) ∧
    recs.length = 2 ∧ (∃ a, recs[1]? = some a ∧ Jammed leverMat leverMesh.rows 0 a.Z a.x) ∧
    ∀ a ∈ recs, ¬ Floating leverMat leverMesh.rows 1 (beamLength leverMesh.rows) 0 a.Z a.x := by
  have hx : (solve leverMat leverMesh none none 1 leverGood none).toOption.map (fun r =>
      (r.2.1.take 2).map (fun a => (a.rlambda, a.Z, a.x 0, a.x 2, a.x 6, a.x 8))) =
      some [(.fin 1, 2, 0, 0, 0, 0), (.fin (4 / 3), 3 / 2, 0, 0, 0, 0)] := by
    decide +kernel
  cases h : solve leverMat leverMesh none none 1 leverGood none with
  | error e => rw [h] at hx; cases hx
  | ok r =>
    rw [h] at hx
    obtain ⟨S, recs, stop⟩ := r
    simp only [Except.toOption, Option.map_some, Option.some.injEq] at hx
    have hlen : 2 ≤ recs.length := by
      have := congrArg List.length hx
      simp at this
      omega
    have ha : recs[1]? = some (recs[1]'(by omega)) := List.getElem?_eq_getElem _
    generalize recs[1] = a at ha
    have hd := congrArg (fun l => l[1]?) hx
    simp [ha] at hd
    obtain ⟨d1, d2, d3, d4, d5, d6⟩ := hd
    have hj : Jammed leverMat leverMesh.rows 0 a.Z a.x := by
      refine ⟨3, 3, ⟨le_rfl, _, rfl, rfl⟩, ?_, fun hne => absurd rfl hne, ?_⟩
      · norm_num [floorGap, nodeHeight, nodeThick, leverMesh, leverMat, d5]
      · norm_num [roofGap, nodeHeight, nodeThick, leverMesh, leverMat, d5, d2]
    have hp : PermOf S.n none := by rintro p ⟨⟩
    have hl := C63_jammed h leverMat_good leverMesh_lengths goodGauss_good.1 hp 1 a ha hj
    have hstop : stop = .blocked := by
      cases stop with
      | blocked => rfl
      | unmodelled => exact absurd rfl (C61_modelled h leverMat_good leverMesh_lengths (le_refl 0) goodGauss_good.1 hp)
      | reached =>
        exfalso
        rcases C40_reached h with h1 | ⟨b, h1, h2⟩
        · have : leverGood.itermax = 10 := rfl
          omega
        · have hb := getLast_getElem h1
          rw [← hl] at hb
          have hb : recs[1]? = some b := hb
          rw [ha] at hb
          cases hb
          rw [d1] at h2
          cases h2
    subst hstop
    refine ⟨S, recs, rfl, hl.symm, ⟨a, ha, hj⟩, ?_⟩
    intro b hb
    obtain ⟨k, hk⟩ := List.mem_iff_getElem?.1 hb
    have hk2 : k < 2 := by
      have := (List.getElem?_eq_some_iff.1 hk).1
      omega
    have hd := congrArg (fun l => l[k]?) hx
    simp only [List.getElem?_map, List.getElem?_take, hk2, if_true, hk, Option.map_some] at hd
    interval_cases k <;> simp at hd <;> exact lever_held _ _ hd.2.2.1 hd.2.2.2.1 hd.2.2.2.2.1 hd.2.2.2.2.2

/-- C74: all hypotheses are met, with the default coupling 1.  So every good solver and every order of the unknowns give the same
two records, e.g. the reverse order. -/
example : ∃ S recs, solve leverMat leverMesh none none 1 leverGood none = .ok (S, recs, .blocked) ∧ recs.length = 2 ∧
    (∀ lin', GoodLin lin' → solve leverMat leverMesh none none 1 { leverGood with lin := lin' } (some (List.range S.n).reverse) =
      .ok (S, recs, .blocked)) := by
  obtain ⟨S, recs, h, hl, -, hf⟩ := lever_good
  have hp : PermOf S.n none := by rintro p ⟨⟩
  refine ⟨S, recs, h, hl, fun lin' hlin' => ?_⟩
  refine C74_determined h leverMat_good leverMesh_valid leverMesh_lengths (by norm_num) lever_lengths (le_refl 0) goodGauss_good hp
    (fun a ha _ => hf a ha) hlin' ?_
  rintro p ⟨⟩
  exact List.reverse_perm _

/-- C72, C73: in the same run the first state is regular, the second one is not since it is jammed. -/
example : ∃ S recs a b, solve leverMat leverMesh none none 1 leverGood none = .ok (S, recs, .blocked) ∧ recs[0]? = some a ∧
    recs[1]? = some b ∧ ¬ RegularAt S leverGood.tol b ∧
    (RegularAt S leverGood.tol a ↔ ¬ Jammed leverMat leverMesh.rows 0 a.Z a.x) := by
  obtain ⟨S, recs, h, hl, ⟨b, hb, hj⟩, hf⟩ := lever_good
  have hp : PermOf S.n none := by rintro p ⟨⟩
  have h0 : recs[0]? = some (recs[0]'(by omega)) := List.getElem?_eq_getElem _
  have hreg := C72_regular h leverMat_good leverMesh_valid leverMesh_lengths (by norm_num) lever_lengths (le_refl 0) goodGauss_good.1 hp
  refine ⟨S, recs, _, b, h, h0, hb, fun hr => ((hreg 1 b hb).1 hr).1 hj, ?_⟩
  rw [hreg 0 _ h0]
  exact ⟨fun h => h.1, fun h => ⟨h, hf _ (List.mem_of_getElem? h0)⟩⟩

/-- `Floating` is not always false, even when no fiber is unsupported: with coupling 1 a fiber touching the floor with one end only
may turn about it. -/
example : Floating leverMat leverMesh.rows 1 (beamLength leverMesh.rows) 0 9 (fun r => if r = 2 ∨ r = 4 then 1 else 0) ∧
    ¬ Unsupported leverMat leverMesh.rows 0 9 (fun r => if r = 2 ∨ r = 4 then 1 else 0) := by
  constructor
  · obtain ⟨S, recs, h, -⟩ := lever_run
    obtain ⟨Km, -, hK, -⟩ := solve_run h
    obtain ⟨l0, l1, l3⟩ : beamLength leverMesh.rows 0 = 5 ∧ beamLength leverMesh.rows 1 = 5 ∧
        beamLength leverMesh.rows 3 = 10 := by
      decide +kernel
    have hr := (C72_rigid hK leverMat_good leverMesh_valid leverMesh_lengths (by norm_num) lever_lengths
      (fun r => [0, 1, 5, 1, 10, 1].getD r 0)).2 ?_
    · refine ⟨_, ⟨1, by decide, by norm_num⟩, hr.1, hr.2, ?_⟩
      rintro i j ⟨hle, r, hr, hj⟩
      have hi : i < 5 := (List.getElem?_eq_some_iff.1 hr).1
      have : j = i := by
        interval_cases i <;> simp [leverMesh] at hr <;> subst hr <;> simp at hj <;> omega
      subst this
      refine ⟨fun h => ?_, fun h => absurd rfl h, fun h => ?_⟩
      · interval_cases j
        all_goals first
          | (simp; done)
          | (exfalso; norm_num [floorGap, nodeHeight, nodeThick, leverMesh, leverMat] at h; done)
      · exfalso
        interval_cases j <;> norm_num [roofGap, nodeHeight, nodeThick, leverMesh, leverMat] at h
    · intro i f hi hf
      rcases leverMesh_beams hi with rfl | rfl | rfl
      · have s0 : succNode leverMesh.rows 0 = 1 := rfl
        rw [s0, l0]
        cases hf
        norm_num [leverMat]
      · have s1 : succNode leverMesh.rows 1 = 2 := rfl
        rw [s1, l1]
        cases hf
        norm_num [leverMat]
      · have s3 : succNode leverMesh.rows 3 = 4 := rfl
        rw [s3, l3]
        cases hf
        norm_num [leverMat]
  · rintro ⟨v, ⟨i, hi, hv⟩, hsame, hk⟩
    have hi : i < 5 := hi
    have w0 := (hk 0 0 ⟨le_rfl, _, rfl, rfl⟩).1 (by norm_num [floorGap, nodeHeight, nodeThick, leverMesh, leverMat])
    have w3 := (hk 3 3 ⟨le_rfl, _, rfl, rfl⟩).1 (by norm_num [floorGap, nodeHeight, nodeThick, leverMesh, leverMat])
    have h1 := hsame 0 1 ⟨_, _, rfl, rfl, rfl⟩
    have h2 := hsame 0 2 ⟨_, _, rfl, rfl, rfl⟩
    have h4 := hsame 3 4 ⟨_, _, rfl, rfl, rfl⟩
    interval_cases i
    · exact hv w0
    · exact hv (h1 ▸ w0)
    · exact hv (h2 ▸ w0)
    · exact hv w3
    · exact hv (h4 ▸ w3)

end Fibermat
