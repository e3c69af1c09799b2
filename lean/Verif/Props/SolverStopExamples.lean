import Verif.Props.SolverStop
import Verif.Props.SolverExamples

/-! # Concrete runs that stop early (non-vacuity of C61-C64) -/

namespace Fibermat
open Spec

/-- C61: the run of the arch ends by itself. -/
example : ∃ S recs stop, solve duoMat archMesh none none (1 / 2) archOpts none = .ok (S, recs, stop) ∧ GoodMat duoMat ∧
    PositiveLengths archMesh.rows none none ∧ 0 ≤ archOpts.tol ∧ ExactLin archOpts.lin ∧ PermOf S.n none ∧
    stop ≠ .unmodelled := by
  obtain ⟨S, recs, h, -⟩ := arch_run
  have hp : PermOf S.n none := by rintro p ⟨⟩
  exact ⟨S, recs, _, h, duoMat_good, archMesh_lengths, by norm_num [archOpts], lookup_exact _, hp,
    C61_modelled h duoMat_good archMesh_lengths (by norm_num [archOpts]) (lookup_exact _) hp⟩

theorem twigMesh_valid : ValidMesh twigMesh.frame :=
  ((C28_meshCheck_iff _).1 (by decide +kernel)).resolve_left (by simp [Skipped, twigMesh, Mesh.frame])

/-- Options without target packing. -/
noncomputable def pressOpts : Opts ℚ := { twigOpts with packing := .pinf }

/-- The inclined fiber is laid flat in one step; then it is squeezed between the plates and the run stops. -/
theorem twig_jammed : ∃ S recs, solve twigMat twigMesh none none (1 / 2) pressOpts none = .ok (S, recs, .blocked) ∧
    recs.length = 2 ∧ ∃ a, recs[1]? = some a ∧ a.Z = 1 ∧ Jammed twigMat twigMesh.rows 0 a.Z a.x := by
  have hx : (solve twigMat twigMesh none none (1 / 2) pressOpts none).toOption.map (fun r =>
      (r.2.1.take 2).map (fun a => (a.rlambda, a.Z, a.x 0))) = some [(.fin 1, 3 / 2, 0), (.fin (3 / 2), 1, 0)] := by
    decide +kernel
  cases h : solve twigMat twigMesh none none (1 / 2) pressOpts none with
  | error e => rw [h] at hx; cases hx
  | ok r =>
    rw [h] at hx
    obtain ⟨S, recs, stop⟩ := r
    simp only [Except.toOption, Option.map_some, Option.some.injEq] at hx
    have hlen : 2 ≤ recs.length := by
      have := congrArg List.length hx
      simp at this
      omega
    have ha : recs[1]? = some (recs[1]'(by omega)) := List.getElem?_eq_getElem _
    generalize recs[1] = a at ha
    have hd := congrArg (fun l => l[1]?) hx
    simp [ha] at hd
    obtain ⟨d1, d2, d3⟩ := hd
    have hj : Jammed twigMat twigMesh.rows 0 a.Z a.x := by
      refine ⟨0, 0, ⟨le_rfl, _, rfl, rfl⟩, ?_, fun hne => absurd rfl hne, ?_⟩
      · simp only [floorGap, mul_zero, d3]
        norm_num [nodeHeight, nodeThick, twigMesh, twigMat]
      · simp only [roofGap, mul_zero, d3, d2]
        norm_num [nodeHeight, nodeThick, twigMesh, twigMat]
    have hp : PermOf S.n none := by rintro p ⟨⟩
    have hl := C63_jammed h twigMat_good twigMesh_lengths twigLin_good.1 hp 1 a ha hj
    have hstop : stop = .blocked := by
      cases stop with
      | blocked => rfl
      | unmodelled => exact absurd rfl (C61_modelled h twigMat_good twigMesh_lengths (le_refl 0) twigLin_good.1 hp)
      | reached =>
        exfalso
        rcases C40_reached h with h1 | ⟨b, h1, h2⟩
        · have : pressOpts.itermax = 10 := rfl
          omega
        · have hb := getLast_getElem h1
          rw [← hl] at hb
          have hb : recs[1]? = some b := hb
          rw [ha] at hb
          cases hb
          rw [d1] at h2
          cases h2
    subst hstop
    exact ⟨S, recs, rfl, hl.symm, a, ha, d2, hj⟩

/-- All hypotheses of C62, C63 and C64 are met by this run. -/
example : ∃ S recs, solve twigMat twigMesh none none (1 / 2) pressOpts none = .ok (S, recs, .blocked) ∧ GoodMat twigMat ∧
    FiniteTensile twigMat ∧ ValidMesh twigMesh.frame ∧ PositiveLengths twigMesh.rows none none ∧ |(1 / 2 : ℚ)| < 1 ∧
    0 ≤ pressOpts.tol ∧ 0 ≤ pressOpts.errtol ∧ GoodLin pressOpts.lin ∧ PermOf S.n none ∧ twigMesh.rows ≠ [] ∧
    3 * twigMesh.rows.length < pressOpts.itermax := by
  obtain ⟨S, recs, h, -⟩ := twig_jammed
  refine ⟨S, recs, h, twigMat_good, ?_, twigMesh_valid, twigMesh_lengths, ?_, le_refl 0, le_refl 0, twigLin_good, ?_, ?_, ?_⟩
  · intro f hf
    simp [twigMat] at hf
    subst hf
    simp
  · rw [abs_of_pos] <;> norm_num
  · rintro p ⟨⟩
  · simp [twigMesh]
  · decide

/-- `Unsupported` is not always true: the fiber lying on the lower plate is held. -/
example : ¬ Unsupported twigMat twigMesh.rows 0 (3 / 2) (fun _ => 0) := by
  rintro ⟨v, ⟨i, hi, hv⟩, hsame, hk⟩
  have hi : i < 2 := hi
  have h0 := (hk 0 0 ⟨le_rfl, _, rfl, rfl⟩).1 (by norm_num [floorGap, nodeHeight, nodeThick, twigMesh, twigMat])
  have h1 := hsame 0 1 ⟨_, _, rfl, rfl, rfl⟩
  interval_cases i
  · exact hv h0
  · exact hv (h1 ▸ h0)

/-- And not always false: a fiber hanging between the plates. -/
example : Unsupported twigMat twigMesh.rows 0 3 (fun r => if r % 2 = 0 then 1 else 0) := by
  refine ⟨fun _ => 1, ⟨0, by decide, by norm_num⟩, fun _ _ _ => rfl, ?_⟩
  rintro i j ⟨hle, r, hr, hj⟩
  have hi : i < 2 := (List.getElem?_eq_some_iff.1 hr).1
  have : j = i := by
    interval_cases i <;> simp [twigMesh] at hr <;> subst hr <;> simp at hj <;> omega
  subst this
  refine ⟨fun h => ?_, fun h => absurd rfl h, fun h => ?_⟩
  · exfalso
    interval_cases j <;> norm_num [floorGap, nodeHeight, nodeThick, twigMesh, twigMat] at h
  · exfalso
    interval_cases j <;> norm_num [roofGap, nodeHeight, nodeThick, twigMesh, twigMat] at h

end Fibermat
