import Verif.Props.Timoshenko
import Verif.Props.PlateExamples

/-! # Concrete cases of C114 and C115 -/

set_option linter.unusedSimpArgs false

namespace Fibermat
open Spec

/-- The lever with twice the tensile moduli. -/
def tenseLever : Mat ℚ := { leverMat with fibers := leverMat.fibers.map (fun f => { f with E := ((2 : ℚ) : WithTop ℚ) }) }

/-- The lever with twice the shear moduli. -/
def shearLever : Mat ℚ := { leverMat with fibers := leverMat.fibers.map (fun f => { f with G := 2 }) }

/-- The arch with twice the tensile moduli. -/
def tenseDuo : Mat ℚ := { duoMat with fibers := duoMat.fibers.map (fun f => { f with E := ((4 : ℚ) : WithTop ℚ) }) }

theorem tenseLever_good : GoodMat tenseLever :=
  ((matCheck_frame_iff _).1 (by decide +kernel)).resolve_left (by simp [Skipped, tenseLever, leverMat])

theorem shearLever_good : GoodMat shearLever :=
  ((matCheck_frame_iff _).1 (by decide +kernel)).resolve_left (by simp [Skipped, shearLever, leverMat])

theorem tenseDuo_good : GoodMat tenseDuo :=
  ((matCheck_frame_iff _).1 (by decide +kernel)).resolve_left (by simp [Skipped, tenseDuo, duoMat])

theorem stiffer_of_map {m : Mat ℚ} {g : Fiber ℚ → Fiber ℚ}
    (h : ∀ f ∈ m.fibers, (g f).h = f.h ∧ f.b ≤ (g f).b ∧ f.G ≤ (g f).G ∧ f.E ≤ (g f).E) :
    StifferMat m { m with fibers := m.fibers.map g } := by
  refine ⟨by simp, ?_⟩
  intro k f f' hf hf'
  simp only [List.getElem?_map, hf, Option.map_some, Option.some.injEq] at hf'
  subst hf'
  exact h f (List.mem_of_getElem? hf)

theorem tenseLever_stiffer : StifferMat leverMat tenseLever := stiffer_of_map (by
  intro f hf
  refine ⟨rfl, le_rfl, le_rfl, ?_⟩
  simp only [leverMat, List.mem_cons, List.not_mem_nil, or_false] at hf
  rcases hf with rfl | rfl <;> exact WithTop.coe_le_coe.2 (by norm_num))

theorem shearLever_stiffer : StifferMat leverMat shearLever := stiffer_of_map (by
  intro f hf
  simp only [leverMat, List.mem_cons, List.not_mem_nil, or_false] at hf
  rcases hf with rfl | rfl <;> exact ⟨rfl, le_rfl, by norm_num, le_rfl⟩)

theorem tenseDuo_stiffer : StifferMat duoMat tenseDuo := stiffer_of_map (by
  intro f hf
  refine ⟨rfl, le_rfl, le_rfl, ?_⟩
  simp only [duoMat, List.mem_cons, List.not_mem_nil, or_false] at hf
  rcases hf with rfl | rfl <;> exact WithTop.coe_le_coe.2 (by norm_num))

theorem tenseLever_shear : SameShear leverMat tenseLever := by
  intro k f f' hf hf'
  simp only [tenseLever, List.getElem?_map, hf, Option.map_some, Option.some.injEq] at hf'
  subst hf'; rfl

theorem tenseDuo_shear : SameShear duoMat tenseDuo := by
  intro k f f' hf hf'
  simp only [tenseDuo, List.getElem?_map, hf, Option.map_some, Option.some.injEq] at hf'
  subst hf'; rfl

/-- Height of the plate and force on the plate in the records of a run of the lever. -/
def leverCurve (m : Mat ℚ) (c : ℚ) : Option (List (ℚ × ℚ)) :=
  (solve m leverMesh none none c leverOpts none).toOption.map (fun r =>
    r.2.1.map (fun a => (a.Z, a.x 12 + a.x 15 + a.x 18 + a.x 21 + a.x 24)))

set_option synthInstance.maxSize 1000 in
set_option synthInstance.maxHeartbeats 200000 in
theorem leverCurve_eq : leverCurve leverMat 1 = some [(2, 0), (3 / 2, 934809988660901 / 1873497444986126336)] := by
  decide +kernel

set_option synthInstance.maxSize 1000 in
set_option synthInstance.maxHeartbeats 200000 in
theorem tenseCurve_eq : leverCurve tenseLever 1 = some [(2, 0), (3 / 2, 8665941246234839 / 7539025776218210304)] := by
  decide +kernel

set_option synthInstance.maxSize 1000 in
set_option synthInstance.maxHeartbeats 200000 in
theorem shearCurve_eq : leverCurve shearLever 1 = some [(2, 0), (3 / 2, 5482534257822041 / 12173229792782450688)] := by
  decide +kernel

theorem leverCurve_run {m : Mat ℚ} {c F : ℚ} (h : leverCurve m c = some [(2, 0), (3 / 2, F)]) (hm : GoodMat m)
    (hn : (constraint m leverMesh).toOption.map (fun c => (c.C.nrows, c.Z)) = some (15, 2)) :
    ∃ S recs stop cs b, solve m leverMesh none none c leverOpts none = .ok (S, recs, stop) ∧
      constraint m leverMesh = .ok cs ∧ recs[1]? = some b ∧
      totalForce cs.C (fun j => b.x (2 * leverMesh.rows.length + j)) 2 / (cs.Z - b.Z) = 2 * F := by
  unfold leverCurve at h
  cases hs : solve m leverMesh none none c leverOpts none with
  | error e => rw [hs] at h; cases h
  | ok r =>
    obtain ⟨S, recs, stop⟩ := r
    rw [hs] at h
    simp only [Except.toOption, Option.map_some, Option.some.injEq] at h
    obtain ⟨-, cs, -, hC, -⟩ := solve_run hs
    rw [hC] at hn
    simp only [Except.toOption, Option.map_some, Option.some.injEq, Prod.mk.injEq] at hn
    have hl : recs.length = 2 := by simpa using congrArg List.length h
    have h1 : recs[1]? = some (recs[1]'(by omega)) := List.getElem?_eq_getElem _
    generalize recs[1] = b at h1
    have hb := congrArg (fun l => l[1]?) h
    simp only [List.getElem?_map, h1, Option.map_some, List.getElem?_cons_succ, List.getElem?_cons_zero, Option.some.injEq,
      Prod.mk.injEq] at hb
    refine ⟨S, recs, stop, cs, b, rfl, hC, h1, ?_⟩
    have e : totalForce cs.C (fun j => b.x (2 * leverMesh.rows.length + j)) 2 = F := by
      rw [← hb.2]
      unfold totalForce
      rw [hn.1]
      simp [Finset.sum_range_succ, leverMesh]
    rw [e, hn.2, hb.1]
    ring

/-- C114 applied to the lever: with twice the tensile moduli the initial slope is larger, `0.0023` instead of `0.0010`. -/
example : ∃ S recs stop S' recs' stop' cs cs' b b',
    solve leverMat leverMesh none none 1 leverOpts none = .ok (S, recs, stop) ∧
    solve tenseLever leverMesh none none 1 leverOpts none = .ok (S', recs', stop') ∧
    constraint leverMat leverMesh = .ok cs ∧ constraint tenseLever leverMesh = .ok cs' ∧
    recs[1]? = some b ∧ recs'[1]? = some b' ∧
    totalForce cs.C (fun j => b.x (2 * leverMesh.rows.length + j)) 2 / (cs.Z - b.Z) ≤
      totalForce cs'.C (fun j => b'.x (2 * leverMesh.rows.length + j)) 2 / (cs'.Z - b'.Z) ∧
    totalForce cs.C (fun j => b.x (2 * leverMesh.rows.length + j)) 2 / (cs.Z - b.Z) < 11 / 10000 ∧
    22 / 10000 < totalForce cs'.C (fun j => b'.x (2 * leverMesh.rows.length + j)) 2 / (cs'.Z - b'.Z) := by
  obtain ⟨S, recs, stop, cs, b, h, hC, hb, e⟩ := leverCurve_run leverCurve_eq leverMat_good (by decide +kernel)
  obtain ⟨S', recs', stop', cs', b', h', hC', hb', e'⟩ := leverCurve_run tenseCurve_eq tenseLever_good (by decide +kernel)
  refine ⟨S, recs, stop, S', recs', stop', cs, cs', b, b', h, h', hC, hC', hb, hb', ?_, ?_, ?_⟩
  · exact C114_start h leverMat_good h' tenseLever_good leverMesh_valid leverMesh_lengths (le_refl 0) gauss_exact
      (by rintro p ⟨⟩) rfl gauss_exact (by rintro p ⟨⟩) hC hC' tenseLever_stiffer le_rfl (by norm_num) (Or.inr tenseLever_shear)
      b b' hb hb'
  · rw [e]; norm_num
  · rw [e']; norm_num

/-- Larger shear moduli do not make the mat stiffer in general: with the coupling 1 (the default value), doubling the shear moduli of
the lever makes it softer.  So the last hypothesis of C114 cannot be dropped. -/
theorem C114_shear : ∃ (mat mat' : Mat ℚ) (mesh : Mesh ℚ) (o : Opts ℚ) (S S' : Sys ℚ) (recs recs' : List (Rec ℚ)) (stop stop' : Stop)
    (cs cs' : ConstraintSys ℚ) (b b' : Rec ℚ), GoodMat mat ∧ GoodMat mat' ∧ ValidMesh mesh.frame ∧
    PositiveLengths mesh.rows none none ∧ 0 ≤ o.tol ∧ ExactLin o.lin ∧ StifferMat mat mat' ∧
    (∀ (k : ℕ) (f f' : Fiber ℚ), mat.fibers[k]? = some f → mat'.fibers[k]? = some f' → f' = { f with G := 2 * f.G }) ∧
    solve mat mesh none none 1 o none = .ok (S, recs, stop) ∧ solve mat' mesh none none 1 o none = .ok (S', recs', stop') ∧
    constraint mat mesh = .ok cs ∧ constraint mat' mesh = .ok cs' ∧ recs[1]? = some b ∧ recs'[1]? = some b' ∧
    totalForce cs'.C (fun j => b'.x (2 * mesh.rows.length + j)) 2 / (cs'.Z - b'.Z) <
      totalForce cs.C (fun j => b.x (2 * mesh.rows.length + j)) 2 / (cs.Z - b.Z) := by
  obtain ⟨S, recs, stop, cs, b, h, hC, hb, e⟩ := leverCurve_run leverCurve_eq leverMat_good (by decide +kernel)
  obtain ⟨S', recs', stop', cs', b', h', hC', hb', e'⟩ := leverCurve_run shearCurve_eq shearLever_good (by decide +kernel)
  refine ⟨leverMat, shearLever, leverMesh, leverOpts, S, S', recs, recs', stop, stop', cs, cs', b, b', leverMat_good,
    shearLever_good, leverMesh_valid, leverMesh_lengths, le_refl 0, gauss_exact, shearLever_stiffer, ?_, h, h', hC, hC', hb, hb', ?_⟩
  · intro k f f' hf hf'
    simp only [shearLever, List.getElem?_map, hf, Option.map_some, Option.some.injEq] at hf'
    subst hf'
    have := List.mem_of_getElem? hf
    simp only [leverMat, List.mem_cons, List.not_mem_nil, or_false] at this
    rcases this with rfl | rfl <;> norm_num
  · rw [e, e']; norm_num

def stiffOpts : Opts ℚ := { archOpts with lin := gauss }

set_option synthInstance.maxSize 1000 in
set_option synthInstance.maxHeartbeats 200000 in
theorem tenseArch_run : ∃ S recs stop, solve tenseDuo archMesh none none (1 / 2) stiffOpts none = .ok (S, recs, stop) ∧
    recs.map (fun a => a.Z) = [11 / 4, 5 / 2, 2] := by
  have hx : (solve tenseDuo archMesh none none (1 / 2) stiffOpts none).toOption.map (fun r => r.2.1.map (fun a => a.Z)) =
      some [11 / 4, 5 / 2, 2] := by decide +kernel
  cases h : solve tenseDuo archMesh none none (1 / 2) stiffOpts none with
  | error e => rw [h] at hx; cases hx
  | ok r =>
    rw [h] at hx
    obtain ⟨S, recs, stop⟩ := r
    simp only [Except.toOption, Option.map_some, Option.some.injEq] at hx
    exact ⟨S, recs, stop, rfl, hx⟩

/-- C114 applied to the pressed arch: no contact pulls, and the arch with twice the tensile moduli has stored more energy. -/
example : ∃ S recs stop S' recs' stop' c c', solve duoMat archMesh none none (1 / 2) archOpts none = .ok (S, recs, stop) ∧
    solve tenseDuo archMesh none none (1 / 2) stiffOpts none = .ok (S', recs', stop') ∧
    recs[2]? = some c ∧ recs'[2]? = some c' ∧ c.Z = 2 ∧ c'.Z = 2 ∧ c.x 16 ≠ 0 ∧
    elasticEnergy duoMat archMesh.rows (1 / 2) (beamLength archMesh.rows) c.x ≤
      elasticEnergy tenseDuo archMesh.rows (1 / 2) (beamLength archMesh.rows) c'.x +
        2 * (1 / 1000) * ∑ j ∈ Finset.range 15, c.x (12 + j) := by
  obtain ⟨S, recs, h, h2⟩ := arch_forces
  obtain ⟨S', recs', stop', h', h2'⟩ := tenseArch_run
  obtain ⟨cs, hC, -, hn, hadm⟩ := arch_constraint
  have hl : recs.length = 3 := by simpa using congrArg List.length h2
  have hl' : recs'.length = 3 := by simpa using congrArg List.length h2'
  have hc : recs[2]? = some (recs[2]'(by omega)) := List.getElem?_eq_getElem _
  have hc' : recs'[2]? = some (recs'[2]'(by omega)) := List.getElem?_eq_getElem _
  generalize recs[2] = c at hc
  generalize recs'[2] = c' at hc'
  have kc := congrArg (fun l => l[2]?) h2
  have kc' := congrArg (fun l => l[2]?) h2'
  simp only [List.getElem?_map, hc, hc', Option.map_some, List.getElem?_cons_succ, List.getElem?_cons_zero, Option.some.injEq,
    Prod.mk.injEq] at kc kc'
  have hcv : ∀ j, j < 15 → c.x (12 + j) = [74456352340099331 / 15078051552436420608, 0, 0, 0,
      74456352340099331 / 7539025776218210304, 74456352340099331 / 7539025776218210304,
      74456352340099331 / 15078051552436420608, 0, 0, 0, 0, 0, 0, 0, 0].getD j 0 := by
    intro j hj
    rw [← kc.2]
    simp [List.getD_eq_getElem?_getD, hj]
  refine ⟨S, recs, _, S', recs', stop', c, c', h, h', hc, hc', kc.1, kc', ?_, ?_⟩
  · have := hcv 4 (by omega)
    rw [this]; norm_num
  · have := C114_work h duoMat_good h' tenseDuo_good archMesh_valid archMesh_lengths arch_lengths (by norm_num [archOpts])
      (lookup_exact _) (by rintro p ⟨⟩) (by norm_num [stiffOpts, archOpts]) gauss_exact (by rintro p ⟨⟩) hC hadm tenseDuo_stiffer
      le_rfl (by norm_num [abs_of_pos]) (Or.inr tenseDuo_shear) 2 2 c c' hc hc' (by rw [kc.1, kc']) (by
        intro j hj
        rw [hn] at hj
        change 0 ≤ c.x (12 + j)
        rw [hcv j hj]
        interval_cases j <;> norm_num)
    rw [hn] at this
    exact this

/-- C115 applied to the first fiber of the lever, as one beam of length 10 and as two of length 5: in pure bending the element
needs 11 % more energy than the Timoshenko beam, divided in the middle 42 % more. -/
example : ∃ f, leverMat.fibers[0]? = some f ∧ GoodFiber 20 f ∧ f.E = ((1 : ℚ) : WithTop ℚ) ∧
    timoshenkoEnergy (sectionArea f / 12) (sectionArea f) 10 0 (-1) 0 1 = sectionArea f / 30 ∧
    elementEnergy f 10 1 0 (-1) 0 1 = sectionArea f / 30 * (1 + 11 / 101) ∧
    elementEnergy f 5 1 0 (-1) (-5 / 2) 0 + elementEnergy f 5 1 (-5 / 2) 0 0 1 = sectionArea f / 30 * (1 + 11 / 26) := by
  refine ⟨_, rfl, ?_, rfl, ?_, ?_, ?_⟩
  · obtain ⟨s, hs, hg⟩ := leverMat_good.size
    cases hs
    exact hg _ (by simp [leverMat])
  all_goals
    norm_num [timoshenkoEnergy, elementEnergy, transverse, sectionArea, npPi]

end Fibermat
