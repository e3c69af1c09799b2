import Verif.Props.NestedRuns
import Verif.Props.DiagramExamples

/-! # Examples for runs on nested meshes (C144) -/

namespace Fibermat
open Spec

/-- An arched fiber with the other one resting on its middle. -/
def restMesh : Mesh ℚ :=
  { duoMesh with
    rows := [⟨0, -5, -5, 0, 1 / 2, 1, 0⟩, ⟨0, 0, 0, 0, 1, 2, 4⟩, ⟨0, 5, 5, 0, 1 / 2, 0, 2⟩,
             ⟨1, -5, 0, -5, 2, 4, 3⟩, ⟨1, 0, 0, 0, 2, 5, 1⟩, ⟨1, 5, 0, 5, 2, 3, 5⟩] }

/-- The same with one more node on the arched fiber. -/
def restMesh' : Mesh ℚ :=
  { duoMesh with
    rows := [⟨0, -5, -5, 0, 1 / 2, 1, 0⟩, ⟨0, 0, 0, 0, 1, 2, 5⟩, ⟨0, 5 / 2, 5 / 2, 0, 3 / 4, 3, 2⟩, ⟨0, 5, 5, 0, 1 / 2, 0, 3⟩,
             ⟨1, -5, 0, -5, 2, 5, 4⟩, ⟨1, 0, 0, 0, 2, 6, 1⟩, ⟨1, 5, 0, 5, 2, 4, 6⟩] }

def restOpts : Opts ℚ :=
  { packing := .pinf, itermax := 2, tol := 0, errtol := 0, perm := [], lin := gauss }

/-- Where the nodes of `restMesh` are found in `restMesh'`. -/
def restIn (i : ℕ) : ℕ := if i ≤ 1 then i else i + 1

theorem restMesh_valid : ValidMesh restMesh.frame :=
  ((C28_meshCheck_iff _).1 (by decide +kernel)).resolve_left (by simp [Skipped, restMesh, duoMesh, Mesh.frame])

theorem restMesh'_valid : ValidMesh restMesh'.frame :=
  ((C28_meshCheck_iff _).1 (by decide +kernel)).resolve_left (by simp [Skipped, restMesh', duoMesh, Mesh.frame])

theorem restMesh_lengths : PositiveLengths restMesh.rows none none := by
  refine positiveLengths_raw ?_
  rintro i ⟨r, hr, h⟩
  have hi : i < 6 := (List.getElem?_eq_some_iff.1 hr).1
  interval_cases i <;> simp [restMesh] at hr <;> subst hr <;> simp at h <;> decide +kernel

theorem restMesh'_lengths : PositiveLengths restMesh'.rows none none := by
  refine positiveLengths_raw ?_
  rintro i ⟨r, hr, h⟩
  have hi : i < 7 := (List.getElem?_eq_some_iff.1 hr).1
  interval_cases i <;> simp [restMesh'] at hr <;> subst hr <;> simp at h <;> decide +kernel

theorem rest_nested : Nested restMesh.rows restMesh'.rows restIn := by
  constructor
  · intro i j hij _
    unfold restIn
    split <;> split <;> omega
  · intro i r hr
    have hi : i < 6 := (List.getElem?_eq_some_iff.1 hr).1
    interval_cases i <;> simp [restMesh] at hr <;> subst hr <;> exact ⟨_, rfl, rfl, rfl⟩

theorem rest_contacts : SameContacts restMesh.rows restMesh'.rows restIn := by
  constructor
  · intro i hi
    have hi : i < 6 := hi
    interval_cases i <;> rfl
  · rintro i j ⟨hle, r, hr, hc⟩
    have hi : i < 6 := (List.getElem?_eq_some_iff.1 hr).1
    interval_cases i <;> simp [restMesh] at hr <;> subst hr <;> simp at hc
    · obtain rfl : j = 0 := by omega
      exact ⟨by decide, _, rfl, rfl⟩
    · obtain rfl : j = 4 := by omega
      exact ⟨by decide, _, rfl, rfl⟩
    · obtain rfl : j = 2 := by omega
      exact ⟨by decide, _, rfl, rfl⟩
    · obtain rfl : j = 3 := by omega
      exact ⟨by decide, _, rfl, rfl⟩
    · omega
    · obtain rfl : j = 5 := by omega
      exact ⟨by decide, _, rfl, rfl⟩

theorem rest_run : ∃ S recs stop, solve duoMat restMesh none none 1 restOpts none = .ok (S, recs, stop) ∧
    recs.map (fun a => (a.Z, a.x 17)) = [(5 / 2, 0), (2, 8665941246234839 / 1884756444054552576)] := by
  have hx : (solve duoMat restMesh none none 1 restOpts none).toOption.map (fun r => r.2.1.map (fun a => (a.Z, a.x 17))) =
      some [(5 / 2, 0), (2, 8665941246234839 / 1884756444054552576)] := by
    decide +kernel
  cases h : solve duoMat restMesh none none 1 restOpts none with
  | error e => rw [h] at hx; cases hx
  | ok r =>
    rw [h] at hx
    obtain ⟨S, recs, stop⟩ := r
    simp only [Except.toOption, Option.map_some, Option.some.injEq] at hx
    exact ⟨S, recs, stop, rfl, hx⟩

theorem rest_run' : ∃ S recs stop, solve duoMat restMesh' none none 1 restOpts none = .ok (S, recs, stop) ∧
    (recs.map (fun a => (a.Z, a.x 19))).take 2 = [(5 / 2, 0), (91783 / 44054, 95325353708583229 / 18600147936016859136)] := by
  have hx : (solve duoMat restMesh' none none 1 restOpts none).toOption.map (fun r => (r.2.1.map (fun a => (a.Z, a.x 19))).take 2) =
      some [(5 / 2, 0), (91783 / 44054, 95325353708583229 / 18600147936016859136)] := by
    decide +kernel
  cases h : solve duoMat restMesh' none none 1 restOpts none with
  | error e => rw [h] at hx; cases hx
  | ok r =>
    rw [h] at hx
    obtain ⟨S, recs, stop⟩ := r
    simp only [Except.toOption, Option.map_some, Option.some.injEq] at hx
    exact ⟨S, recs, stop, rfl, hx⟩

/-- C144: the arch is pressed by the resting fiber. Its middle bears the plate in both runs, and the extra node makes it stiffer. -/
example : ∃ (S S' : Sys ℚ) (recs recs' : List (Rec ℚ)) (stop stop' : Stop) (cs cs' : ConstraintSys ℚ) (b b' : Rec ℚ),
    solve duoMat restMesh none none 1 restOpts none = .ok (S, recs, stop) ∧
    solve duoMat restMesh' none none 1 restOpts none = .ok (S', recs', stop') ∧
    constraint duoMat restMesh = .ok cs ∧ constraint duoMat restMesh' = .ok cs' ∧ recs[1]? = some b ∧ recs'[1]? = some b' ∧
    totalForce cs.C (fun j => b.x (2 * restMesh.rows.length + j)) 2 / (cs.Z - b.Z) ≤
      totalForce cs'.C (fun j => b'.x (2 * restMesh'.rows.length + j)) 2 / (cs'.Z - b'.Z) ∧
    0 < b.x 17 / (5 / 2 - b.Z) ∧ b.x 17 / (5 / 2 - b.Z) < b'.x 19 / (5 / 2 - b'.Z) := by
  obtain ⟨S, recs, stop, hs, hm⟩ := rest_run
  obtain ⟨S', recs', stop', hs', hm'⟩ := rest_run'
  obtain ⟨-, cs, -, hC, -, -⟩ := solve_run hs
  obtain ⟨-, cs', -, hC', -, -⟩ := solve_run hs'
  have hb := congrArg (fun l => l[1]?) hm
  have hb' := congrArg (fun l => l[1]?) hm'
  simp only [List.getElem?_map, List.getElem?_take_of_lt (show 1 < 2 by decide), List.getElem?_cons_succ, List.getElem?_cons_zero,
    Option.map_eq_some_iff, Prod.mk.injEq] at hb hb'
  obtain ⟨b, hb, hZ, hx⟩ := hb
  obtain ⟨b', hb', hZ', hx'⟩ := hb'
  have hZc : cs.Z = 5 / 2 := by
    have h : (constraint duoMat restMesh).toOption.map (fun c => c.Z) = some (5 / 2) := by decide +kernel
    rw [hC] at h
    simpa [Except.toOption] using h
  have hZc' : cs'.Z = 5 / 2 := by
    have h : (constraint duoMat restMesh').toOption.map (fun c => c.Z) = some (5 / 2) := by decide +kernel
    rw [hC'] at h
    simpa [Except.toOption] using h
  refine ⟨S, S', recs, recs', stop, stop', cs, cs', b, b', hs, hs', hC, hC', hb, hb', ?_, ?_, ?_⟩
  · exact C144_start hs hs' duoMat_good (by intro f hf; simp [duoMat] at hf; rcases hf with rfl | rfl <;> simp) restMesh_valid restMesh'_valid
      restMesh_lengths restMesh'_lengths rest_nested rest_contacts le_rfl gauss_exact (by rintro p ⟨⟩) rfl gauss_exact (by rintro p ⟨⟩)
      hC hC' (by rw [hZc, hZc']) b b' hb hb'
  · rw [hx, hZ]; norm_num
  · rw [hx, hZ, hx', hZ']; norm_num

theorem rest_admissible' {cs' : ConstraintSys ℚ} (hC' : constraint duoMat restMesh' = .ok cs') (hZ : cs'.Z = 5 / 2) :
    Admissible cs' (fun _ => 0) := by
  have hcr : ConstraintsReciprocal restMesh'.rows := by have := restMesh'_valid.constraints; rwa [rows_meshFrame] at this
  obtain ⟨-, -, -, -, hiff⟩ := C37_geometric hC' duoMat_good hcr
  rw [hiff, hZ]
  refine ⟨?_, ?_, ?_⟩
  · intro i hi
    have hi : i < 7 := hi
    interval_cases i <;> norm_num [nodeThick, nodeHeight, restMesh', duoMat]
  · intro i hi
    have hi : i < 7 := hi
    interval_cases i <;> norm_num [nodeThick, nodeHeight, restMesh', duoMat]
  · intro i j r hr hj hij
    have hi : i < 7 := (List.getElem?_eq_some_iff.1 hr).1
    interval_cases i <;> simp [restMesh'] at hr <;> subst hr <;> simp at hj <;>
      first | omega | (have : j = 5 := by omega
                       subst this
                       norm_num [nodeThick, nodeHeight, restMesh', duoMat])

/-- C144: both arches pressed flat (plate at height 2): more energy is stored with the extra node. -/
example : ∃ (S S' : Sys ℚ) (recs recs' : List (Rec ℚ)) (stop stop' : Stop) (a a' : Rec ℚ) (L L' : ℕ → ℚ),
    solve duoMat restMesh none none 1 restOpts none = .ok (S, recs, stop) ∧
    solve duoMat restMesh' none none 1 restOpts none = .ok (S', recs', stop') ∧ recs[1]? = some a ∧ recs'[2]? = some a' ∧
    a.Z = 2 ∧ a'.Z = 2 ∧ a.x 2 = -1 / 2 ∧ a'.x 2 = -1 / 2 ∧ BeamLengths restMesh.rows none none L ∧ BeamLengths restMesh'.rows none none L' ∧
    elasticEnergy duoMat restMesh.rows 1 L a.x ≤ elasticEnergy duoMat restMesh'.rows 1 L' a'.x := by
  have hx : (solve duoMat restMesh none none 1 restOpts none).toOption.map (fun r => r.2.1.map (fun a => (a.Z, a.x 2,
      decide (∀ j < 15, 0 ≤ a.x (12 + j))))) = some [(5 / 2, 0, true), (2, -1 / 2, true)] := by
    decide +kernel
  have hx' : (solve duoMat restMesh' none none 1 restOpts none).toOption.map (fun r => r.2.1.map (fun a => (a.Z, a.x 2))) =
      some [(5 / 2, 0), (91783 / 44054, -9176 / 22027), (2, -1 / 2)] := by
    decide +kernel
  have hc : (constraint duoMat restMesh).toOption.map (fun c => c.C.nrows) = some 15 := by decide +kernel
  have hc' : (constraint duoMat restMesh').toOption.map (fun c => c.Z) = some (5 / 2) := by decide +kernel
  obtain ⟨S, recs, stop, hs, -⟩ := rest_run
  obtain ⟨S', recs', stop', hs', -⟩ := rest_run'
  obtain ⟨Km, cs, hK, hC, -, -⟩ := solve_run hs
  obtain ⟨Km', cs', hK', hC', -, -⟩ := solve_run hs'
  obtain ⟨-, ⟨L, hL⟩, -, -⟩ := C65_lengths hK
  obtain ⟨-, ⟨L', hL'⟩, -, -⟩ := C65_lengths hK'
  rw [hs] at hx
  rw [hs'] at hx'
  rw [hC] at hc
  rw [hC'] at hc'
  simp only [Except.toOption, Option.map_some, Option.some.injEq] at hx hx' hc hc'
  have hb := congrArg (fun l => l[1]?) hx
  have hb' := congrArg (fun l => l[2]?) hx'
  simp only [List.getElem?_map, List.getElem?_cons_succ, List.getElem?_cons_zero, Option.map_eq_some_iff, Prod.mk.injEq,
    decide_eq_true_eq] at hb hb'
  obtain ⟨a, ha, hZ, h2, hpush⟩ := hb
  obtain ⟨a', ha', hZ', h2'⟩ := hb'
  refine ⟨S, S', recs, recs', stop, stop', a, a', L, L', hs, hs', ha, ha', hZ, hZ', h2, h2', hL, hL', ?_⟩
  have := C144_work hs hs' duoMat_good (by intro f hf; simp [duoMat] at hf; rcases hf with rfl | rfl <;> simp) restMesh_valid restMesh'_valid
    restMesh_lengths restMesh'_lengths rest_nested rest_contacts hL hL' le_rfl gauss_exact (by rintro p ⟨⟩) le_rfl gauss_exact
    (by rintro p ⟨⟩) hC hC' (rest_admissible' hC' hc') 1 2 a a' ha ha' (by rw [hZ, hZ']) (by rw [hc]; exact hpush)
  simpa [restOpts] using this

end Fibermat
