import Verif.Props.Broken
import Verif.Props.PullExamples

/-! # Concrete cases of C128 -/

namespace Fibermat
open Spec

/-- The mesh of `leanMesh` with the second fiber a little higher at its upper nodes: the pair of nodes 1 and 4 is open. -/
def openMesh : Mesh ℚ :=
  { leanMesh with
    rows := [⟨0, -5, -4, 0, 1 / 2, 1, 0⟩, ⟨0, -5 / 3, -4 / 3, 0, 5 / 2, 2, 4⟩, ⟨0, 5, 4, 0, 13 / 2, 0, 2⟩,
             ⟨1, -4, -4 / 3, -4, 1 / 2, 4, 3⟩, ⟨1, 1, -4 / 3, 0, 18 / 5, 5, 1⟩, ⟨1, 4, -4 / 3, 12 / 5, 27 / 5, 3, 5⟩] }

theorem openMesh_valid : ValidMesh openMesh.frame :=
  ((C28_meshCheck_iff _).1 (by decide +kernel)).resolve_left (by simp [Skipped, openMesh, leanMesh, leanMat, Mesh.frame])

theorem openMesh_lengths : PositiveLengths openMesh.rows none none := by
  refine positiveLengths_raw ?_
  rintro i ⟨r, hr, h⟩
  have hi : i < 6 := (List.getElem?_eq_some_iff.1 hr).1
  interval_cases i <;> simp [openMesh] at hr <;> subst hr <;> simp at h <;> decide +kernel

set_option synthInstance.maxSize 1000 in
set_option synthInstance.maxHeartbeats 200000 in
theorem open_run : ∃ S recs stop, solve leanMat openMesh none none 1 leanOpts none = .ok (S, recs, stop) ∧
    recs.map (fun a => (a.Z, a.x 0, a.x 2, a.x 4, a.x 6, a.x 8, a.x 10)) = [(7, 0, 0, 0, 0, 0, 0), (59 / 10, 0, -11 / 30, -11 / 10, 0, 0, 0)] := by
  have hx : (solve leanMat openMesh none none 1 leanOpts none).toOption.map (fun r => r.2.1.map (fun a => (a.Z, a.x 0, a.x 2, a.x 4, a.x 6, a.x 8, a.x 10))) =
      some [(7, 0, 0, 0, 0, 0, 0), (59 / 10, 0, -11 / 30, -11 / 10, 0, 0, 0)] := by
    decide +kernel
  cases h : solve leanMat openMesh none none 1 leanOpts none with
  | error e => rw [h] at hx; cases hx
  | ok r =>
    rw [h] at hx
    obtain ⟨S, recs, stop⟩ := r
    simp only [Except.toOption, Option.map_some, Option.some.injEq] at hx
    exact ⟨S, recs, stop, rfl, hx⟩

theorem open_thick : ∀ i < 6, nodeThick leanMat openMesh.rows i = 1 := by decide +kernel

theorem open_height : nodeHeight openMesh.rows 1 = 5 / 2 ∧ nodeHeight openMesh.rows 4 = 18 / 5 := by decide +kernel

/-- In the state after one step, the open pair of nodes touches nothing. -/
theorem open_untouched {a : Rec ℚ} (h2 : a.x 2 = -11 / 30) (h8 : a.x 8 = 0) (hZ : a.Z = 59 / 10) : Untouched leanMat openMesh.rows 0 a.Z a.x 1 := by
  rintro i j ⟨hij, r, hr, hc⟩
  have hi : i < 6 := (List.getElem?_eq_some_iff.1 hr).1
  have key : (i = 1 ∧ j = 4) ∨ (1 ≠ i ∧ 1 ≠ j) := by
    interval_cases i <;> simp [openMesh] at hr <;> subst hr <;> simp at hc <;> omega
  rcases key with ⟨rfl, rfl⟩ | ⟨k1, k2⟩
  · refine ⟨fun _ => ?_, fun h => absurd h (by norm_num), fun _ _ => ?_⟩
    · norm_num [floorGap, open_height.1, open_thick, h2]
    · norm_num [pairGap, open_height.1, open_height.2, open_thick, h2, h8]
  · exact ⟨fun h => absurd h k1, fun h => absurd h k2, fun h => absurd h (by tauto)⟩

/-- The plate bends down the end of the first fiber; the node between plate and floor follows on the straight line, a third of the way. -/
example : ∃ (S : Sys ℚ) (recs : List (Rec ℚ)) (stop : Stop) (a : Rec ℚ), solve leanMat openMesh none none 1 leanOpts none = .ok (S, recs, stop) ∧ recs[1]? = some a ∧ a.x 4 = -11 / 10 ∧
    (a.x (2 * 1) - a.x (2 * 0)) * (abscissa openMesh.rows 2 - abscissa openMesh.rows 0) =
      (a.x (2 * 2) - a.x (2 * 0)) * (abscissa openMesh.rows 1 - abscissa openMesh.rows 0) := by
  obtain ⟨S, recs, stop, hs, hm⟩ := open_run
  obtain ⟨a0, a, rfl⟩ := List.length_eq_two.1 (show recs.length = 2 by have := congrArg List.length hm; simpa using this)
  simp only [List.map_cons, List.map_nil, List.cons.injEq, Prod.mk.injEq] at hm
  obtain ⟨-, ⟨hZ, -, h2, h4, -, h8, -⟩, -⟩ := hm
  refine ⟨S, _, stop, a, hs, rfl, h4, ?_⟩
  refine C128_between hs leanMat_good openMesh_valid openMesh_lengths le_rfl gauss_exact (by rintro p ⟨⟩) 1 a rfl (f := leanMat.fibers[0]) rfl rfl
    ⟨_, _, rfl, rfl, rfl⟩ ?_ (by norm_num) (by norm_num)
  intro m h1 h3
  have : m = 1 := by omega
  subst this
  exact open_untouched h2 h8 hZ

/-- The force of the plate at the end of the fiber is the jump of its slope. -/
example : ∃ (S : Sys ℚ) (recs : List (Rec ℚ)) (stop : Stop) (cs : ConstraintSys ℚ) (a : Rec ℚ) (L : ℕ → ℚ), solve leanMat openMesh none none 1 leanOpts none = .ok (S, recs, stop) ∧ constraint leanMat openMesh = .ok cs ∧ recs[1]? = some a ∧
    BeamLengths openMesh.rows none none L ∧
    contactForce cs.C (fun j => a.x (2 * openMesh.rows.length + j)) 2 = leanMat.fibers[0].G * sectionArea leanMat.fibers[0] *
      (slopeBefore openMesh.rows L a.x 2 - slopeAfter openMesh.rows L a.x 2) := by
  obtain ⟨S, recs, stop, hs, hm⟩ := open_run
  obtain ⟨a0, a, rfl⟩ := List.length_eq_two.1 (show recs.length = 2 by have := congrArg List.length hm; simpa using this)
  obtain ⟨Km, cs, hK, hC, -, -⟩ := solve_run hs
  obtain ⟨-, ⟨L, hL⟩, -, -⟩ := C65_lengths hK
  exact ⟨S, _, stop, cs, a, L, hs, hC, rfl, hL, C128_force hs leanMat_good openMesh_valid openMesh_lengths le_rfl gauss_exact (by rintro p ⟨⟩) hC hL 1 a rfl rfl rfl⟩

/-- The mesh of `leanMesh` with a hanging end of the second fiber. -/
def hangMesh : Mesh ℚ :=
  { leanMesh with
    rows := [⟨0, -5, -4, 0, 1 / 2, 1, 0⟩, ⟨0, -5 / 3, -4 / 3, 0, 5 / 2, 2, 4⟩, ⟨0, 5, 4, 0, 13 / 2, 0, 2⟩,
             ⟨1, -4, -4 / 3, -4, 1 / 2, 4, 3⟩, ⟨1, 1, -4 / 3, 0, 7 / 2, 5, 1⟩, ⟨1, 4, -4 / 3, 12 / 5, 3, 3, 5⟩] }

theorem hangMesh_valid : ValidMesh hangMesh.frame :=
  ((C28_meshCheck_iff _).1 (by decide +kernel)).resolve_left (by simp [Skipped, hangMesh, leanMesh, leanMat, Mesh.frame])

theorem hangMesh_lengths : PositiveLengths hangMesh.rows none none := by
  refine positiveLengths_raw ?_
  rintro i ⟨r, hr, h⟩
  have hi : i < 6 := (List.getElem?_eq_some_iff.1 hr).1
  interval_cases i <;> simp [hangMesh] at hr <;> subst hr <;> simp at h <;> decide +kernel

theorem hang_run : ∃ S recs stop, solve leanMat hangMesh none none 1 leanOpts none = .ok (S, recs, stop) ∧
    recs.map (fun a => (a.Z, a.x 8, a.x 10)) = [(7, 0, 0), (31 / 10, -9 / 10, -9 / 10)] := by
  have hx : (solve leanMat hangMesh none none 1 leanOpts none).toOption.map (fun r => r.2.1.map (fun a => (a.Z, a.x 8, a.x 10))) =
      some [(7, 0, 0), (31 / 10, -9 / 10, -9 / 10)] := by
    decide +kernel
  cases h : solve leanMat hangMesh none none 1 leanOpts none with
  | error e => rw [h] at hx; cases hx
  | ok r =>
    rw [h] at hx
    obtain ⟨S, recs, stop⟩ := r
    simp only [Except.toOption, Option.map_some, Option.some.injEq] at hx
    exact ⟨S, recs, stop, rfl, hx⟩

theorem hang_data : nodeThick leanMat hangMesh.rows 5 = 1 ∧ nodeHeight hangMesh.rows 5 = 3 := by decide +kernel

/-- The hanging end follows the node where the fiber is pushed down. -/
example : ∃ (S : Sys ℚ) (recs : List (Rec ℚ)) (stop : Stop) (a : Rec ℚ), solve leanMat hangMesh none none 1 leanOpts none = .ok (S, recs, stop) ∧ recs[1]? = some a ∧
    a.x 8 = -9 / 10 ∧ a.x (2 * 5) = a.x (2 * 4) := by
  obtain ⟨S, recs, stop, hs, hm⟩ := hang_run
  obtain ⟨a0, a, rfl⟩ := List.length_eq_two.1 (show recs.length = 2 by have := congrArg List.length hm; simpa using this)
  simp only [List.map_cons, List.map_nil, List.cons.injEq, Prod.mk.injEq] at hm
  obtain ⟨-, ⟨hZ, h8, h10⟩, -⟩ := hm
  refine ⟨S, _, stop, a, hs, rfl, h8, ?_⟩
  refine (C128_level hs leanMat_good hangMesh_valid hangMesh_lengths le_rfl gauss_exact (by rintro p ⟨⟩) 1 a rfl (f := leanMat.fibers[1]) (i := 4) rfl rfl
    ⟨hangMesh.rows[4], hangMesh.rows[5], rfl, rfl, rfl⟩).1 (by norm_num) ?_
  intro m h1 h3
  obtain ⟨r, q, hr, hq, -⟩ := h3
  have hm6 : m < 6 := (List.getElem?_eq_some_iff.1 hq).1
  have : m = 5 := by omega
  subst this
  rintro i j ⟨hij, r, hr, hc⟩
  have hi : i < 6 := (List.getElem?_eq_some_iff.1 hr).1
  have key : (i = 5 ∧ j = 5) ∨ (5 ≠ i ∧ 5 ≠ j) := by
    interval_cases i <;> simp [hangMesh] at hr <;> subst hr <;> simp at hc <;> omega
  rcases key with ⟨rfl, rfl⟩ | ⟨k1, k2⟩
  · refine ⟨fun _ => ?_, fun _ => ?_, fun _ h => absurd rfl h⟩
    · norm_num [floorGap, hang_data.1, hang_data.2, h10, leanOpts]
    · norm_num [roofGap, hang_data.1, hang_data.2, h10, hZ, leanOpts]
  · exact ⟨fun h => absurd h k1, fun h => absurd h k2, fun h => absurd h (by tauto)⟩

end Fibermat
