import Verif.Props.Diagram
import Verif.Props.BrokenExamples
import Verif.Props.SolverExamples

/-! # Concrete cases of C129 -/

namespace Fibermat
open Spec

def archOpts3 : Opts ℚ :=
  { packing := .pinf, itermax := 3, tol := 0, errtol := 0, perm := [], lin := gauss }

set_option synthInstance.maxSize 1000 in
set_option synthInstance.maxHeartbeats 200000 in
/-- The arch of `archMesh`, pressed by the fiber above it: three-point bending. -/
theorem arch_bend : ∃ S recs stop, solve duoMat archMesh none none 1 archOpts3 none = .ok (S, recs, stop) ∧
    recs.map (fun a => (a.Z, a.x 0, a.x 2, a.x 4, a.x 1, a.x 5)) = [(11 / 4, 0, 0, 0, 0, 0), (5 / 2, 0, 0, 0, 0, 0), (2, 0, -1 / 2, 0, -15 / 124, 15 / 124)] := by
  have hx : (solve duoMat archMesh none none 1 archOpts3 none).toOption.map (fun r => r.2.1.map (fun a => (a.Z, a.x 0, a.x 2, a.x 4, a.x 1, a.x 5))) =
      some [(11 / 4, 0, 0, 0, 0, 0), (5 / 2, 0, 0, 0, 0, 0), (2, 0, -1 / 2, 0, -15 / 124, 15 / 124)] := by
    decide +kernel
  cases h : solve duoMat archMesh none none 1 archOpts3 none with
  | error e => rw [h] at hx; cases hx
  | ok r =>
    rw [h] at hx
    obtain ⟨S, recs, stop⟩ := r
    simp only [Except.toOption, Option.map_some, Option.some.injEq] at hx
    exact ⟨S, recs, stop, rfl, hx⟩

theorem arch_first : FirstOnFiber archMesh.rows 0 := ⟨_, rfl, fun j p hj => absurd hj (by omega)⟩

theorem arch_same : SameFiber archMesh.rows 0 1 ∧ SameFiber archMesh.rows 0 2 ∧ ¬ SameFiber archMesh.rows 0 3 := by
  refine ⟨⟨archMesh.rows[0], archMesh.rows[1], rfl, rfl, rfl⟩, ⟨archMesh.rows[0], archMesh.rows[2], rfl, rfl, rfl⟩, ?_⟩
  rintro ⟨r, q, hr, hq, h⟩
  simp [archMesh] at hr hq
  subst hr hq
  simp at h

/-- Half a unit of deflection at the middle: the force of the fiber above is the number given by the formula, the ends bear half of it, and the moment at the middle is the
force at the end times the span. -/
example : ∃ (S : Sys ℚ) (recs : List (Rec ℚ)) (stop : Stop) (cs : ConstraintSys ℚ) (a : Rec ℚ) (L : ℕ → ℚ), solve duoMat archMesh none none 1 archOpts3 none = .ok (S, recs, stop) ∧
    constraint duoMat archMesh = .ok cs ∧ recs[2]? = some a ∧ BeamLengths archMesh.rows none none L ∧ L 0 = 5 ∧
    contactForce cs.C (fun j => a.x (2 * archMesh.rows.length + j)) 1 =
      2 * transverse duoMat.fibers[0] 5 * ((5 ^ 2 / 12 + 2 / 1 * 1 ^ 2) / (5 ^ 2 / 3 + 2 / 1 * 1 ^ 2)) * (-1 / 2) ∧
    contactForce cs.C (fun j => a.x (2 * archMesh.rows.length + j)) 0 = - contactForce cs.C (fun j => a.x (2 * archMesh.rows.length + j)) 1 / 2 ∧
    momentBefore duoMat.fibers[0] 2 archMesh.rows L a.x 1 = contactForce cs.C (fun j => a.x (2 * archMesh.rows.length + j)) 0 * 5 := by
  obtain ⟨S, recs, stop, hs, hm⟩ := arch_bend
  obtain ⟨a0, a1, a, rfl⟩ := List.length_eq_three.1 (show recs.length = 3 by have := congrArg List.length hm; simpa using this)
  simp only [List.map_cons, List.map_nil, List.cons.injEq, Prod.mk.injEq] at hm
  obtain ⟨-, -, ⟨hZ, h0, h2, h4, -, -⟩, -⟩ := hm
  obtain ⟨Km, cs, hK, hC, -, -⟩ := solve_run hs
  obtain ⟨-, ⟨L, hL⟩, -, hraw⟩ := C65_lengths hK
  have hpl : PositiveLengths archMesh.rows none none := by
    refine positiveLengths_raw ?_
    rintro i ⟨r, hr, h⟩
    have hi : i < 6 := (List.getElem?_eq_some_iff.1 hr).1
    interval_cases i <;> simp [archMesh] at hr <;> subst hr <;> simp at h <;> decide +kernel
  have l0 : L 0 = 5 := by
    rw [hraw rfl rfl L hL 0 ⟨_, rfl, by decide⟩]; decide +kernel
  have l1 : L 1 = 5 := by
    rw [hraw rfl rfl L hL 1 ⟨_, rfl, by decide⟩]; decide +kernel
  have hperm : PermOf S.n none := by rintro p ⟨⟩
  have key := C129_three_point hs duoMat_good archMesh_valid hpl le_rfl gauss_exact hperm hC hL 2 a rfl (i := 0) (f := duoMat.fibers[0]) rfl (E := 2) rfl
    arch_first arch_same.1 arch_same.2.1 arch_same.2.2 (by rw [l0]; exact l1) (by show a.x 4 = a.x 0; rw [h4, h0])
  have hst := (C129_statics hs duoMat_good archMesh_valid hpl le_rfl gauss_exact hperm hC hL 2 a rfl (i₀ := 0) (i := 1) (f := duoMat.fibers[0]) rfl arch_first (by norm_num)
    arch_same.1).2 2 rfl
  have hdiff : abscissa archMesh.rows 1 - abscissa archMesh.rows 0 = 5 := by decide +kernel
  refine ⟨S, _, stop, cs, a, L, hs, hC, rfl, hL, l0, ?_, key.1, ?_⟩
  · have := key.2.2
    rw [l0, show a.x (2 * (0 + 1)) = -1 / 2 from h2, show a.x (2 * 0) = 0 from h0, sub_zero] at this
    exact this
  · rw [hst, show Finset.Ico 0 1 = {0} from rfl, Finset.sum_singleton, hdiff]

def bendMat : Mat ℚ :=
  { fibers := [⟨10, 1, 1, 0, 0, 7 / 2, 4 / 5, 0, 3 / 5, 1, ((1 : ℚ) : WithTop ℚ)⟩,
               ⟨8, 1, 1, -4 / 3, -4 / 5, 29 / 10, 0, 4 / 5, 3 / 5, 1, ((1 : ℚ) : WithTop ℚ)⟩]
    attrs := { n := some 2, size := some 20, periodic := some true } }

theorem bendMat_good : GoodMat bendMat :=
  ((matCheck_frame_iff _).1 (by decide +kernel)).resolve_left (by simp [Skipped, bendMat])

theorem bend_run : ∃ S recs stop, solve bendMat hangMesh none none 1 leanOpts none = .ok (S, recs, stop) ∧
    recs.map (fun a => (a.Z, a.x 8, a.x 9, a.x 10)) = [(7, 0, 0, 0), (5 / 2, -3 / 2, -3 / 10, -12 / 5)] := by
  have hx : (solve bendMat hangMesh none none 1 leanOpts none).toOption.map (fun r => r.2.1.map (fun a => (a.Z, a.x 8, a.x 9, a.x 10))) =
      some [(7, 0, 0, 0), (5 / 2, -3 / 2, -3 / 10, -12 / 5)] := by
    decide +kernel
  cases h : solve bendMat hangMesh none none 1 leanOpts none with
  | error e => rw [h] at hx; cases hx
  | ok r =>
    rw [h] at hx
    obtain ⟨S, recs, stop⟩ := r
    simp only [Except.toOption, Option.map_some, Option.some.injEq] at hx
    exact ⟨S, recs, stop, rfl, hx⟩

theorem bend_data : nodeThick bendMat hangMesh.rows 5 = 1 ∧ nodeHeight hangMesh.rows 5 = 3 := by decide +kernel

/-- The hanging end turns with the fiber. -/
example : ∃ (S : Sys ℚ) (recs : List (Rec ℚ)) (stop : Stop) (a : Rec ℚ), solve bendMat hangMesh none none 1 leanOpts none = .ok (S, recs, stop) ∧ recs[1]? = some a ∧
    a.x 9 = -3 / 10 ∧ a.x (2 * 5) = a.x (2 * 4) + a.x (2 * 4 + 1) * (abscissa hangMesh.rows 5 - abscissa hangMesh.rows 4) := by
  obtain ⟨S, recs, stop, hs, hm⟩ := bend_run
  obtain ⟨a0, a, rfl⟩ := List.length_eq_two.1 (show recs.length = 2 by have := congrArg List.length hm; simpa using this)
  simp only [List.map_cons, List.map_nil, List.cons.injEq, Prod.mk.injEq] at hm
  obtain ⟨-, ⟨hZ, h8, h9, h10⟩, -⟩ := hm
  refine ⟨S, _, stop, a, hs, rfl, h9, ?_⟩
  refine (C129_hanging hs bendMat_good hangMesh_valid hangMesh_lengths le_rfl gauss_exact (by rintro p ⟨⟩) 1 a rfl (f := bendMat.fibers[1]) (i := 4) rfl (E := 1) rfl
    ⟨hangMesh.rows[4], hangMesh.rows[5], rfl, rfl, rfl⟩ (Or.inl ⟨by norm_num, ?_⟩)).2
  intro m h1 h3
  obtain ⟨r, q, hr, hq, -⟩ := h3
  have hm6 : m < 6 := (List.getElem?_eq_some_iff.1 hq).1
  have : m = 5 := by omega
  subst this
  rintro i j ⟨hij, r, hr, hc⟩
  have hi : i < 6 := (List.getElem?_eq_some_iff.1 hr).1
  have key : (i = 5 ∧ j = 5) ∨ (5 ≠ i ∧ 5 ≠ j) := by
    interval_cases i <;> simp [hangMesh] at hr <;> subst hr <;> simp at hc <;> omega
  rcases key with ⟨rfl, rfl⟩ | ⟨k1, k2⟩
  · refine ⟨fun _ => ?_, fun _ => ?_, fun _ h => absurd rfl h⟩
    · norm_num [floorGap, bend_data.1, bend_data.2, h10, leanOpts]
    · norm_num [roofGap, bend_data.1, bend_data.2, h10, hZ, leanOpts]
  · exact ⟨fun h => absurd h k1, fun h => absurd h k2, fun h => absurd h (by tauto)⟩

end Fibermat
