import Verif.Props.MoreFibers
import Verif.Props.NestedRunsExamples

/-! # Examples for fibers added to a mat (C145) -/

namespace Fibermat
open Spec

/-- The fibers of `duoMat`, and between them a third one, parallel to the upper fiber. -/
def guestMat : Mat ℚ :=
  { fibers := [⟨10, 1, 1, 0, 0, 1 / 2, 1, 0, 0, 1, ((2 : ℚ) : WithTop ℚ)⟩,
               ⟨10, 1, 1, 5 / 2, 0, 2, 0, 1, 0, 1, ((2 : ℚ) : WithTop ℚ)⟩,
               ⟨10, 1, 1, 0, 0, 3 / 2, 0, 1, 0, 1, ((2 : ℚ) : WithTop ℚ)⟩]
    attrs := { n := some 3, size := some 20, periodic := some true } }

/-- The mesh `restMesh` with the third fiber, which crosses the arch without touching it. -/
def guestMesh : Mesh ℚ :=
  { rows := [⟨0, -5, -5, 0, 1 / 2, 1, 0⟩, ⟨0, 0, 0, 0, 1, 2, 8⟩, ⟨0, 5 / 2, 5 / 2, 0, 3 / 4, 3, 5⟩, ⟨0, 5, 5, 0, 1 / 2, 0, 3⟩,
             ⟨1, -5, 5 / 2, -5, 2, 5, 4⟩, ⟨1, 0, 5 / 2, 0, 2, 6, 2⟩, ⟨1, 5, 5 / 2, 5, 2, 4, 6⟩,
             ⟨2, -5, 0, -5, 2, 8, 7⟩, ⟨2, 0, 0, 0, 2, 9, 1⟩, ⟨2, 5, 0, 5, 2, 7, 9⟩]
    attrs := { n := some 3, size := some 20, periodic := some true } }

def guestIn (i : ℕ) : ℕ := if i ≤ 1 then i else if i = 2 then 3 else i + 4

def guestFiber (k : Int) : Int := 2 * k

theorem guestMat_good : GoodMat guestMat :=
  ((matCheck_frame_iff _).1 (by decide +kernel)).resolve_left (by simp [Skipped, guestMat])

theorem guestMesh_valid : ValidMesh guestMesh.frame :=
  ((C28_meshCheck_iff _).1 (by decide +kernel)).resolve_left (by simp [Skipped, guestMesh, Mesh.frame])

theorem guestMesh_lengths : PositiveLengths guestMesh.rows none none := by
  refine positiveLengths_raw ?_
  rintro i ⟨r, hr, h⟩
  have hi : i < 10 := (List.getElem?_eq_some_iff.1 hr).1
  interval_cases i <;> simp [guestMesh] at hr <;> subst hr <;> simp at h <;> decide +kernel

theorem guest_more : MoreFibers duoMat guestMat restMesh.rows guestMesh.rows guestIn guestFiber := by
  constructor
  · intro i j hij _
    unfold guestIn
    split_ifs <;> omega
  · intro i r hr
    have hi : i < 6 := (List.getElem?_eq_some_iff.1 hr).1
    interval_cases i <;> simp [restMesh] at hr <;> subst hr <;> exact ⟨_, rfl, rfl, rfl, rfl⟩

theorem guest_contacts : SameContacts restMesh.rows guestMesh.rows guestIn := by
  constructor
  · intro i hi
    have hi : i < 6 := hi
    interval_cases i <;> rfl
  · rintro i j ⟨hle, r, hr, hc⟩
    have hi : i < 6 := (List.getElem?_eq_some_iff.1 hr).1
    interval_cases i <;> simp [restMesh] at hr <;> subst hr <;> simp at hc
    · obtain rfl : j = 0 := by omega
      exact ⟨by decide, _, rfl, rfl⟩
    · obtain rfl : j = 4 := by omega
      exact ⟨by decide, _, rfl, rfl⟩
    · obtain rfl : j = 2 := by omega
      exact ⟨by decide, _, rfl, rfl⟩
    · obtain rfl : j = 3 := by omega
      exact ⟨by decide, _, rfl, rfl⟩
    · omega
    · obtain rfl : j = 5 := by omega
      exact ⟨by decide, _, rfl, rfl⟩

/-- Indices of the forces of the contacts of the third fiber (three rows for each of its nodes). -/
def idleRows : List ℕ := [26, 27, 28, 32, 33, 34, 35, 36, 37]

theorem guest_run : ∃ S recs stop, solve guestMat guestMesh none none 1 restOpts none = .ok (S, recs, stop) ∧
    recs.map (fun a : Rec ℚ => (a.Z, a.x 25, a.x 2, decide (∀ j ∈ idleRows, a.x j = 0))) = [(5 / 2, 0, 0, true), (91783 / 44054, 95325353708583229 / 18600147936016859136, -9176 / 22027, true),
      (2, 527207568469919491 / 57237655039135186944, -1 / 2, false)] := by
  have hx : (solve guestMat guestMesh none none 1 restOpts none).toOption.map (fun r => r.2.1.map (fun a : Rec ℚ => (a.Z, a.x 25, a.x 2, decide (∀ j ∈ idleRows, a.x j = 0)))) =
      some [(5 / 2, 0, 0, true), (91783 / 44054, 95325353708583229 / 18600147936016859136, -9176 / 22027, true),
      (2, 527207568469919491 / 57237655039135186944, -1 / 2, false)] := by
    decide +kernel
  cases h : solve guestMat guestMesh none none 1 restOpts none with
  | error e => rw [h] at hx; cases hx
  | ok r =>
    rw [h] at hx
    obtain ⟨S, recs, stop⟩ := r
    simp only [Except.toOption, Option.map_some, Option.some.injEq] at hx
    exact ⟨S, recs, stop, rfl, hx⟩

/-- C145: the arch is pressed by the resting fiber. The third fiber touches nothing but the plate, and no contact presses it (last line:
the forces of the contacts of its three nodes); yet the mat is stiffer. -/
example : ∃ (S S' : Sys ℚ) (recs recs' : List (Rec ℚ)) (stop stop' : Stop) (cs cs' : ConstraintSys ℚ) (b b' : Rec ℚ),
    solve duoMat restMesh none none 1 restOpts none = .ok (S, recs, stop) ∧
    solve guestMat guestMesh none none 1 restOpts none = .ok (S', recs', stop') ∧
    constraint duoMat restMesh = .ok cs ∧ constraint guestMat guestMesh = .ok cs' ∧ recs[1]? = some b ∧ recs'[1]? = some b' ∧
    totalForce cs.C (fun j => b.x (2 * restMesh.rows.length + j)) 2 / (cs.Z - b.Z) ≤
      totalForce cs'.C (fun j => b'.x (2 * guestMesh.rows.length + j)) 2 / (cs'.Z - b'.Z) ∧
    0 < b.x 17 / (5 / 2 - b.Z) ∧ b.x 17 / (5 / 2 - b.Z) < b'.x 25 / (5 / 2 - b'.Z) ∧
    ∀ j ∈ idleRows, b'.x j = 0 := by
  obtain ⟨S, recs, stop, hs, hm⟩ := rest_run
  obtain ⟨S', recs', stop', hs', hm'⟩ := guest_run
  obtain ⟨-, cs, -, hC, -, -⟩ := solve_run hs
  obtain ⟨-, cs', -, hC', -, -⟩ := solve_run hs'
  have hb := congrArg (fun l => l[1]?) hm
  have hb' := congrArg (fun l => l[1]?) hm'
  simp only [List.getElem?_map, List.getElem?_cons_succ, List.getElem?_cons_zero,
    Option.map_eq_some_iff, Prod.mk.injEq,
    decide_eq_true_eq] at hb hb'
  obtain ⟨b, hb, hZ, hx⟩ := hb
  obtain ⟨b', hb', hZ', hx', -, hfree⟩ := hb'
  have hZc : cs.Z = 5 / 2 := by
    have h : (constraint duoMat restMesh).toOption.map (fun c => c.Z) = some (5 / 2) := by decide +kernel
    rw [hC] at h
    simpa [Except.toOption] using h
  have hZc' : cs'.Z = 5 / 2 := by
    have h : (constraint guestMat guestMesh).toOption.map (fun c => c.Z) = some (5 / 2) := by decide +kernel
    rw [hC'] at h
    simpa [Except.toOption] using h
  refine ⟨S, S', recs, recs', stop, stop', cs, cs', b, b', hs, hs', hC, hC', hb, hb', ?_, ?_, ?_, hfree⟩
  · exact C145_start hs hs' duoMat_good guestMat_good (by intro f hf; simp [duoMat] at hf; rcases hf with rfl | rfl <;> simp)
      (by intro f hf; simp [guestMat] at hf; rcases hf with rfl | rfl | rfl <;> simp) restMesh_valid guestMesh_valid
      restMesh_lengths guestMesh_lengths guest_more guest_contacts le_rfl gauss_exact (by rintro p ⟨⟩) rfl gauss_exact (by rintro p ⟨⟩)
      hC hC' (by rw [hZc, hZc']) b b' hb hb'
  · rw [hx, hZ]; norm_num
  · rw [hx, hZ, hx', hZ']; norm_num

theorem guest_admissible {cs' : ConstraintSys ℚ} (hC' : constraint guestMat guestMesh = .ok cs') (hZ : cs'.Z = 5 / 2) :
    Admissible cs' (fun _ => 0) := by
  have hcr : ConstraintsReciprocal guestMesh.rows := by have := guestMesh_valid.constraints; rwa [rows_meshFrame] at this
  obtain ⟨-, -, -, -, hiff⟩ := C37_geometric hC' guestMat_good hcr
  rw [hiff, hZ]
  refine ⟨?_, ?_, ?_⟩
  · intro i hi
    have hi : i < 10 := hi
    interval_cases i <;> decide +kernel
  · intro i hi
    have hi : i < 10 := hi
    interval_cases i <;> decide +kernel
  · intro i j r hr hj hij
    have hi : i < 10 := (List.getElem?_eq_some_iff.1 hr).1
    interval_cases i <;> simp [guestMesh] at hr <;> subst hr <;> simp at hj <;>
      first
      | omega
      | (have : j = 5 := by omega
         subst this
         decide +kernel)
      | (have : j = 8 := by omega
         subst this
         decide +kernel)

theorem rest_flat : (solve duoMat restMesh none none 1 restOpts none).toOption.map (fun r => r.2.1.map (fun a => (a.Z, a.x 2,
      decide (∀ j < 15, 0 ≤ a.x (12 + j))))) = some [(5 / 2, 0, true), (2, -1 / 2, true)] := by
  decide +kernel

/-- C145: both arches pressed flat (plate at height 2): more energy is stored with the third fiber. -/
example : ∃ (S S' : Sys ℚ) (recs recs' : List (Rec ℚ)) (stop stop' : Stop) (a a' : Rec ℚ) (L L' : ℕ → ℚ),
    solve duoMat restMesh none none 1 restOpts none = .ok (S, recs, stop) ∧
    solve guestMat guestMesh none none 1 restOpts none = .ok (S', recs', stop') ∧ recs[1]? = some a ∧ recs'[2]? = some a' ∧
    a.Z = 2 ∧ a'.Z = 2 ∧ a.x 2 = -1 / 2 ∧ a'.x 2 = -1 / 2 ∧ BeamLengths restMesh.rows none none L ∧ BeamLengths guestMesh.rows none none L' ∧
    elasticEnergy duoMat restMesh.rows 1 L a.x ≤ elasticEnergy guestMat guestMesh.rows 1 L' a'.x := by
  have hx := rest_flat
  have hc : (constraint duoMat restMesh).toOption.map (fun c => c.C.nrows) = some 15 := by decide +kernel
  have hc' : (constraint guestMat guestMesh).toOption.map (fun c => c.Z) = some (5 / 2) := by decide +kernel
  obtain ⟨S, recs, stop, hs, -⟩ := rest_run
  obtain ⟨S', recs', stop', hs', hx'⟩ := guest_run
  obtain ⟨Km, cs, hK, hC, -, -⟩ := solve_run hs
  obtain ⟨Km', cs', hK', hC', -, -⟩ := solve_run hs'
  obtain ⟨-, ⟨L, hL⟩, -, -⟩ := C65_lengths hK
  obtain ⟨-, ⟨L', hL'⟩, -, -⟩ := C65_lengths hK'
  rw [hs] at hx
  rw [hC] at hc
  rw [hC'] at hc'
  simp only [Except.toOption, Option.map_some, Option.some.injEq] at hx hc hc'
  have hb := congrArg (fun l => l[1]?) hx
  have hb' := congrArg (fun l => l[2]?) hx'
  simp only [List.getElem?_map, List.getElem?_cons_succ, List.getElem?_cons_zero, Option.map_eq_some_iff, Prod.mk.injEq,
    decide_eq_true_eq] at hb hb'
  obtain ⟨a, ha, hZ, h2, hpush⟩ := hb
  obtain ⟨a', ha', hZ', -, h2', -⟩ := hb'
  refine ⟨S, S', recs, recs', stop, stop', a, a', L, L', hs, hs', ha, ha', hZ, hZ', h2, h2', hL, hL', ?_⟩
  have := C145_work hs hs' duoMat_good guestMat_good (by intro f hf; simp [duoMat] at hf; rcases hf with rfl | rfl <;> simp)
    (by intro f hf; simp [guestMat] at hf; rcases hf with rfl | rfl | rfl <;> simp) restMesh_valid guestMesh_valid
    restMesh_lengths guestMesh_lengths guest_more guest_contacts hL hL' le_rfl gauss_exact (by rintro p ⟨⟩) le_rfl gauss_exact
    (by rintro p ⟨⟩) hC hC' (guest_admissible hC' hc') 1 2 a a' ha ha' (by rw [hZ, hZ']) (by rw [hc]; exact hpush)
  simpa [restOpts] using this

end Fibermat
