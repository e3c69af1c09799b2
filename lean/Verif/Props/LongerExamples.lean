import Verif.Props.Longer
import Verif.Props.StifferExamples

/-! # Concrete cases of C117 -/

set_option linter.unusedSimpArgs false

namespace Fibermat
open Spec

theorem lever_raw : RawBounds leverMesh.rows 5 10 := by
  have s0 : StartsBeam leverMesh.rows 0 := ⟨_, rfl, by decide⟩
  have s3 : StartsBeam leverMesh.rows 3 := ⟨_, rfl, by decide⟩
  have b0 : beamLength leverMesh.rows 0 = 5 := by decide +kernel
  have b1 : beamLength leverMesh.rows 1 = 5 := by decide +kernel
  have b3 : beamLength leverMesh.rows 3 = 10 := by decide +kernel
  refine ⟨⟨⟨0, s0, b0.symm⟩, ?_⟩, ⟨⟨3, s3, b3.symm⟩, ?_⟩⟩ <;> rintro x ⟨i, hi, rfl⟩ <;>
    rcases leverMesh_beams hi with rfl | rfl | rfl <;> simp [b0, b1, b3] <;> norm_num

theorem leverMesh_long : PositiveLengths leverMesh.rows (some 7) none where
  lo := by rintro a ⟨⟩; norm_num
  hi := by rintro a ⟨⟩
  raw := by rintro ⟨⟩
  top := fun _ ⟨i, hi⟩ => ⟨i, hi, leverMesh_lengths.raw rfl i hi⟩

set_option synthInstance.maxSize 1000 in
set_option synthInstance.maxHeartbeats 200000 in
theorem longLever_run : ∃ S recs stop, solve leverMat leverMesh (some 7) none 0 leverOpts none = .ok (S, recs, stop) ∧
    recs.map (fun a => (a.Z, (List.range 15).map (fun j => a.x (10 + j)))) = [(2, List.replicate 15 0),
      (3 / 2, [0, 0, 0, 25265134828673 / 22517998136852480, 0, 0, 0, 0, 25265134828673 / 22517998136852480, 0, 0, 0, 0, 0, 0])] := by
  have hx : (solve leverMat leverMesh (some 7) none 0 leverOpts none).toOption.map (fun r =>
      r.2.1.map (fun a => (a.Z, (List.range 15).map (fun j => a.x (10 + j))))) = some [(2, List.replicate 15 0),
      (3 / 2, [0, 0, 0, 25265134828673 / 22517998136852480, 0, 0, 0, 0, 25265134828673 / 22517998136852480, 0, 0, 0, 0, 0, 0])] := by
    decide +kernel
  cases h : solve leverMat leverMesh (some 7) none 0 leverOpts none with
  | error e => rw [h] at hx; cases hx
  | ok r =>
    rw [h] at hx
    obtain ⟨S, recs, stop⟩ := r
    simp only [Except.toOption, Option.map_some, Option.some.injEq] at hx
    exact ⟨S, recs, stop, rfl, hx⟩

set_option synthInstance.maxSize 1000 in
set_option synthInstance.maxHeartbeats 200000 in
theorem shortLever_run : ∃ S recs stop, solve leverMat leverMesh none none 0 leverOpts none = .ok (S, recs, stop) ∧
    recs.map (fun a => (a.Z, (List.range 15).map (fun j => a.x (10 + j)))) = [(2, List.replicate 15 0),
      (3 / 2, [0, 0, 0, 176855943800711 / 58546795155816448, 0, 0, 0, 0, 176855943800711 / 58546795155816448, 0, 0, 0, 0, 0, 0])] := by
  have hx : (solve leverMat leverMesh none none 0 leverOpts none).toOption.map (fun r =>
      r.2.1.map (fun a => (a.Z, (List.range 15).map (fun j => a.x (10 + j))))) = some [(2, List.replicate 15 0),
      (3 / 2, [0, 0, 0, 176855943800711 / 58546795155816448, 0, 0, 0, 0, 176855943800711 / 58546795155816448, 0, 0, 0, 0, 0, 0])] := by
    decide +kernel
  cases h : solve leverMat leverMesh none none 0 leverOpts none with
  | error e => rw [h] at hx; cases hx
  | ok r =>
    rw [h] at hx
    obtain ⟨S, recs, stop⟩ := r
    simp only [Except.toOption, Option.map_some, Option.some.injEq] at hx
    exact ⟨S, recs, stop, rfl, hx⟩

theorem lever_constraint : ∃ cs, constraint leverMat leverMesh = .ok cs ∧ cs.Z = 2 ∧ cs.C.nrows = 15 ∧
    Admissible cs (fun _ => 0) := by
  have hrec : ConstraintsReciprocal leverMesh.rows := by have := leverMesh_valid.constraints; rwa [rows_meshFrame] at this
  have hx : (constraint leverMat leverMesh).toOption.map (fun c => (c.Z, c.C.nrows)) = some (2, 15) := by
    decide +kernel
  cases h : constraint leverMat leverMesh with
  | error e => rw [h] at hx; cases hx
  | ok cs =>
  rw [h] at hx
  simp only [Except.toOption, Option.map_some, Option.some.injEq, Prod.mk.injEq] at hx
  obtain ⟨-, -, -, -, hiff⟩ := C37_geometric h leverMat_good hrec
  refine ⟨cs, rfl, hx.1, hx.2, ?_⟩
  rw [hiff, hx.1]
  refine ⟨?_, ?_, ?_⟩
  · intro i hi
    have hi : i < 5 := hi
    interval_cases i <;> norm_num [nodeThick, nodeHeight, leverMesh, leverMat]
  · intro i hi
    have hi : i < 5 := hi
    interval_cases i <;> norm_num [nodeThick, nodeHeight, leverMesh, leverMat]
  · intro i j r hr hj hij
    have hi : i < 5 := (List.getElem?_eq_some_iff.1 hr).1
    interval_cases i <;> simp [leverMesh] at hr <;> subst hr <;> simp at hj <;> omega

/-- C117 applied to the lever without coupling: with `lmin = 7`, above the shortest distance 5, its beams are longer and it is softer. -/
example : ∃ S recs stop S' recs' stop' cs b b' L,
    solve leverMat leverMesh (some 7) none 0 leverOpts none = .ok (S, recs, stop) ∧
    solve leverMat leverMesh none none 0 leverOpts none = .ok (S', recs', stop') ∧
    constraint leverMat leverMesh = .ok cs ∧ recs[1]? = some b ∧ recs'[1]? = some b' ∧
    BeamLengths leverMesh.rows (some 7) none L ∧ (∀ i, StartsBeam leverMesh.rows i → beamLength leverMesh.rows i ≤ L i) ∧
    totalForce cs.C (fun j => b.x (2 * leverMesh.rows.length + j)) 2 / (cs.Z - b.Z) ≤
      totalForce cs.C (fun j => b'.x (2 * leverMesh.rows.length + j)) 2 / (cs.Z - b'.Z) ∧
    b.Z = b'.Z ∧ elasticEnergy leverMat leverMesh.rows 0 L b.x ≤ elasticEnergy leverMat leverMesh.rows 0 (beamLength leverMesh.rows) b'.x := by
  obtain ⟨S, recs, stop, h, e⟩ := longLever_run
  obtain ⟨S', recs', stop', h', e'⟩ := shortLever_run
  obtain ⟨cs, hC, hZ, hn, hadm⟩ := lever_constraint
  have hl : recs.length = 2 := by simpa using congrArg List.length e
  have hl' : recs'.length = 2 := by simpa using congrArg List.length e'
  have hb : recs[1]? = some (recs[1]'(by omega)) := List.getElem?_eq_getElem _
  have hb' : recs'[1]? = some (recs'[1]'(by omega)) := List.getElem?_eq_getElem _
  generalize recs[1] = b at hb
  generalize recs'[1] = b' at hb'
  have k := congrArg (fun l => l[1]?) e
  have k' := congrArg (fun l => l[1]?) e'
  simp only [List.getElem?_map, hb, hb', Option.map_some, List.getElem?_cons_succ, List.getElem?_cons_zero, Option.some.injEq,
    Prod.mk.injEq] at k k'
  obtain ⟨Km, -, hK, -⟩ := solve_run h
  obtain ⟨-, ⟨L, hL⟩, -⟩ := C65_lengths hK
  have hLL : ∀ i, StartsBeam leverMesh.rows i → beamLength leverMesh.rows i ≤ L i :=
    C117_order lever_raw lever_lengths hL (by norm_num) (by norm_num) (by norm_num) (by norm_num)
  refine ⟨S, recs, stop, S', recs', stop', cs, b, b', L, h, h', hC, hb, hb', hL, hLL, ?_, ?_, ?_⟩
  · exact C117_start h leverMat_good h' leverMesh_valid leverMesh_long leverMesh_lengths hL lever_lengths hLL (le_refl 0) gauss_exact
      (by rintro p ⟨⟩) rfl gauss_exact (by rintro p ⟨⟩) hC (by norm_num) (by norm_num) (Or.inl rfl) b b' hb hb'
  · rw [k.1, k'.1]
  · have := C117_work h leverMat_good h' leverMesh_valid leverMesh_long leverMesh_lengths hL lever_lengths hLL (le_refl 0) gauss_exact
      (by rintro p ⟨⟩) (le_refl 0) gauss_exact (by rintro p ⟨⟩) hC hadm (by norm_num) (Or.inl rfl) 1 1 b b' hb hb' (by rw [k.1, k'.1]) (by
        intro j hj
        rw [hn] at hj
        change 0 ≤ b.x (10 + j)
        have ej : b.x (10 + j) = ([0, 0, 0, 25265134828673 / 22517998136852480, 0, 0, 0, 0, 25265134828673 / 22517998136852480, 0, 0, 0, 0,
            0, 0] : List ℚ).getD j 0 := by
          rw [← k.2]
          simp [List.getD_eq_getElem?_getD, hj]
        rw [ej]
        interval_cases j <;> norm_num)
    simpa [leverOpts] using this

/-- Two crossed fibers, each with one end on the floor and the other one on the plate. -/
def scissorMat : Mat ℚ :=
  { fibers := [⟨10, 1, 1, 0, 0, 1, 1, 0, 0, 1, ((1 : ℚ) : WithTop ℚ)⟩, ⟨20, 1, 1, 0, 0, 2, 0, 1, 0, 1, ((1 : ℚ) : WithTop ℚ)⟩]
    attrs := { n := some 2, size := some 40, periodic := some true } }

/-- Its mesh: the fibers cross at 4 of 10 and at 8 of 20, so that both can turn together. -/
def scissorMesh : Mesh ℚ :=
  { duoMesh with
    attrs := scissorMat.attrs
    rows := [⟨0, -5, -5, 0, 1 / 2, 1, 0⟩, ⟨0, -1, -1, 0, 1, 2, 4⟩, ⟨0, 5, 5, 0, 7 / 2, 0, 2⟩,
             ⟨1, -10, -1, -8, 1 / 2, 4, 3⟩, ⟨1, -2, -1, 0, 2, 5, 1⟩, ⟨1, 10, -1, 12, 7 / 2, 3, 5⟩] }

theorem scissorMat_good : GoodMat scissorMat :=
  ((matCheck_frame_iff _).1 (by decide +kernel)).resolve_left (by simp [Skipped, scissorMat])

/-- Height of the plate and force on the plate in the first two records of a run of the scissor. -/
def scissorCurve (lmin : Option ℚ) : Option (List (ℚ × ℚ)) :=
  (solve scissorMat scissorMesh lmin none 1 leverOpts none).toOption.map (fun r =>
    (r.2.1.take 2).map (fun a => (a.Z, a.x 14 + a.x 17 + a.x 20 + a.x 23 + a.x 26)))

theorem scissorMesh_valid : ValidMesh scissorMesh.frame :=
  ((C28_meshCheck_iff _).1 (by decide +kernel)).resolve_left (by simp [Skipped, scissorMesh, scissorMat, Mesh.frame])

theorem scissorMesh_beams {i : ℕ} (h : StartsBeam scissorMesh.rows i) : i = 0 ∨ i = 1 ∨ i = 3 ∨ i = 4 := by
  obtain ⟨r, hr, h⟩ := h
  have hi : i < 6 := (List.getElem?_eq_some_iff.1 hr).1
  interval_cases i <;> simp [scissorMesh] at hr <;> subst hr <;> simp at h <;> simp

theorem scissorMesh_lengths : PositiveLengths scissorMesh.rows none none := by
  refine positiveLengths_raw ?_
  intro i h
  rcases scissorMesh_beams h with rfl | rfl | rfl | rfl <;> decide +kernel

theorem scissorMesh_long : PositiveLengths scissorMesh.rows (some 6) none where
  lo := by rintro a ⟨⟩; norm_num
  hi := by rintro a ⟨⟩
  raw := by rintro ⟨⟩
  top := fun _ ⟨i, hi⟩ => ⟨i, hi, scissorMesh_lengths.raw rfl i hi⟩

theorem scissor_raw : RawBounds scissorMesh.rows 4 12 := by
  have s0 : StartsBeam scissorMesh.rows 0 := ⟨_, rfl, by decide⟩
  have s4 : StartsBeam scissorMesh.rows 4 := ⟨_, rfl, by decide⟩
  have b0 : beamLength scissorMesh.rows 0 = 4 := by decide +kernel
  have b1 : beamLength scissorMesh.rows 1 = 6 := by decide +kernel
  have b3 : beamLength scissorMesh.rows 3 = 8 := by decide +kernel
  have b4 : beamLength scissorMesh.rows 4 = 12 := by decide +kernel
  refine ⟨⟨⟨0, s0, b0.symm⟩, ?_⟩, ⟨⟨4, s4, b4.symm⟩, ?_⟩⟩ <;> rintro x ⟨i, hi, rfl⟩ <;>
    rcases scissorMesh_beams hi with rfl | rfl | rfl | rfl <;> simp [b0, b1, b3, b4] <;> norm_num

set_option synthInstance.maxSize 1000 in
set_option synthInstance.maxHeartbeats 200000 in
theorem scissorCurve_short : scissorCurve none = some [(4, 0), (11 / 4, 0)] := by
  decide +kernel

set_option synthInstance.maxSize 1000 in
set_option synthInstance.maxHeartbeats 200000 in
theorem scissorCurve_long : scissorCurve (some 6) =
    some [(4, 0), (777181981 / 271085406, 356364726758432665 / 4120402950384231219462144)] := by
  decide +kernel

theorem scissorCurve_run {l : Option ℚ} {Z F : ℚ} (h : scissorCurve l = some [(4, 0), (Z, F)]) :
    ∃ S recs stop b, solve scissorMat scissorMesh l none 1 leverOpts none = .ok (S, recs, stop) ∧
      recs[1]? = some b ∧ b.Z = Z ∧ b.x 14 + b.x 17 + b.x 20 + b.x 23 + b.x 26 = F := by
  unfold scissorCurve at h
  cases hs : solve scissorMat scissorMesh l none 1 leverOpts none with
  | error e => rw [hs] at h; cases h
  | ok r =>
    obtain ⟨S, recs, stop⟩ := r
    rw [hs] at h
    simp only [Except.toOption, Option.map_some, Option.some.injEq] at h
    have hl : (recs.take 2).length = 2 := by simpa using congrArg List.length h
    have hl : 2 ≤ recs.length := by rw [List.length_take] at hl; omega
    have h1 : recs[1]? = some (recs[1]'(by omega)) := List.getElem?_eq_getElem _
    generalize recs[1] = b at h1
    have hb := congrArg (fun l => l[1]?) h
    simp only [List.getElem?_map, List.getElem?_take, Nat.one_lt_ofNat, if_true, h1, Option.map_some, List.getElem?_cons_succ,
      List.getElem?_cons_zero, Option.some.injEq, Prod.mk.injEq] at hb
    exact ⟨S, recs, stop, b, rfl, h1, hb⟩

theorem scissor_size : (constraint scissorMat scissorMesh).toOption.map (fun c => (c.C.nrows, c.Z)) = some (15, 4) := by
  decide +kernel

/-- Longer beams do not make the mat softer in general: with the coupling 1 (the default value) the scissor turns without resistance,
but with `lmin = 6`, which only lengthens the beams, the plate meets a resistance.  So the last hypothesis of C117 cannot be dropped. -/
theorem C117_coupled : ∃ (mat : Mat ℚ) (mesh : Mesh ℚ) (l : ℚ) (o : Opts ℚ) (S S' : Sys ℚ) (recs recs' : List (Rec ℚ)) (stop stop' : Stop)
    (cs : ConstraintSys ℚ) (b b' : Rec ℚ) (L L' : ℕ → ℚ), GoodMat mat ∧ ValidMesh mesh.frame ∧
    PositiveLengths mesh.rows (some l) none ∧ PositiveLengths mesh.rows none none ∧
    BeamLengths mesh.rows (some l) none L ∧ BeamLengths mesh.rows none none L' ∧ (∀ i, StartsBeam mesh.rows i → L' i ≤ L i) ∧
    0 ≤ o.tol ∧ ExactLin o.lin ∧
    solve mat mesh (some l) none 1 o none = .ok (S, recs, stop) ∧ solve mat mesh none none 1 o none = .ok (S', recs', stop') ∧
    constraint mat mesh = .ok cs ∧ recs[1]? = some b ∧ recs'[1]? = some b' ∧
    totalForce cs.C (fun j => b'.x (2 * mesh.rows.length + j)) 2 / (cs.Z - b'.Z) = 0 ∧
    0 < totalForce cs.C (fun j => b.x (2 * mesh.rows.length + j)) 2 / (cs.Z - b.Z) := by
  obtain ⟨S, recs, stop, b, h, hb, eZ, eF⟩ := scissorCurve_run scissorCurve_long
  obtain ⟨S', recs', stop', b', h', hb', eZ', eF'⟩ := scissorCurve_run scissorCurve_short
  obtain ⟨Km, cs, hK, hC, -⟩ := solve_run h
  obtain ⟨Km', -, hK', -⟩ := solve_run h'
  obtain ⟨-, ⟨L, hL⟩, -⟩ := C65_lengths hK
  obtain ⟨-, ⟨L', hL'⟩, -⟩ := C65_lengths hK'
  have hx := scissor_size
  rw [hC] at hx
  simp only [Except.toOption, Option.map_some, Option.some.injEq, Prod.mk.injEq] at hx
  have tot : ∀ a : Rec ℚ, totalForce cs.C (fun j => a.x (2 * scissorMesh.rows.length + j)) 2 =
      a.x 14 + a.x 17 + a.x 20 + a.x 23 + a.x 26 := by
    intro a
    unfold totalForce
    rw [hx.1]
    simp [Finset.sum_range_succ, scissorMesh]
  refine ⟨scissorMat, scissorMesh, 6, leverOpts, S, S', recs, recs', stop, stop', cs, b, b', L, L', scissorMat_good, scissorMesh_valid,
    scissorMesh_long, scissorMesh_lengths, hL, hL', ?_, le_refl 0, gauss_exact, h, h', hC, hb, hb', ?_, ?_⟩
  · exact C117_order scissor_raw hL' hL (by norm_num) (by norm_num) (by norm_num) (by norm_num)
  · rw [tot, eF']; simp
  · rw [tot, eF, eZ, hx.2]; norm_num

end Fibermat
