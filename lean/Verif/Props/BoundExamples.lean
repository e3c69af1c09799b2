import Verif.Props.Bound
import Verif.Props.PlateExamples
import Verif.Props.BrokenExamples

/-! # Concrete cases for C130 -/

set_option linter.unusedSimpArgs false

namespace Fibermat
open Spec

set_option synthInstance.maxSize 1000 in
set_option synthInstance.maxHeartbeats 200000 in
/-- Plate positions and displacements of the pressed arch. -/
theorem arch_moves : ∃ S recs, solve duoMat archMesh none none (1 / 2) archOpts none = .ok (S, recs, .blocked) ∧
    S.Z0 = 11 / 4 ∧ recs.map (fun a => (a.Z, (List.range 6).map (fun i => a.x (2 * i)))) =
      [(11 / 4, [0, 0, 0, 0, 0, 0]), (5 / 2, [0, 0, 0, -1 / 4, -1 / 4, -1 / 4]), (2, [0, -1 / 2, 0, -3 / 4, -3 / 4, -3 / 4])] := by
  have hx : (solve duoMat archMesh none none (1 / 2) archOpts none).toOption.map (fun r =>
      (r.1.Z0, r.2.1.map (fun a => (a.Z, (List.range 6).map (fun i => a.x (2 * i)))), r.2.2)) = some (11 / 4,
      [(11 / 4, [0, 0, 0, 0, 0, 0]), (5 / 2, [0, 0, 0, -1 / 4, -1 / 4, -1 / 4]), (2, [0, -1 / 2, 0, -3 / 4, -3 / 4, -3 / 4])],
      .blocked) := by
    decide +kernel
  cases h : solve duoMat archMesh none none (1 / 2) archOpts none with
  | error e => rw [h] at hx; cases hx
  | ok r =>
    rw [h] at hx
    obtain ⟨S, recs, stop⟩ := r
    simp only [Except.toOption, Option.map_some, Option.some.injEq, Prod.mk.injEq] at hx
    obtain ⟨h0, h1, rfl⟩ := hx
    exact ⟨S, recs, rfl, h0, h1⟩

theorem arch_pairs {i j : ℕ} : IsPair archMesh.rows i j ↔ (i = 0 ∧ j = 0) ∨ (i = 1 ∧ j = 4) ∨ (i = 2 ∧ j = 2) ∨ (i = 3 ∧ j = 3) ∨ (i = 5 ∧ j = 5) := by
  constructor
  · rintro ⟨hij, r, hr, hc⟩
    have hi : i < 6 := (List.getElem?_eq_some_iff.1 hr).1
    interval_cases i <;> simp [archMesh] at hr <;> subst hr <;> simp at hc <;> omega
  · rintro (⟨rfl, rfl⟩ | ⟨rfl, rfl⟩ | ⟨rfl, rfl⟩ | ⟨rfl, rfl⟩ | ⟨rfl, rfl⟩) <;> exact ⟨by omega, _, rfl, rfl⟩

theorem arch_starts {i : ℕ} : StartsBeam archMesh.rows i ↔ i = 0 ∨ i = 1 ∨ i = 3 ∨ i = 4 := by
  constructor
  · rintro ⟨r, hr, hc⟩
    have hi : i < 6 := (List.getElem?_eq_some_iff.1 hr).1
    interval_cases i <;> simp [archMesh] at hr <;> subst hr <;> simp at hc <;> simp
  · rintro (rfl | rfl | rfl | rfl) <;> exact ⟨_, rfl, by decide⟩

theorem arch_roof (Z : ℚ) (u : ℕ → ℚ) : roofGap duoMat archMesh.rows Z u 0 = Z - (1 / 2 + u 0) - 1 / 2 ∧
    roofGap duoMat archMesh.rows Z u 4 = Z - (9 / 4 + u 8) - 1 / 2 ∧ roofGap duoMat archMesh.rows Z u 2 = Z - (1 / 2 + u 4) - 1 / 2 ∧
    roofGap duoMat archMesh.rows Z u 3 = Z - (9 / 4 + u 6) - 1 / 2 ∧ roofGap duoMat archMesh.rows Z u 5 = Z - (9 / 4 + u 10) - 1 / 2 ∧
    pairGap duoMat archMesh.rows u 1 4 = (9 / 4 + u 8) - (1 + u 2) - (1 + 1) / 2 := ⟨rfl, rfl, rfl, rfl, rfl, rfl⟩

open Classical in
/-- The bounds for the pressed arch: the force does not change while the upper fiber is moved down to the arch; then it grows by at
most the descent `1/2` times the stiffness of the two beams of the arch, and at least by
`1 - (1/2)²` times that. -/
example : ∃ (S : Sys ℚ) (recs : List (Rec ℚ)) (cs : ConstraintSys ℚ) (a b c : Rec ℚ),
    solve duoMat archMesh none none (1 / 2) archOpts none = .ok (S, recs, .blocked) ∧ constraint duoMat archMesh = .ok cs ∧
    recs[0]? = some a ∧ recs[1]? = some b ∧ recs[2]? = some c ∧
    totalForce cs.C (fun j => b.x (12 + j)) 2 = totalForce cs.C (fun j => a.x (12 + j)) 2 ∧
    totalForce cs.C (fun j => c.x (12 + j)) 2 - totalForce cs.C (fun j => b.x (12 + j)) 2 ≤
      1 / 2 * (2 * transverse (duoMat.fibers[0]'(by decide)) 5) ∧
    3 / 4 * (1 / 2 * (2 * transverse (duoMat.fibers[0]'(by decide)) 5)) ≤
      totalForce cs.C (fun j => c.x (12 + j)) 2 - totalForce cs.C (fun j => b.x (12 + j)) 2 ∧
    totalForce cs.C (fun j => c.x (12 + j)) 2 ≤ (11 / 4 - 2) * allStiffness duoMat archMesh.rows (beamLength archMesh.rows) ∧
    elasticEnergy duoMat archMesh.rows (1 / 2) (beamLength archMesh.rows) c.x ≤
      (11 / 4 - 2) ^ 2 * allStiffness duoMat archMesh.rows (beamLength archMesh.rows) := by
  obtain ⟨S, recs, h, hZ0, hr⟩ := arch_moves
  obtain ⟨cs, hC, -, hn, hadm⟩ := arch_constraint
  have hl : recs.length = 3 := by simpa using congrArg List.length hr
  have hp : PermOf S.n none := by rintro p ⟨⟩
  have ht : (0 : ℚ) ≤ archOpts.tol := by norm_num [archOpts]
  have hc1 : |(1 / 2 : ℚ)| ≤ 1 := by rw [abs_of_pos] <;> norm_num
  have h0 : recs[0]? = some (recs[0]'(by omega)) := List.getElem?_eq_getElem _
  have h1 : recs[1]? = some (recs[1]'(by omega)) := List.getElem?_eq_getElem _
  have h2 : recs[2]? = some (recs[2]'(by omega)) := List.getElem?_eq_getElem _
  generalize recs[0] = a at h0
  generalize recs[1] = b at h1
  generalize recs[2] = c at h2
  have ha := congrArg (fun l => l[0]?) hr
  have hb := congrArg (fun l => l[1]?) hr
  have hc := congrArg (fun l => l[2]?) hr
  have hrng : List.range 6 = [0, 1, 2, 3, 4, 5] := rfl
  simp only [List.getElem?_map, h0, h1, h2, Option.map_some, List.getElem?_cons_succ, List.getElem?_cons_zero, Option.some.injEq,
    Prod.mk.injEq, hrng, List.map_cons, List.map_nil, List.cons.injEq] at ha hb hc
  obtain ⟨aZ, a0, a1, a2, a3, a4, a5, -⟩ := ha
  obtain ⟨bZ, b0, b1, b2, b3, b4, b5, -⟩ := hb
  have hto : archOpts.tol = 1 / 1000 := rfl
  have pa : ∀ m, Pressed duoMat archMesh.rows archOpts.tol a.Z a.x m ↔ m = 3 ∨ m = 4 ∨ m = 5 := by
    intro m
    obtain ⟨r0, r4, r2, r3, r5, p⟩ := arch_roof a.Z a.x
    unfold Pressed
    simp only [arch_pairs]
    constructor
    · rintro ⟨i, j, (⟨rfl, rfl⟩ | ⟨rfl, rfl⟩ | ⟨rfl, rfl⟩ | ⟨rfl, rfl⟩ | ⟨rfl, rfl⟩), hg, hm⟩
      · rw [r0, aZ, a0, hto] at hg; norm_num at hg
      · rcases hm with rfl | ⟨rfl, hm⟩
        · simp
        · rw [p, a1, a4, hto] at hm; norm_num at hm
      · rw [r2, aZ, a2, hto] at hg; norm_num at hg
      · rcases hm with rfl | ⟨rfl, hm⟩ <;> simp
      · rcases hm with rfl | ⟨rfl, hm⟩ <;> simp
    · rintro (rfl | rfl | rfl)
      · exact ⟨3, 3, by simp, by rw [r3, aZ, a3, hto]; norm_num, by simp⟩
      · exact ⟨1, 4, by simp, by rw [r4, aZ, a4, hto]; norm_num, by simp⟩
      · exact ⟨5, 5, by simp, by rw [r5, aZ, a5, hto]; norm_num, by simp⟩
  have pb : ∀ m, Pressed duoMat archMesh.rows archOpts.tol b.Z b.x m ↔ m = 1 ∨ m = 3 ∨ m = 4 ∨ m = 5 := by
    intro m
    obtain ⟨r0, r4, r2, r3, r5, p⟩ := arch_roof b.Z b.x
    unfold Pressed
    simp only [arch_pairs]
    constructor
    · rintro ⟨i, j, (⟨rfl, rfl⟩ | ⟨rfl, rfl⟩ | ⟨rfl, rfl⟩ | ⟨rfl, rfl⟩ | ⟨rfl, rfl⟩), hg, hm⟩
      · rw [r0, bZ, b0, hto] at hg; norm_num at hg
      · rcases hm with rfl | ⟨rfl, hm⟩ <;> simp
      · rw [r2, bZ, b2, hto] at hg; norm_num at hg
      · rcases hm with rfl | ⟨rfl, hm⟩ <;> simp
      · rcases hm with rfl | ⟨rfl, hm⟩ <;> simp
    · rintro (rfl | rfl | rfl | rfl)
      · exact ⟨1, 4, by simp, by rw [r4, bZ, b4, hto]; norm_num, Or.inr ⟨rfl, by rw [p, b1, b4, hto]; norm_num⟩⟩
      · exact ⟨3, 3, by simp, by rw [r3, bZ, b3, hto]; norm_num, by simp⟩
      · exact ⟨1, 4, by simp, by rw [r4, bZ, b4, hto]; norm_num, by simp⟩
      · exact ⟨5, 5, by simp, by rw [r5, bZ, b5, hto]; norm_num, by simp⟩
  have s0 : succNode archMesh.rows 0 = 1 := rfl
  have s1 : succNode archMesh.rows 1 = 2 := rfl
  have s3 : succNode archMesh.rows 3 = 4 := rfl
  have s4 : succNode archMesh.rows 4 = 5 := rfl
  have hcut : cutStiffness duoMat archMesh.rows (beamLength archMesh.rows) (Pressed duoMat archMesh.rows archOpts.tol b.Z b.x) =
      2 * transverse (duoMat.fibers[0]'(by decide)) 5 := by
    have n0 : nodeFiber duoMat archMesh.rows 0 = some (duoMat.fibers[0]'(by decide)) := rfl
    have n1 : nodeFiber duoMat archMesh.rows 1 = some (duoMat.fibers[0]'(by decide)) := rfl
    have l0 : beamLength archMesh.rows 0 = 5 := by decide +kernel
    have l1 : beamLength archMesh.rows 1 = 5 := by decide +kernel
    unfold cutStiffness
    have hlen : archMesh.rows.length = 6 := rfl
    simp only [hlen, Finset.sum_range_succ, Finset.sum_range_zero, arch_starts, pb, s0, s1, s3, s4, n0, n1, l0, l1]
    norm_num
    ring
  refine ⟨S, recs, cs, a, b, c, h, hC, h0, h1, h2, ?_, ?_, ?_, ?_, ?_⟩
  · refine C130_free h duoMat_good archMesh_valid archMesh_lengths hc1 arch_lengths ht (lookup_exact _) hp hC 0 a b h0 h1 ?_
    intro i hi
    rw [arch_starts] at hi
    rw [pa, pa]
    rcases hi with rfl | rfl | rfl | rfl
    · rw [s0]; simp
    · rw [s1]; simp
    · rw [s3]; simp
    · rw [s4]; simp
  · have := C130_step h duoMat_good archMesh_valid archMesh_lengths hc1 arch_lengths ht (lookup_exact _) hp hC 1 b c h1 h2
    rw [hcut, bZ, hc.1] at this
    norm_num at this ⊢
    exact this
  · have := C130_held h duoMat_good archMesh_valid archMesh_lengths hc1 arch_lengths ht (lookup_exact _) hp hC 1 b c h1 h2 (by
      intro i hi m hm
      rw [arch_starts] at hi
      rw [pb]
      have g0 : Grounded duoMat archMesh.rows archOpts.tol b.x 0 := by
        have hg : floorGap duoMat archMesh.rows b.x 0 = 1 / 2 + b.x 0 - 1 / 2 := rfl
        exact ⟨0, 0, arch_pairs.2 (by simp), by rw [hg, b0, hto]; norm_num, by simp⟩
      have g2 : Grounded duoMat archMesh.rows archOpts.tol b.x 2 := by
        have hg : floorGap duoMat archMesh.rows b.x 2 = 1 / 2 + b.x 4 - 1 / 2 := rfl
        exact ⟨2, 2, arch_pairs.2 (by simp), by rw [hg, b2, hto]; norm_num, by simp⟩
      rcases hi with rfl | rfl | rfl | rfl
      · rw [s0] at hm; rcases hm with rfl | rfl
        · exact Or.inr g0
        · simp
      · rw [s1] at hm; rcases hm with rfl | rfl
        · simp
        · exact Or.inr g2
      · rw [s3] at hm; rcases hm with rfl | rfl <;> simp
      · rw [s4] at hm; rcases hm with rfl | rfl <;> simp)
    rw [hcut, bZ, hc.1] at this
    norm_num at this ⊢
    exact this
  · have := C130_force h duoMat_good archMesh_valid archMesh_lengths hc1 arch_lengths ht (lookup_exact _) hp hC 2 c h2
    rwa [hZ0, hc.1] at this
  · have := C130_energy h duoMat_good archMesh_valid archMesh_lengths hc1 arch_lengths ht (lookup_exact _) hp 2 c h2
    rwa [hZ0, hc.1] at this

/-- Options of a run of two steps. -/
def openOpts : Opts ℚ := { leanOpts with itermax := 2 }

set_option synthInstance.maxSize 1000 in
set_option synthInstance.maxHeartbeats 200000 in
/-- Forces of the plate on nodes 0, 4, 2, 3, 5 (the upper ends of the contacts) in a run of two steps. -/
theorem open_forces : ∃ S recs stop cs, solve leanMat openMesh none none 1 openOpts none = .ok (S, recs, stop) ∧
    constraint leanMat openMesh = .ok cs ∧ cs.C.nrows = 15 ∧
    recs.map (fun a => (List.range 15).map (fun j => a.x (12 + j))) =
      [[0, 0, 0, 0, 0, 0, 0, 0, 0, 0, 0, 0, 0, 0, 0],
       [1945415381807821 / 22517998136852480, 0, 0, 0, 0, 0, 0, 0, 1945415381807821 / 22517998136852480, 0, 0, 0, 0, 0, 0],
       [4775110482619197 / 22517998136852480, 0, 0, 0, 0, 0, 0, 0, 4775110482619197 / 22517998136852480,
        176855943800711 / 1125899906842624, 0, 0, 0, 0, 176855943800711 / 1125899906842624]] := by
  have hx : (solve leanMat openMesh none none 1 openOpts none).toOption.map (fun r =>
      r.2.1.map (fun a => (List.range 15).map (fun j => a.x (12 + j)))) = some
      [[0, 0, 0, 0, 0, 0, 0, 0, 0, 0, 0, 0, 0, 0, 0],
       [1945415381807821 / 22517998136852480, 0, 0, 0, 0, 0, 0, 0, 1945415381807821 / 22517998136852480, 0, 0, 0, 0, 0, 0],
       [4775110482619197 / 22517998136852480, 0, 0, 0, 0, 0, 0, 0, 4775110482619197 / 22517998136852480,
        176855943800711 / 1125899906842624, 0, 0, 0, 0, 176855943800711 / 1125899906842624]] := by
    decide +kernel
  have hn : (constraint leanMat openMesh).toOption.map (fun cs => cs.C.nrows) = some 15 := by decide +kernel
  cases h : solve leanMat openMesh none none 1 openOpts none with
  | error e => rw [h] at hx; cases hx
  | ok r =>
    rw [h] at hx
    obtain ⟨S, recs, stop⟩ := r
    obtain ⟨Km, cs, -, hC, -, -⟩ := solve_run h
    rw [hC] at hn
    simp only [Except.toOption, Option.map_some, Option.some.injEq] at hx hn
    exact ⟨S, recs, stop, cs, rfl, hC, hn, hx⟩

/-- The force grows in the first step, hence also in the second one. -/
example : ∃ (S : Sys ℚ) (recs : List (Rec ℚ)) (stop : Stop) (cs : ConstraintSys ℚ) (a b c : Rec ℚ),
    solve leanMat openMesh none none 1 openOpts none = .ok (S, recs, stop) ∧ constraint leanMat openMesh = .ok cs ∧
    recs[0]? = some a ∧ recs[1]? = some b ∧ recs[2]? = some c ∧
    totalForce cs.C (fun j => a.x (2 * openMesh.rows.length + j)) 2 < totalForce cs.C (fun j => b.x (2 * openMesh.rows.length + j)) 2 ∧
    totalForce cs.C (fun j => b.x (2 * openMesh.rows.length + j)) 2 < totalForce cs.C (fun j => c.x (2 * openMesh.rows.length + j)) 2 := by
  obtain ⟨S, recs, stop, cs, h, hC, hn, hr⟩ := open_forces
  obtain ⟨a, b, c, rfl⟩ := List.length_eq_three.1 (show recs.length = 3 by simpa using congrArg List.length hr)
  have hrng : List.range 15 = [0, 1, 2, 3, 4, 5, 6, 7, 8, 9, 10, 11, 12, 13, 14] := rfl
  simp only [List.map_cons, List.map_nil, hrng, List.cons.injEq] at hr
  obtain ⟨ha, hb, -⟩ := hr
  have h0 : totalForce cs.C (fun j => a.x (12 + j)) 2 = 0 := by
    unfold totalForce
    rw [hn]
    simp [Finset.sum_range_succ, ha]
  have h1 : totalForce cs.C (fun j => b.x (12 + j)) 2 = 1945415381807821 / 22517998136852480 := by
    unfold totalForce
    rw [hn]
    simp [Finset.sum_range_succ, hb]
  have hlt : totalForce cs.C (fun j => a.x (2 * openMesh.rows.length + j)) 2 < totalForce cs.C (fun j => b.x (2 * openMesh.rows.length + j)) 2 := by
    change totalForce cs.C (fun j => a.x (12 + j)) 2 < totalForce cs.C (fun j => b.x (12 + j)) 2
    rw [h0, h1]; norm_num
  exact ⟨S, _, stop, cs, a, b, c, h, hC, rfl, rfl, rfl, hlt, C130_grows h leanMat_good openMesh_lengths (by norm_num) le_rfl gauss_exact
    (by rintro p ⟨⟩) hC 0 1 (by omega) a b b c rfl rfl rfl rfl hlt⟩

/-- In the first step of the pressed arch the force does not change: the beams move as rigid bodies. -/
example : ∃ (S : Sys ℚ) (recs : List (Rec ℚ)) (cs : ConstraintSys ℚ) (a b : Rec ℚ),
    solve duoMat archMesh none none (1 / 2) archOpts none = .ok (S, recs, .blocked) ∧ constraint duoMat archMesh = .ok cs ∧
    recs[0]? = some a ∧ recs[1]? = some b ∧ b.Z ≠ a.Z ∧
    totalForce cs.C (fun j => b.x (12 + j)) 2 = totalForce cs.C (fun j => a.x (12 + j)) 2 ∧
    b.x 8 - a.x 8 = b.x 6 - a.x 6 + 1 / 2 * beamLength archMesh.rows 3 * (b.x 7 - a.x 7) ∧ b.x 7 = a.x 7 := by
  obtain ⟨S, recs, h, hr⟩ := arch_forces
  obtain ⟨cs, hC, -, hn, hadm⟩ := arch_constraint
  obtain ⟨a, b, c, rfl⟩ := List.length_eq_three.1 (show recs.length = 3 by simpa using congrArg List.length hr)
  have hp : PermOf S.n none := by rintro p ⟨⟩
  have ht : (0 : ℚ) ≤ archOpts.tol := by norm_num [archOpts]
  have hc1 : |(1 / 2 : ℚ)| ≤ 1 := by rw [abs_of_pos] <;> norm_num
  have hrng : List.range 15 = [0, 1, 2, 3, 4, 5, 6, 7, 8, 9, 10, 11, 12, 13, 14] := rfl
  simp only [List.map_cons, List.map_nil, hrng, List.cons.injEq, Prod.mk.injEq] at hr
  obtain ⟨⟨aZ, ha⟩, ⟨bZ, hb⟩, -⟩ := hr
  have h0 : totalForce cs.C (fun j => a.x (12 + j)) 2 = 0 := by
    unfold totalForce
    rw [hn]
    simp [Finset.sum_range_succ, ha]
  have h1 : totalForce cs.C (fun j => b.x (12 + j)) 2 = 0 := by
    unfold totalForce
    rw [hn]
    simp [Finset.sum_range_succ, hb]
  have hF : totalForce cs.C (fun j => b.x (12 + j)) 2 = totalForce cs.C (fun j => a.x (12 + j)) 2 := by rw [h0, h1]
  obtain ⟨-, e2, e3⟩ := (C130_unchanged h duoMat_good archMesh_valid archMesh_lengths hc1 arch_lengths ht (lookup_exact _) hp hC 0 a b rfl rfl).1
    hF 3 _ (arch_starts.2 (by simp)) rfl
  exact ⟨S, _, cs, a, b, h, hC, rfl, rfl, by rw [aZ, bZ]; norm_num, hF, e2, e3 (Or.inl (by rw [abs_of_pos] <;> norm_num))⟩

end Fibermat
