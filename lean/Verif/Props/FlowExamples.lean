import Verif.Props.Flow
import Verif.Props.BoundExamples
import Verif.Props.DiagramExamples

/-! # Concrete cases for C132 -/

set_option linter.unusedSimpArgs false

namespace Fibermat
open Spec

set_option synthInstance.maxSize 1000 in
set_option synthInstance.maxHeartbeats 200000 in
/-- Plate positions and displacements of the pressed arch, without coupling. -/
theorem loose_moves : ∃ S recs stop, solve duoMat archMesh none none 0 archOpts3 none = .ok (S, recs, stop) ∧
    recs.map (fun a => (a.Z, (List.range 6).map (fun i => a.x (2 * i)))) =
      [(11 / 4, [0, 0, 0, 0, 0, 0]), (5 / 2, [0, 0, 0, -1 / 4, -1 / 4, -1 / 4]), (2, [0, -1 / 2, 0, -3 / 4, -3 / 4, -3 / 4])] := by
  have hx : (solve duoMat archMesh none none 0 archOpts3 none).toOption.map (fun r =>
      r.2.1.map (fun a => (a.Z, (List.range 6).map (fun i => a.x (2 * i))))) = some
      [(11 / 4, [0, 0, 0, 0, 0, 0]), (5 / 2, [0, 0, 0, -1 / 4, -1 / 4, -1 / 4]), (2, [0, -1 / 2, 0, -3 / 4, -3 / 4, -3 / 4])] := by
    decide +kernel
  cases h : solve duoMat archMesh none none 0 archOpts3 none with
  | error e => rw [h] at hx; cases hx
  | ok r =>
    rw [h] at hx
    obtain ⟨S, recs, stop⟩ := r
    simp only [Except.toOption, Option.map_some, Option.some.injEq] at hx
    exact ⟨S, recs, stop, rfl, hx⟩

/-- In the state of the second record the fiber below is pressed in its middle by the fiber above, and rests at its ends. -/
theorem arch_pressed {tol Z : ℚ} {u : ℕ → ℚ} (h0 : 0 ≤ tol) (h1 : tol ≤ 1 / 1000) (hZ : Z = 5 / 2)
    (hu : (List.range 6).map (fun i => u (2 * i)) = [0, 0, 0, -1 / 4, -1 / 4, -1 / 4]) :
    (∀ m, Pressed duoMat archMesh.rows tol Z u m ↔ m = 1 ∨ m = 3 ∨ m = 4 ∨ m = 5) ∧
    (∀ m, Grounded duoMat archMesh.rows tol u m ↔ m = 0 ∨ m = 2) ∧ pairGap duoMat archMesh.rows u 1 4 ≤ tol := by
  have hrng : List.range 6 = [0, 1, 2, 3, 4, 5] := rfl
  simp only [hrng, List.map_cons, List.map_nil, List.cons.injEq] at hu
  obtain ⟨b0, b1, b2, b3, b4, b5, -⟩ := hu
  norm_num at b0 b1 b2 b3 b4 b5
  obtain ⟨r0, r4, r2, r3, r5, p⟩ := arch_roof Z u
  have f0 : floorGap duoMat archMesh.rows u 0 = 1 / 2 + u 0 - 1 / 2 := rfl
  have f1 : floorGap duoMat archMesh.rows u 1 = 1 + u 2 - 1 / 2 := rfl
  have f2 : floorGap duoMat archMesh.rows u 2 = 1 / 2 + u 4 - 1 / 2 := rfl
  have f3 : floorGap duoMat archMesh.rows u 3 = 9 / 4 + u 6 - 1 / 2 := rfl
  have f5 : floorGap duoMat archMesh.rows u 5 = 9 / 4 + u 10 - 1 / 2 := rfl
  have hgap : pairGap duoMat archMesh.rows u 1 4 ≤ tol := by rw [p, b1, b4]; norm_num; exact h0
  refine ⟨fun m => ?_, fun m => ?_, hgap⟩
  · unfold Pressed
    simp only [arch_pairs]
    constructor
    · rintro ⟨i, j, (⟨rfl, rfl⟩ | ⟨rfl, rfl⟩ | ⟨rfl, rfl⟩ | ⟨rfl, rfl⟩ | ⟨rfl, rfl⟩), hg, hm⟩
      · rw [r0, hZ, b0] at hg; linarith
      · rcases hm with rfl | ⟨rfl, hm⟩ <;> simp
      · rw [r2, hZ, b2] at hg; linarith
      · rcases hm with rfl | ⟨rfl, hm⟩ <;> simp
      · rcases hm with rfl | ⟨rfl, hm⟩ <;> simp
    · rintro (rfl | rfl | rfl | rfl)
      · exact ⟨1, 4, by simp, by rw [r4, hZ, b4]; linarith, Or.inr ⟨rfl, hgap⟩⟩
      · exact ⟨3, 3, by simp, by rw [r3, hZ, b3]; linarith, by simp⟩
      · exact ⟨1, 4, by simp, by rw [r4, hZ, b4]; linarith, by simp⟩
      · exact ⟨5, 5, by simp, by rw [r5, hZ, b5]; linarith, by simp⟩
  · unfold Grounded
    simp only [arch_pairs]
    constructor
    · rintro ⟨i, j, (⟨rfl, rfl⟩ | ⟨rfl, rfl⟩ | ⟨rfl, rfl⟩ | ⟨rfl, rfl⟩ | ⟨rfl, rfl⟩), hg, hm⟩
      · rcases hm with rfl | ⟨rfl, hm⟩ <;> simp
      · rw [f1, b1] at hg; linarith
      · rcases hm with rfl | ⟨rfl, hm⟩ <;> simp
      · rw [f3, b3] at hg; linarith
      · rw [f5, b5] at hg; linarith
    · rintro (rfl | rfl)
      · exact ⟨0, 0, by simp, by rw [f0, b0]; linarith, by simp⟩
      · exact ⟨2, 2, by simp, by rw [f2, b2]; linarith, by simp⟩

/-- The flow that goes from the middle of the arch to its ends, one half along each beam. -/
def halves (m : ℕ) : ℚ := if m = 0 then -1 / 2 else if m = 1 then 1 / 2 else 0

open Classical in
/-- Without coupling, the force that presses the arch grows by exactly the descent times the stiffness of its two beams: the flow
that goes along both gives the lower bound, the cut between the pressed nodes and the others (C130) the upper one. One of the beams
alone gives half of it. The flow of equal cost exists. -/
example : ∃ (S : Sys ℚ) (recs : List (Rec ℚ)) (stop : Stop) (cs : ConstraintSys ℚ) (b c : Rec ℚ),
    solve duoMat archMesh none none 0 archOpts3 none = .ok (S, recs, stop) ∧ constraint duoMat archMesh = .ok cs ∧
    recs[1]? = some b ∧ recs[2]? = some c ∧
    UnitFlow duoMat archMesh.rows archOpts3.tol b.Z b.x halves ∧
    totalForce cs.C (fun j => c.x (12 + j)) 2 - totalForce cs.C (fun j => b.x (12 + j)) 2 =
      1 / 2 * (2 * transverse (duoMat.fibers[0]'(by decide)) 5) ∧
    1 / 2 ≤ (totalForce cs.C (fun j => c.x (12 + j)) 2 - totalForce cs.C (fun j => b.x (12 + j)) 2) *
      chainCost duoMat archMesh.rows (beamLength archMesh.rows) 0 1 ∧
    ∃ θ, UnitFlow duoMat archMesh.rows archOpts3.tol b.Z b.x θ ∧ 1 / 2 =
      (totalForce cs.C (fun j => c.x (12 + j)) 2 - totalForce cs.C (fun j => b.x (12 + j)) 2) *
      flowCost duoMat archMesh.rows (beamLength archMesh.rows) θ := by
  obtain ⟨S, recs, stop, h, hr⟩ := loose_moves
  obtain ⟨cs, hC, -, hn, hadm⟩ := arch_constraint
  obtain ⟨a, b, c, rfl⟩ := List.length_eq_three.1 (show recs.length = 3 by simpa using congrArg List.length hr)
  have hp : PermOf S.n none := by rintro p ⟨⟩
  have ht : (0 : ℚ) ≤ archOpts3.tol := by norm_num [archOpts3]
  have hto : archOpts3.tol = 0 := rfl
  have hc1 : |(0 : ℚ)| ≤ 1 := by norm_num
  simp only [List.map_cons, List.map_nil, List.cons.injEq, Prod.mk.injEq] at hr
  obtain ⟨-, ⟨bZ, hb⟩, ⟨cZ, -⟩, -⟩ := hr
  obtain ⟨pb, gb, hgap⟩ := arch_pressed (tol := archOpts3.tol) ht (by rw [hto]; norm_num) bZ hb
  have s0 : succNode archMesh.rows 0 = 1 := rfl
  have s1 : succNode archMesh.rows 1 = 2 := rfl
  have s3 : succNode archMesh.rows 3 = 4 := rfl
  have s4 : succNode archMesh.rows 4 = 5 := rfl
  have n0 : nodeFiber duoMat archMesh.rows 0 = some (duoMat.fibers[0]'(by decide)) := rfl
  have n1 : nodeFiber duoMat archMesh.rows 1 = some (duoMat.fibers[0]'(by decide)) := rfl
  have n3 : nodeFiber duoMat archMesh.rows 3 = some (duoMat.fibers[1]'(by decide)) := rfl
  have n4 : nodeFiber duoMat archMesh.rows 4 = some (duoMat.fibers[1]'(by decide)) := rfl
  have l0 : beamLength archMesh.rows 0 = 5 := by decide +kernel
  have l1 : beamLength archMesh.rows 1 = 5 := by decide +kernel
  have hlen : archMesh.rows.length = 6 := rfl
  have hcut : cutStiffness duoMat archMesh.rows (beamLength archMesh.rows) (Pressed duoMat archMesh.rows archOpts3.tol b.Z b.x) =
      2 * transverse (duoMat.fibers[0]'(by decide)) 5 := by
    unfold cutStiffness
    simp only [hlen, Finset.sum_range_succ, Finset.sum_range_zero, arch_starts, pb, s0, s1, s3, s4, n0, n1, l0, l1]
    norm_num
    ring
  have hkpos : 0 < transverse (duoMat.fibers[0]'(by decide)) (5 : ℚ) := by
    decide +kernel
  have hout : ∀ m, outflow archMesh.rows halves m = if m = 1 then 1 else if m = 0 ∨ m = 2 then -1 / 2 else 0 := by
    intro m
    unfold outflow
    simp only [hlen, Finset.sum_range_succ, Finset.sum_range_zero, arch_starts, s0, s1, s3, s4, halves]
    norm_num
    rcases m with _ | _ | _ | m <;> norm_num
    rw [if_neg (by omega), if_neg (by omega), neg_zero]
  have hθ : UnitFlow duoMat archMesh.rows archOpts3.tol b.Z b.x halves := by
    refine ⟨fun i j m hij hg hm hP hG => ?_, fun i j hij hne hg hP hG => ?_, ?_⟩
    · rw [pb] at hP
      rw [gb] at hG
      rw [hout, if_neg (by omega), if_neg hG]
    · rw [arch_pairs] at hij
      rw [pb] at hP
      omega
    · rw [hlen]
      simp only [Finset.sum_range_succ, Finset.sum_range_zero, pb, hout]
      norm_num
  have hcost : flowCost duoMat archMesh.rows (beamLength archMesh.rows) halves =
      (1 : ℚ) / ((2 : ℚ) * transverse (duoMat.fibers[0]'(by decide)) 5) := by
    unfold flowCost
    simp only [hlen, Finset.sum_range_succ, Finset.sum_range_zero, arch_starts, n0, n1, n3, n4, l0, l1, halves]
    norm_num
    ring
  have hup := C130_step h duoMat_good archMesh_valid archMesh_lengths hc1 arch_lengths ht gauss_exact hp hC 1 b c rfl rfl
  rw [hcut, bZ, cZ] at hup
  have hlow := C132_springs h duoMat_good archMesh_valid archMesh_lengths hc1 (Or.inl rfl) arch_lengths ht gauss_exact hp hC 1 b c rfl rfl hθ
  rw [hcost, bZ, cZ, mul_one_div, le_div_iff₀ (by linarith)] at hlow
  have heq : totalForce cs.C (fun j => c.x (12 + j)) 2 - totalForce cs.C (fun j => b.x (12 + j)) 2 =
      1 / 2 * (2 * transverse (duoMat.fibers[0]'(by decide)) 5) := by
    apply le_antisymm
    · norm_num at hup ⊢
      exact hup
    · norm_num at hlow ⊢
      exact hlow
  refine ⟨S, _, stop, cs, b, c, h, hC, rfl, rfl, hθ, heq, ?_, ?_⟩
  · have := (C132_chain h duoMat_good archMesh_valid archMesh_lengths hc1 arch_lengths ht gauss_exact hp hC 1 b c rfl rfl (i := 0) (j := 1)
      ⟨_, _, rfl, rfl, rfl⟩ (by norm_num) (Or.inr ⟨(gb 0).2 (by simp), (pb 1).2 (by simp)⟩)).2 (Or.inl rfl)
    rw [bZ, cZ] at this
    norm_num at this ⊢
    exact this
  · obtain ⟨θ, h1, h2⟩ := C132_exact h duoMat_good archMesh_valid archMesh_lengths hc1 (Or.inl rfl) arch_lengths ht gauss_exact hp hC 1 b c
      rfl rfl (by
        have : 0 < totalForce cs.C (fun j => c.x (12 + j)) 2 - totalForce cs.C (fun j => b.x (12 + j)) 2 := by rw [heq]; linarith
        exact sub_pos.1 this)
    refine ⟨θ, h1, ?_⟩
    rw [bZ, cZ] at h2
    norm_num at h2 ⊢
    exact h2

/-- With coupling `1/2`: the beam from the end of the arch to its middle bounds the growth of the force from below. -/
example : ∃ (S : Sys ℚ) (recs : List (Rec ℚ)) (cs : ConstraintSys ℚ) (b c : Rec ℚ),
    solve duoMat archMesh none none (1 / 2) archOpts none = .ok (S, recs, .blocked) ∧ constraint duoMat archMesh = .ok cs ∧
    recs[1]? = some b ∧ recs[2]? = some c ∧
    3 / 4 * (1 / 2) ≤ (totalForce cs.C (fun j => c.x (12 + j)) 2 - totalForce cs.C (fun j => b.x (12 + j)) 2) *
      chainCost duoMat archMesh.rows (beamLength archMesh.rows) 0 1 := by
  obtain ⟨S, recs, h, -, hr⟩ := arch_moves
  obtain ⟨cs, hC, -, hn, hadm⟩ := arch_constraint
  obtain ⟨a, b, c, rfl⟩ := List.length_eq_three.1 (show recs.length = 3 by simpa using congrArg List.length hr)
  have hp : PermOf S.n none := by rintro p ⟨⟩
  have ht : (0 : ℚ) ≤ archOpts.tol := by norm_num [archOpts]
  have hto : archOpts.tol = 1 / 1000 := rfl
  have hc1 : |(1 / 2 : ℚ)| ≤ 1 := by rw [abs_of_pos] <;> norm_num
  simp only [List.map_cons, List.map_nil, List.cons.injEq, Prod.mk.injEq] at hr
  obtain ⟨-, ⟨bZ, hb⟩, ⟨cZ, -⟩, -⟩ := hr
  obtain ⟨pb, gb, hgap⟩ := arch_pressed (tol := archOpts.tol) ht (by rw [hto]) bZ hb
  have := (C132_chain h duoMat_good archMesh_valid archMesh_lengths hc1 arch_lengths ht (lookup_exact _) hp hC 1 b c rfl rfl (i := 0) (j := 1)
    ⟨_, _, rfl, rfl, rfl⟩ (by norm_num) (Or.inr ⟨(gb 0).2 (by simp), (pb 1).2 (by simp)⟩)).1
  rw [bZ, cZ] at this
  refine ⟨S, _, cs, b, c, h, hC, rfl, rfl, ?_⟩
  norm_num at this ⊢
  exact this

end Fibermat
