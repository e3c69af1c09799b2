import Verif.Props.Curve
import Verif.Props.BoundExamples

/-! # Concrete cases for C133 -/

set_option linter.unusedSimpArgs false

namespace Fibermat
open Spec

/-- The pressed arch: the plate first comes down without force, then presses the arch. The curve of the three records stays at 0
until thickness `5/2`. Sampled at two points only (`interp_size=2`) it is a straight line: at thickness `5/2` it shows a third of the
final force, and the area below it is `3/2` times the elastic energy. -/
example : ∃ (S : Sys ℚ) (recs : List (Rec ℚ)) (cs : ConstraintSys ℚ) (c : Rec ℚ),
    solve duoMat archMesh none none (1 / 2) archOpts none = .ok (S, recs, .blocked) ∧ constraint duoMat archMesh = .ok cs ∧
    recs[recs.length - 1]? = some c ∧
    heightAt recs (some 2) (1 / 3) = 5 / 2 ∧ heightAt recs none (1 / 2) = 5 / 2 ∧
    forceAt cs.C 12 recs none (1 / 2) = 0 ∧ 0 < forceAt cs.C 12 recs (some 2) (1 / 3) ∧
    forceAt cs.C 12 recs none (1 / 2) ≤ forceAt cs.C 12 recs (some 2) (1 / 3) ∧
    heightAt recs (some 2) 1 < heightAt recs (some 2) (1 / 3) ∧
    (heightAt recs none 0 - heightAt recs none 1) * forceAt cs.C 12 recs none (1 / 2) ≤
      (heightAt recs none (1 / 2) - heightAt recs none 1) * forceAt cs.C 12 recs none 0 +
      (heightAt recs none 0 - heightAt recs none (1 / 2)) * forceAt cs.C 12 recs none 1 ∧
    elasticEnergy duoMat archMesh.rows (1 / 2) (beamLength archMesh.rows) c.x = 1 / 2 * forceAt cs.C 12 recs none 1 ∧
    twiceArea (fun k => heightAt recs (some 2) ((k : ℚ) / (((2 : ℕ) : ℚ) - 1))) (fun k => forceAt cs.C 12 recs (some 2) ((k : ℚ) / (((2 : ℕ) : ℚ) - 1))) 1 =
      3 / 4 * forceAt cs.C 12 recs none 1 ∧
    elasticEnergy duoMat archMesh.rows (1 / 2) (beamLength archMesh.rows) c.x ≤
      twiceArea (fun k => heightAt recs (some 2) ((k : ℚ) / (((2 : ℕ) : ℚ) - 1))) (fun k => forceAt cs.C 12 recs (some 2) ((k : ℚ) / (((2 : ℕ) : ℚ) - 1))) 1 := by
  obtain ⟨S, recs, h, hr⟩ := arch_forces
  obtain ⟨cs, hC, -, hn, hadm⟩ := arch_constraint
  have hp : PermOf S.n none := by rintro p ⟨⟩
  have ht : (0 : ℚ) ≤ archOpts.tol := by norm_num [archOpts]
  have hc1 : |(1 / 2 : ℚ)| ≤ 1 := by rw [abs_of_pos] <;> norm_num
  have hlen : recs.length = 3 := by simpa using congrArg List.length hr
  have hZ : recs.map (·.Z) = [11 / 4, 5 / 2, 2] := by
    have := congrArg (List.map Prod.fst) hr
    simpa [List.map_map, Function.comp_def] using this
  obtain ⟨f, hf, hF⟩ : ∃ f : ℚ, 0 < f ∧ recs.map (recForce cs.C 12) = [0, 0, f] := by
    obtain ⟨a, b, c, rfl⟩ := List.length_eq_three.1 hlen
    have hrng : List.range 15 = [0, 1, 2, 3, 4, 5, 6, 7, 8, 9, 10, 11, 12, 13, 14] := rfl
    simp only [List.map_cons, List.map_nil, hrng, List.cons.injEq, Prod.mk.injEq] at hr
    obtain ⟨⟨aZ, ha⟩, ⟨bZ, hb⟩, ⟨cZ, hc⟩, -⟩ := hr
    have h0 : recForce cs.C 12 a = 0 := by
      unfold recForce totalForce
      rw [hn]
      simp [Finset.sum_range_succ, ha]
    have h1 : recForce cs.C 12 b = 0 := by
      unfold recForce totalForce
      rw [hn]
      simp [Finset.sum_range_succ, hb]
    refine ⟨recForce cs.C 12 c, ?_, by simp [h0, h1]⟩
    unfold recForce totalForce
    rw [hn]
    simp [Finset.sum_range_succ, hc]
  have force : ∀ (size : Option ℕ) (_ : ∀ k, size = some k → 2 ≤ k) (t : ℚ), 0 ≤ t → t ≤ 1 →
      forceAt cs.C 12 recs size t = f * interpolate .linear [0, 0, 1] size t := by
    intro size hs t h0 h1
    rw [forceAt_eq (by omega) size hs h0 h1, hF]
    obtain ⟨w, w0, w1, hw⟩ := C52_weights (K := ℚ) .linear (n := 3) (by norm_num) size hs h0 h1
    rw [hw _ rfl, hw _ rfl]
    simp [Finset.sum_range_succ]
    ring
  have n0 : ∀ k, (none : Option ℕ) = some k → 2 ≤ k := by rintro k ⟨⟩
  have n2 : ∀ k, some 2 = some k → 2 ≤ k := by rintro k ⟨⟩; exact le_rfl
  have v1 : interpolate .linear [0, 0, 1] none (1 / 2 : ℚ) = 0 := by decide +kernel
  have v2 : interpolate .linear [0, 0, 1] (some 2) (1 / 3 : ℚ) = 1 / 3 := by decide +kernel
  have v3 : interpolate .linear [0, 0, 1] none (1 : ℚ) = 1 := by decide +kernel
  have v4 : interpolate .linear [0, 0, 1] (some 2) (0 : ℚ) = 0 := by decide +kernel
  have v5 : interpolate .linear [0, 0, 1] (some 2) (1 : ℚ) = 1 := by decide +kernel
  have z1 : heightAt recs (some 2) (1 / 3) = 5 / 2 := by unfold heightAt; rw [hZ]; decide +kernel
  have z2 : heightAt recs none (1 / 2) = 5 / 2 := by unfold heightAt; rw [hZ]; decide +kernel
  have z3 : heightAt recs (some 2) 0 = 11 / 4 := by unfold heightAt; rw [hZ]; decide +kernel
  have z4 : heightAt recs (some 2) 1 = 2 := by unfold heightAt; rw [hZ]; decide +kernel
  have z5 : heightAt recs none 0 = 11 / 4 := by unfold heightAt; rw [hZ]; decide +kernel
  have z6 : heightAt recs none 1 = 2 := by unfold heightAt; rw [hZ]; decide +kernel
  have harea2 : twiceArea (fun k => heightAt recs (some 2) ((k : ℚ) / (((2 : ℕ) : ℚ) - 1)))
      (fun k => forceAt cs.C 12 recs (some 2) ((k : ℚ) / (((2 : ℕ) : ℚ) - 1))) 1 = 3 / 4 * forceAt cs.C 12 recs none 1 := by
    unfold twiceArea
    rw [Finset.sum_range_one]
    norm_num
    rw [force _ n2 0 le_rfl zero_le_one, force _ n2 1 zero_le_one le_rfl, force _ n0 1 zero_le_one le_rfl, v3, v4, v5, z3, z4]
    ring
  have hc : recs[recs.length - 1]? = some (recs[recs.length - 1]'(by omega)) := List.getElem?_eq_getElem _
  have hle := C133_area h duoMat_good archMesh_lengths hc1 ht (lookup_exact _) hp hC arch_lengths (by omega) (some 2) n2 _ hc
  have heq := (C133_area h duoMat_good archMesh_lengths hc1 ht (lookup_exact _) hp hC arch_lengths (by omega) none n0 _ hc).2 rfl
  have hab := C133_above h duoMat_good archMesh_lengths hc1 ht (lookup_exact _) hp hC (by omega) (some 2) n2 (t := 1 / 3) (s := 1 / 2) (by norm_num)
    (by norm_num) (by norm_num) (by norm_num) (by rw [z1, z2])
  have hmo := (C133_monotone h duoMat_good archMesh_lengths hc1 ht (lookup_exact _) hp hC (by omega) (some 2) n2 (t := 1 / 3) (s := 1) (by norm_num)
    (by norm_num) le_rfl).1
  have hcv := C133_convex h duoMat_good archMesh_lengths hc1 ht (lookup_exact _) hp hC (by omega) none n0 (t1 := 0) (t2 := 1 / 2) (t3 := 1) le_rfl
    (by norm_num) (by norm_num) le_rfl
  refine ⟨S, recs, cs, _, h, hC, hc, z1, z2, ?_, ?_, hab, hmo, hcv, ?_, harea2, hle.1⟩
  · rw [force _ n0 _ (by norm_num) (by norm_num), v1, mul_zero]
  · rw [force _ n2 _ (by norm_num) (by norm_num), v2]
    linarith
  · rw [heq]
    unfold twiceArea
    simp only [Option.getD_none, hlen, Finset.sum_range_succ, Finset.sum_range_zero]
    norm_num
    change (forceAt cs.C 12 recs none 0 + forceAt cs.C 12 recs none (1 / 2)) * _ + (forceAt cs.C 12 recs none (1 / 2) + forceAt cs.C 12 recs none 1) * _ = _
    rw [force _ n0 0 le_rfl zero_le_one, force _ n0 1 zero_le_one le_rfl, force _ n0 (1 / 2) (by norm_num) (by norm_num), v1, v3, z5, z6, z2,
      show interpolate .linear [0, 0, 1] none (0 : ℚ) = 0 by decide +kernel]
    ring

end Fibermat
