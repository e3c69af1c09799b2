import Verif.Props.Continuum
import Verif.Props.EnergyExamples

/-! # Examples for the continuous beam (C140) -/

namespace Fibermat
open Spec Real

/-- C140: a beam bent to a parabola stores no less than it must. -/
example : timoshenkoEnergy (1 : ℝ) 1 1 0 0 1 2 ≤ fieldEnergy 1 1 1 (fun s => 2 * s) (fun s => 2 * s) (fun _ => 2) := by
  refine (C140_least one_pos one_pos one_pos 0 0 1 2).2 ⟨fun s => s ^ 2, _, _, _, ⟨?_, ?_, by fun_prop, by fun_prop, by simp, by simp⟩, rfl⟩
  · intro s
    simpa using hasDerivAt_pow 2 s
  · intro s
    simpa using (hasDerivAt_id s).const_mul (2 : ℝ)

/-- C140: two crossing fibers of modulus 2; node 0 is displaced by 1. -/
example : ∃ (Km : Coo (Cell ℚ)) (M : ℕ → ℕ → ℚ) (T : ℕ → ℝ), stiffness duoMat duoMesh none none (1 : ℚ) = .ok Km ∧ Entries Km M ∧
    (∀ i f, StartsBeam duoMesh.rows i → nodeFiber duoMat duoMesh.rows i = some f → 0 ≤ T i) ∧
    npPi / π * (open Classical in ∑ i ∈ (Finset.range 6).filter (StartsBeam duoMesh.rows), T i) ≤
      ((energy 12 M (fun r => if r = 0 then 1 else 0) : ℚ) : ℝ) := by
  obtain ⟨Km, h⟩ := duo_stiffness
  obtain ⟨M, hM, -⟩ := C31_positive h duoMat_good duoMat_tensile duoMesh_lengths (by simp)
  have hlen := duo_lengths
  obtain ⟨size, -, hg⟩ := duoMat_good.size
  have hE : ∀ f ∈ duoMat.fibers, f.E = ((2 : ℚ) : WithTop ℚ) := by decide +kernel
  set u : ℕ → ℚ := fun r => if r = 0 then 1 else 0 with hu
  have hraw : ∀ i, StartsBeam duoMesh.rows i → beamLength duoMesh.rows i = 5 := by
    rintro i ⟨r, hr, hlt⟩
    have hi : i < 6 := (List.getElem?_eq_some_iff.1 hr).1
    interval_cases i <;> simp [duoMesh] at hr <;> subst hr <;> simp at hlt <;> decide +kernel
  have hb : ∀ f ∈ duoMat.fibers, f.b = 1 ∧ f.h = 1 ∧ f.G = 1 := by decide +kernel
  set T : ℕ → ℝ := fun i => timoshenkoEnergy (2 * ellipseInertia 1 1) (1 * ellipseArea 1 1) 5 (u (2 * i) : ℝ) (u (2 * i + 1) : ℝ)
    (u (2 * succNode duoMesh.rows i) : ℝ) (u (2 * succNode duoMesh.rows i + 1) : ℝ) with hT
  have hA : 0 < ellipseArea 1 1 := by rw [C139_area one_pos one_pos]; positivity
  have hI : 0 < ellipseInertia 1 1 := by rw [C139_inertia one_pos one_pos]; positivity
  refine ⟨Km, M, T, h, hM, fun i f _ _ => ?_, ?_⟩
  · simp only [hT, timoshenkoEnergy]; positivity
  · refine (C140_mat (Rat.castHom ℝ) Rat.cast_strictMono h duoMat_good duoMesh_lengths hlen (fun _ => 2) hE u M hM (T := T) ?_).1
    intro i f hi hf
    obtain ⟨h1, h2, h3⟩ := hb f (nodeFiber_mem hf)
    rw [h1, h2, h3, hraw i hi]
    simpa [hT] using C140_least (B := 2 * ellipseInertia 1 1) (S := 1 * ellipseArea 1 1) (l := 5) (by positivity) (by positivity)
      (by positivity) (u (2 * i) : ℝ) (u (2 * i + 1) : ℝ) (u (2 * succNode duoMesh.rows i) : ℝ) (u (2 * succNode duoMesh.rows i + 1) : ℝ)

/-- C140: pure bending of a fiber with `l = h` and equal moduli: 26/3 times the energy of the elliptic beam. -/
example : ∃ T : ℝ, 0 < T ∧ ((elementEnergy (⟨10, 1, 1, 0, 0, 0, 1, 0, 0, 1, (1 : ℚ)⟩ : Fiber ℚ) 1 1 0 (-1) 0 1 : ℚ) : ℝ) =
    npPi / π * (26 / 3) * T := by
  have hg : GoodFiber (10 : ℚ) ⟨10, 1, 1, 0, 0, 0, 1, 0, 0, 1, (1 : ℚ)⟩ := by
    refine ⟨?_, ?_, ?_, ?_, ?_, ?_, ?_, ?_, ?_, ?_, ?_⟩ <;> norm_num
  have hA : 0 < ellipseArea 1 1 := by rw [C139_area one_pos one_pos]; positivity
  have hI : 0 < ellipseInertia 1 1 := by rw [C139_inertia one_pos one_pos]; positivity
  have hl := C140_least (B := 1 * ellipseInertia 1 1) (S := 1 * ellipseArea 1 1) (l := 1) (by positivity) (by positivity) one_pos
    0 (-1) 0 1
  refine ⟨timoshenkoEnergy (1 * ellipseInertia 1 1) (1 * ellipseArea 1 1) 1 0 (-1) 0 1, ?_, ?_⟩
  rotate_left
  · have := C140_bending (Rat.castHom ℝ) Rat.cast_strictMono (t := 1) hg (E := 1) rfl one_pos (T := timoshenkoEnergy
      (1 * ellipseInertia 1 1) (1 * ellipseArea 1 1) 1 0 (-1) 0 1) (by simpa using hl)
    rw [show (npPi : ℝ) / π * (26 / 3) = npPi / π * (4 / 3) * (1 + 11 / (1 + 1 / 1 * (1 / 1) ^ 2)) by ring]
    simpa using this
  · unfold timoshenkoEnergy
    have : 0 < (1 ^ 3 / (12 * (1 * ellipseInertia 1 1)) + 1 / (1 * ellipseArea 1 1))⁻¹ := by positivity
    have h2 : 0 < 1 * ellipseInertia 1 1 / 1 * ((1 : ℝ) - -1) ^ 2 := by positivity
    nlinarith [mul_nonneg this.le (sq_nonneg ((0 : ℝ) - 0 - 1 * ((-1 + 1) / 2)))]

end Fibermat
