import Verif.Props.Section
import Verif.Props.EnergyExamples
import Verif.Props.Vertex

/-! # Examples for the elliptic section of a fiber (C139) -/

namespace Fibermat
open Spec Real MeasureTheory

/-- C139: 3.14 is a number of two digits, hence farther from π. -/
example : |π - (npPi : ℝ)| ≤ |π - 201 / 64| := C139_pi.2 _ ⟨201, -6, by norm_num, by norm_num⟩

/-- C139: an ellipse that is a disc of radius 1. -/
example : ellipseArea 2 2 = π ∧ ellipseInertia 2 2 = π / 4 := by
  constructor
  · rw [C139_area two_pos two_pos]; ring
  · rw [C139_inertia two_pos two_pos]; ring

/-- C139: a beam of two crossing fibers of modulus 2 with circular sections of diameter 1. -/
example : ∃ Km k, stiffness duoMat duoMesh none none (1 : ℚ) = .ok Km ∧ Km.get 0 2 = .fin (-k) ∧
    ((k : ℚ) : ℝ)⁻¹ = π / npPi * (5 / ellipseArea 1 1 + 3 / 4 * (5 ^ 3 / (12 * 2 * ellipseInertia 1 1))) := by
  obtain ⟨Km, h⟩ := duo_stiffness
  obtain ⟨k, hk, -, -, hc⟩ := C139_compliance (Rat.castHom ℝ) Rat.cast_strictMono h duoMat_good duoMesh_lengths duo_lengths
    duoMesh_beam (f := duoMat.fibers[0]'(by decide)) rfl
  have hs : succNode duoMesh.rows 0 = 1 := rfl
  rw [hs] at hk
  refine ⟨Km, k, h, hk, ?_⟩
  have := hc 2 rfl
  have hl : beamLength duoMesh.rows 0 = 5 := by decide +kernel
  have hb : (duoMat.fibers[0]'(by decide)).b = 1 := rfl
  have hh : (duoMat.fibers[0]'(by decide)).h = 1 := rfl
  have hG : (duoMat.fibers[0]'(by decide)).G = 1 := rfl
  rw [hl, hb, hh, hG] at this
  simpa using this

/-- C139: its stiffness and that of the Timoshenko beam. -/
example : ∃ Km k kT, stiffness duoMat duoMesh none none (1 : ℚ) = .ok Km ∧ Km.get 0 2 = .fin (-k) ∧
    ((k : ℚ) : ℝ) < 4 / 3 * kT ∧ kT < (1 + 1 / 2 ^ 53) * (k : ℝ) := by
  obtain ⟨Km, h⟩ := duo_stiffness
  obtain ⟨k, kT, hk, -, h1, h2⟩ := C139_stiffness (Rat.castHom ℝ) Rat.cast_strictMono h duoMat_good duoMesh_lengths duo_lengths
    duoMesh_beam (f := duoMat.fibers[0]'(by decide)) rfl (E := 2) rfl
  exact ⟨Km, k, kT, h, hk, h1, h2⟩

/-- C139: the weight of a fiber of a fork. -/
example : ∃ net sys w, netNew forkMat true = .ok net ∧ stackConstraint forkMat net = .ok sys ∧ sys.lp.f[0]? = some w ∧
    ((w : ℚ) : ℝ) = npPi / π * (volume (Cylinder 10 1 1)).toReal := by
  obtain ⟨net, hn, -⟩ := C06_netNew_ok forkMat_good true
  obtain ⟨hck, ho, -⟩ := netNew_over forkMat_good hn
  have h := stackConstraint_eq (by decide +kernel) hck ho
  obtain ⟨w, hw, e⟩ := C139_weight (Rat.castHom ℝ) Rat.cast_strictMono h forkMat_good (i := 0) (f := forkMat.fibers[0]'(by decide)) rfl
  refine ⟨net, _, w, hn, h, hw, ?_⟩
  have hl : (forkMat.fibers[0]'(by decide)).l = 10 := rfl
  have hb : (forkMat.fibers[0]'(by decide)).b = 1 := rfl
  have hh : (forkMat.fibers[0]'(by decide)).h = 1 := rfl
  rw [hl, hb, hh] at e
  simpa using e

end Fibermat
