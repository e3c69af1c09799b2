import Verif.Props.Nested
import Verif.Props.RefinedExamples

/-! # Examples for nested meshes (C143) -/

namespace Fibermat
open Spec

theorem line_nested {n m : ℕ} (hn : 0 < n) (hm : 0 < m) : Nested (lineMesh n).rows (lineMesh (m * n)).rows (fun i => m * i) := by
  constructor
  · intro i j hij _
    exact (Nat.mul_lt_mul_left hm).2 hij
  · intro i r hr
    obtain ⟨hi, rfl⟩ := lineMesh_get.1 hr
    refine ⟨lineRow (m * n) (m * i), lineMesh_get.2 ⟨Nat.mul_le_mul_left m hi, rfl⟩, rfl, ?_⟩
    have h1 : (n : ℚ) ≠ 0 := by exact_mod_cast hn.ne'
    have h2 : (m : ℚ) ≠ 0 := by exact_mod_cast hm.ne'
    simp only [lineRow]
    push_cast
    field_simp

/-- C143: the fiber cut in `n` beams and in `m n` beams, bent as `t = s`: more energy on the finer mesh. -/
example (n m : ℕ) (hn : 0 < n) (hm : 1 < m) : ∃ (Km Km' : Coo (Cell ℚ)) (M M' : ℕ → ℕ → ℚ) (u : ℕ → ℚ),
    stiffness lineMat (lineMesh n) none none (1 : ℚ) = .ok Km ∧ Entries Km M ∧
    stiffness lineMat (lineMesh (m * n)) none none (1 : ℚ) = .ok Km' ∧ Entries Km' M' ∧
    (∀ i ≤ m * n, u (2 * i) = 0 ∧ u (2 * i + 1) = -5 + 10 * i / (m * n : ℕ)) ∧
    energy (2 * (lineMesh n).rows.length) M (restrictTo (fun i => m * i) u) < energy (2 * (lineMesh (m * n)).rows.length) M' u := by
  have hmn : 0 < m * n := by positivity
  obtain ⟨Km, M, -, hK, hM, -, hp, -⟩ := line_case hn
  obtain ⟨Km', M', u, hK', hM', hu, hp', -⟩ := line_case hmn
  refine ⟨Km, Km', M, M', u, hK, hM, hK', hM', hu, ?_⟩
  refine (C143_nested hK hK' lineMat_good (by intro f hf; simp [lineMat] at hf; subst hf; simp) (lineMesh_valid hn) (lineMesh_valid hmn) hp hp'
    (line_nested hn (by omega)) hM hM' u).2 ⟨0, ⟨lineRow n 0, lineRow n 1, lineMesh_get.2 ⟨by omega, rfl⟩, lineMesh_get.2 ⟨hn, rfl⟩, rfl⟩,
      by simpa using hm, ?_⟩
  rintro ⟨h1, -⟩
  have hle : m * 1 ≤ m * n := Nat.mul_le_mul_left m hn
  rw [(hu (m * 0) (by omega)).2, (hu (m * (0 + 1)) hle).2] at h1
  have h2 : ((m * n : ℕ) : ℚ) ≠ 0 := by exact_mod_cast hmn.ne'
  have h3 : (0 : ℚ) < m := by exact_mod_cast (by omega : 0 < m)
  rw [add_right_inj, div_left_inj' h2] at h1
  push_cast at h1
  linarith

/-- C143: a beam of length 10 sheared by 1 without rotation of its ends, cut in two: the energy of the two halves exceeds that of the
whole wherever the middle goes. -/
example (um tm : ℚ) : elementEnergy lineFiber 10 1 0 0 1 0 < elementEnergy lineFiber 5 1 0 0 um tm + elementEnergy lineFiber 5 1 um tm 1 0 := by
  obtain ⟨size, -, hg⟩ := lineMat_good.size
  have := (C143_split (hg lineFiber (by simp [lineMat, lineFiber])) (E := 2) rfl (by norm_num : (0 : ℚ) < 5) (by norm_num : (0 : ℚ) < 5)
    0 0 um tm 1 0).2 (by rintro ⟨-, h⟩; norm_num at h)
  norm_num at this
  exact this

end Fibermat
