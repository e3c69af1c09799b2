import Verif.Props.Body
import Verif.Props.DiagramExamples

/-! # Examples for the force of the plate and continuous beams (C141) -/

namespace Fibermat
open Spec Real

/-- C141: an arch pressed in its middle; the force of the plate in the last step against that of continuous beams with elliptic
sections. -/
example : ∃ (S : Sys ℚ) (recs : List (Rec ℚ)) (stop : Stop) (cs : ConstraintSys ℚ) (a b : Rec ℚ) (L v : ℕ → ℚ) (w t w' t' : ℕ → ℝ → ℝ),
    solve duoMat archMesh none none 1 archOpts3 none = .ok (S, recs, stop) ∧ constraint duoMat archMesh = .ok cs ∧
    recs[1]? = some a ∧ recs[2]? = some b ∧ a.Z = 5 / 2 ∧ b.Z = 2 ∧ Follows duoMat archMesh.rows 0 a.Z a.x v ∧
    MatField (Rat.castHom ℝ) archMesh.rows L v w t w' t' ∧
    npPi / π * matFieldEnergy (Rat.castHom ℝ) duoMat archMesh.rows L (fun _ => 2) t w' t' ≤
      (((totalForce cs.C (fun j => b.x (12 + j)) 2 - totalForce cs.C (fun j => a.x (12 + j)) 2) / (a.Z - b.Z) : ℚ) : ℝ) ∧
    (((totalForce cs.C (fun j => b.x (12 + j)) 2 - totalForce cs.C (fun j => a.x (12 + j)) 2) / (a.Z - b.Z) : ℚ) : ℝ) ≤
      16 * (npPi / π * matFieldEnergy (Rat.castHom ℝ) duoMat archMesh.rows L (fun _ => 2) t w' t') := by
  obtain ⟨S, recs, stop, hs, hm⟩ := arch_bend
  obtain ⟨a0, a, b, rfl⟩ := List.length_eq_three.1 (show recs.length = 3 by have := congrArg List.length hm; simpa using this)
  simp only [List.map_cons, List.map_nil, List.cons.injEq, Prod.mk.injEq] at hm
  obtain ⟨-, ⟨hZa, -⟩, ⟨hZ, -⟩, -⟩ := hm
  obtain ⟨Km, cs, hK, hC, -, -⟩ := solve_run hs
  obtain ⟨-, ⟨L, hL⟩, -, hraw⟩ := C65_lengths hK
  have hpl : PositiveLengths archMesh.rows none none := by
    refine positiveLengths_raw ?_
    rintro i ⟨r, hr, h⟩
    have hi : i < 6 := (List.getElem?_eq_some_iff.1 hr).1
    interval_cases i <;> simp [archMesh] at hr <;> subst hr <;> simp at h <;> decide +kernel
  have hperm : PermOf S.n none := by rintro p ⟨⟩
  have hE : ∀ f ∈ duoMat.fibers, f.E = ((2 : ℚ) : WithTop ℚ) := by decide +kernel
  obtain ⟨v, w, t, w', t', hfol, hF, hlo⟩ := C141_lower (Rat.castHom ℝ) Rat.cast_strictMono hs duoMat_good archMesh_valid hpl zero_le_one
    le_rfl hL le_rfl gauss_exact hperm hC (fun _ => 2) hE 1 a b rfl rfl
  have hup := C141_upper (Rat.castHom ℝ) Rat.cast_strictMono hs duoMat_good archMesh_valid hpl hL le_rfl gauss_exact hperm hC
    (fun _ => 2) hE 1 a b rfl rfl v w t w' t' hfol hF
  rw [map_one, one_mul] at hlo
  exact ⟨S, _, stop, cs, a, b, L, v, w, t, w', t', hs, hC, rfl, rfl, hZa, hZ, hfol, hF, hlo, hup⟩

end Fibermat
