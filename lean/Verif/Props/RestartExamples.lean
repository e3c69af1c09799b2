import Verif.Props.Restart
import Verif.Props.PlateExamples

/-! # Concrete cases of C131 -/

namespace Fibermat
open Spec

/-- The pressed arch, started again from its second record: the last step of the run. -/
example : ∃ (S S' : Sys ℚ) (recs recs' : List (Rec ℚ)) (a : Rec ℚ),
    solve duoMat archMesh none none (1 / 2) archOpts none = .ok (S, recs, .blocked) ∧ recs[1]? = some a ∧
    solve duoMat (archMesh.deform a.x) none none (1 / 2) { archOpts with itermax := archOpts.itermax - 1 } none = .ok (S', recs', .blocked) ∧
    recs'.map (fun b => (b.Z, b.x 2, b.x 8)) = [(5 / 2, 0, 0), (2, -1 / 2, -1 / 2)] := by
  obtain ⟨S, recs, h, hr⟩ := arch_middle
  obtain ⟨cs, hC, -, hn, hadm⟩ := arch_constraint
  obtain ⟨a, b, c, rfl⟩ : ∃ a b c, recs = [a, b, c] := List.length_eq_three.1 (by simpa using congrArg List.length hr)
  simp only [List.map_cons, List.map_nil, List.cons.injEq, Prod.mk.injEq, and_true] at hr
  obtain ⟨-, hb, hc⟩ := hr
  obtain ⟨S', recs', h', -, hZ, hl, hall⟩ := C131_restart (o' := { archOpts with itermax := archOpts.itermax - 1 }) h duoMat_good
    archMesh_lengths (by norm_num [archOpts]) (lookup_exact _) (by rintro p ⟨⟩) hC hadm archMesh_valid (k := 1) (a := b) rfl
    ⟨rfl, rfl, rfl, by simp [archOpts], Or.inl ⟨rfl, rfl⟩⟩
  refine ⟨S, S', _, recs', b, h, rfl, h', ?_⟩
  obtain ⟨b', c', rfl⟩ : ∃ b' c', recs' = [b', c'] := List.length_eq_two.1 (by simpa using hl)
  obtain ⟨b1, b2, -⟩ := hall 0 b b' rfl rfl
  obtain ⟨c1, c2, -⟩ := hall 1 c c' rfl rfl
  simp only [List.map_cons, List.map_nil, b1, b2, c1, c2, hb.1, hb.2.1, hb.2.2, hc.1, hc.2.1, hc.2.2]
  norm_num

set_option synthInstance.maxSize 1000 in
set_option synthInstance.maxHeartbeats 200000 in
/-- The arch pressed to a packing of 6/5. -/
theorem arch_target : ∃ S recs, solve duoMat archMesh none none (1 / 2) { archOpts with packing := .fin (6 / 5) } none = .ok (S, recs, .reached) ∧
    recs.map (fun a => (a.Z, a.rlambda)) = [(11 / 4, .fin 1), (5 / 2, .fin (11 / 10)), (2, .fin (11 / 8))] ∧ S.Z0 = 11 / 4 := by
  have hx : (solve duoMat archMesh none none (1 / 2) { archOpts with packing := .fin (6 / 5) } none).toOption.map (fun r =>
      (r.2.1.map (fun a => (a.Z, a.rlambda)), r.2.2, r.1.Z0)) = some (
      [(11 / 4, .fin 1), (5 / 2, .fin (11 / 10)), (2, .fin (11 / 8))], .reached, 11 / 4) := by
    decide +kernel
  cases h : solve duoMat archMesh none none (1 / 2) { archOpts with packing := .fin (6 / 5) } none with
  | error e => rw [h] at hx; cases hx
  | ok r =>
    rw [h] at hx
    obtain ⟨S, recs, stop⟩ := r
    simp only [Except.toOption, Option.map_some, Option.some.injEq, Prod.mk.injEq] at hx
    obtain ⟨h1, rfl, h2⟩ := hx
    exact ⟨S, recs, rfl, h1, h2⟩

/-- Started again from the second record with the target that is left, `6/5 · (5/2)/(11/4) = 12/11`, the run does the last step and
reaches the target. -/
example : ∃ (S S' : Sys ℚ) (recs recs' : List (Rec ℚ)) (a : Rec ℚ),
    solve duoMat archMesh none none (1 / 2) { archOpts with packing := .fin (6 / 5) } none = .ok (S, recs, .reached) ∧ recs[1]? = some a ∧
    solve duoMat (archMesh.deform a.x) none none (1 / 2) { archOpts with packing := .fin (12 / 11), itermax := archOpts.itermax - 1 } none =
      .ok (S', recs', .reached) ∧ recs'.map (fun b => b.Z) = [5 / 2, 2] := by
  obtain ⟨S, recs, h, hr, hZ0⟩ := arch_target
  obtain ⟨cs, hC, -, hn, hadm⟩ := arch_constraint
  obtain ⟨a, b, c, rfl⟩ : ∃ a b c, recs = [a, b, c] := List.length_eq_three.1 (by simpa using congrArg List.length hr)
  simp only [List.map_cons, List.map_nil, List.cons.injEq, Prod.mk.injEq, and_true] at hr
  obtain ⟨-, hb, hc⟩ := hr
  obtain ⟨S', recs', h', -, hZ, hl, hall⟩ := C131_restart (o' := { archOpts with packing := .fin (12 / 11), itermax := archOpts.itermax - 1 })
    h duoMat_good archMesh_lengths (by norm_num [archOpts]) (lookup_exact _) (by rintro p ⟨⟩) hC hadm archMesh_valid (k := 1) (a := b) rfl
    ⟨rfl, rfl, rfl, by simp [archOpts], Or.inr ⟨6 / 5, rfl, by rw [hb.1, hZ0]; norm_num⟩⟩
  refine ⟨S, S', _, recs', b, h, rfl, h', ?_⟩
  obtain ⟨b', c', rfl⟩ : ∃ b' c', recs' = [b', c'] := List.length_eq_two.1 (by simpa using hl)
  simp only [List.map_cons, List.map_nil, (hall 0 b b' rfl rfl).1, (hall 1 c c' rfl rfl).1, hb.1, hc.1]

/-- C131: the deformed shape of the arch in two runs. -/
example {x y z : ℕ → ℚ} (hz : ∀ r, z r = y r - x r) : (archMesh.deform x).deform z = archMesh.deform y := C131_shape hz

end Fibermat
