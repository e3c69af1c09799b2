import Verif.Props.Linked
import Verif.Props.FlowExamples

/-! # Concrete cases for C134 -/

set_option linter.unusedSimpArgs false

namespace Fibermat
open Spec

/-- At the start of the pressed arch no chain connects the plates: the fiber below lies on the floor with its ends, the fiber above
hangs on the plate, and the gap between them is open. -/
theorem arch_apart {u : ℕ → ℚ} (hu : (List.range 6).map (fun i => u (2 * i)) = [0, 0, 0, 0, 0, 0]) :
    ¬ Bridged duoMat archMesh.rows (1 / 1000) (11 / 4) u ∧ Hung duoMat archMesh.rows (1 / 1000) (11 / 4) u 4 ∧
    Based duoMat archMesh.rows (1 / 1000) u 1 := by
  have hrng : List.range 6 = [0, 1, 2, 3, 4, 5] := rfl
  simp only [hrng, List.map_cons, List.map_nil, List.cons.injEq] at hu
  obtain ⟨b0, b1, b2, b3, b4, b5, -⟩ := hu
  norm_num at b0 b1 b2 b3 b4 b5
  obtain ⟨r0, r4, r2, r3, r5, p⟩ := arch_roof (11 / 4) u
  have f0 : floorGap duoMat archMesh.rows u 0 = 1 / 2 + u 0 - 1 / 2 := rfl
  have f1 : floorGap duoMat archMesh.rows u 1 = 1 + u 2 - 1 / 2 := rfl
  have f3 : floorGap duoMat archMesh.rows u 3 = 9 / 4 + u 6 - 1 / 2 := rfl
  have f5 : floorGap duoMat archMesh.rows u 5 = 9 / 4 + u 10 - 1 / 2 := rfl
  have s0 : succNode archMesh.rows 0 = 1 := rfl
  have s1 : succNode archMesh.rows 1 = 2 := rfl
  have s3 : succNode archMesh.rows 3 = 4 := rfl
  have s4 : succNode archMesh.rows 4 = 5 := rfl
  refine ⟨?_, ?_, ?_⟩
  · rintro ⟨m, ⟨n, ⟨i, hi, hg⟩, hn⟩, ⟨n', ⟨j, hj, hg'⟩, hn'⟩⟩
    have key : ∀ {x y : ℕ}, Chained duoMat archMesh.rows (1 / 1000) u x y → (if x ≤ 2 then (0 : ℚ) else 1) = if y ≤ 2 then 0 else 1 := by
      intro x y hl
      refine linked_const (P := fun _ => True) (fun _ _ _ => Iff.rfl) (g := fun i => if i ≤ 2 then (0 : ℚ) else 1) ?_ ?_ hl trivial
      · intro i hi _
        rw [arch_starts] at hi
        rcases hi with rfl | rfl | rfl | rfl <;> simp [s0, s1, s3, s4]
      · intro i j hij hne hgap _
        rw [arch_pairs] at hij
        rcases hij with ⟨rfl, rfl⟩ | ⟨rfl, rfl⟩ | ⟨rfl, rfl⟩ | ⟨rfl, rfl⟩ | ⟨rfl, rfl⟩
        · exact absurd rfl hne
        · rw [p, b1, b4] at hgap; norm_num at hgap
        · exact absurd rfl hne
        · exact absurd rfl hne
        · exact absurd rfl hne
    have h1 := (key hn).symm.trans (key hn')
    rw [arch_pairs] at hi hj
    have hn1 : ¬ n ≤ 2 := by
      rcases hi with ⟨rfl, rfl⟩ | ⟨rfl, rfl⟩ | ⟨rfl, rfl⟩ | ⟨rfl, rfl⟩ | ⟨rfl, rfl⟩
      · rw [r0, b0] at hg; norm_num at hg
      · omega
      · rw [r2, b2] at hg; norm_num at hg
      · omega
      · omega
    have hn2 : n' ≤ 2 := by
      rcases hj with ⟨rfl, rfl⟩ | ⟨rfl, rfl⟩ | ⟨rfl, rfl⟩ | ⟨rfl, rfl⟩ | ⟨rfl, rfl⟩
      · omega
      · omega
      · omega
      · rw [f3, b3] at hg'; norm_num at hg'
      · rw [f5, b5] at hg'; norm_num at hg'
    rw [if_neg hn1, if_pos hn2] at h1
    norm_num at h1
  · refine ⟨4, ⟨1, ?_, ?_⟩, Relation.ReflTransGen.refl⟩
    · rw [arch_pairs]; simp
    · rw [r4, b4]; norm_num
  · refine ⟨0, ⟨0, ?_, ?_⟩, linked_symm (linked_beam ?_)⟩
    · rw [arch_pairs]; simp
    · rw [f0, b0]; norm_num
    · rw [arch_starts]; simp

/-- In the state of the second record the chain floor, node 0, node 1, node 4, plate connects the plates. -/
theorem arch_bridged {tol Z : ℚ} {u : ℕ → ℚ} (h0 : 0 ≤ tol) (h1 : tol ≤ 1 / 1000) (hZ : Z = 5 / 2)
    (hu : (List.range 6).map (fun i => u (2 * i)) = [0, 0, 0, -1 / 4, -1 / 4, -1 / 4]) :
    Bridged duoMat archMesh.rows tol Z u := by
  obtain ⟨-, -, hgap⟩ := arch_pressed h0 h1 hZ hu
  have hrng : List.range 6 = [0, 1, 2, 3, 4, 5] := rfl
  simp only [hrng, List.map_cons, List.map_nil, List.cons.injEq] at hu
  obtain ⟨b0, b1, b2, b3, b4, b5, -⟩ := hu
  norm_num at b0 b1 b2 b3 b4 b5
  obtain ⟨r0, r4, r2, r3, r5, p⟩ := arch_roof Z u
  have f0 : floorGap duoMat archMesh.rows u 0 = 1 / 2 + u 0 - 1 / 2 := rfl
  refine ⟨1, ⟨4, ⟨1, ?_, ?_⟩, linked_pair ?_ (by norm_num) hgap⟩, ⟨0, ⟨0, ?_, ?_⟩, linked_symm (linked_beam ?_)⟩⟩
  · rw [arch_pairs]; simp
  · rw [r4, hZ, b4]; norm_num; exact h0
  · rw [arch_pairs]; simp
  · rw [arch_pairs]; simp
  · rw [f0, b0]; norm_num; exact h0
  · rw [arch_starts]; simp

/-- The pressed arch: in the first step no chain connects the plates; the force stays zero, the fiber above goes down with the plate and
the fiber below stays at rest. In the second step a chain connects them and the force grows. -/
example : ∃ (S : Sys ℚ) (recs : List (Rec ℚ)) (cs : ConstraintSys ℚ) (a b c : Rec ℚ),
    solve duoMat archMesh none none (1 / 2) archOpts none = .ok (S, recs, .blocked) ∧ constraint duoMat archMesh = .ok cs ∧
    recs = [a, b, c] ∧
    ¬ Bridged duoMat archMesh.rows archOpts.tol a.Z a.x ∧ Bridged duoMat archMesh.rows archOpts.tol b.Z b.x ∧
    totalForce cs.C (fun j => b.x (12 + j)) 2 = totalForce cs.C (fun j => a.x (12 + j)) 2 ∧
    totalForce cs.C (fun j => b.x (12 + j)) 2 < totalForce cs.C (fun j => c.x (12 + j)) 2 ∧
    0 < totalForce cs.C (fun j => c.x (12 + j)) 2 ∧
    b.x 2 = a.x 2 ∧ b.x 3 = a.x 3 ∧ b.x 8 - a.x 8 = b.Z - a.Z ∧ b.x 9 = a.x 9 := by
  obtain ⟨S, recs, h, -, hr⟩ := arch_moves
  obtain ⟨cs, hC, -, hn, hadm⟩ := arch_constraint
  obtain ⟨a, b, c, rfl⟩ := List.length_eq_three.1 (show recs.length = 3 by simpa using congrArg List.length hr)
  have hp : PermOf S.n none := by rintro p ⟨⟩
  have ht : (0 : ℚ) ≤ archOpts.tol := by norm_num [archOpts]
  have hto : archOpts.tol = 1 / 1000 := rfl
  have hc1 : |(1 / 2 : ℚ)| ≤ 1 := by rw [abs_of_pos] <;> norm_num
  have hst : |(1 / 2 : ℚ)| < 1 ∨ ∀ f ∈ duoMat.fibers, f.E = ⊤ := Or.inl (by rw [abs_of_pos] <;> norm_num)
  simp only [List.map_cons, List.map_nil, List.cons.injEq, Prod.mk.injEq] at hr
  obtain ⟨⟨aZ, ha⟩, ⟨bZ, hb⟩, ⟨cZ, -⟩, -⟩ := hr
  obtain ⟨hapart, hhung, hbased⟩ := arch_apart ha
  rw [← aZ, ← hto] at hapart hhung
  rw [← hto] at hbased
  have hbr := arch_bridged (tol := archOpts.tol) ht (by rw [hto]) bZ hb
  have st1 : OnBeam archMesh.rows 1 := Or.inl (by rw [arch_starts]; simp)
  have st4 : OnBeam archMesh.rows 4 := Or.inl (by rw [arch_starts]; simp)
  obtain ⟨y1, y2⟩ := C134_still h duoMat_good archMesh_valid archMesh_lengths hc1 arch_lengths ht (lookup_exact _) hp hst 0 a b rfl rfl 1
    hbased (fun hh => hapart ⟨1, hh, hbased⟩)
  obtain ⟨z1, z2⟩ := C134_carried h duoMat_good archMesh_valid archMesh_lengths hc1 arch_lengths ht (lookup_exact _) hp hst 0 a b rfl rfl 4
    hhung (fun hh => hapart ⟨4, hhung, hh⟩)
  refine ⟨S, _, cs, a, b, c, h, hC, rfl, hapart, hbr, ?_, ?_, ?_, y1, y2 st1, z1, z2 st4⟩
  · exact C134_free h duoMat_good archMesh_valid archMesh_lengths hc1 arch_lengths ht (lookup_exact _) hp hC 0 a b rfl rfl hapart
  · exact (C134_grows h duoMat_good archMesh_valid archMesh_lengths hc1 arch_lengths ht (lookup_exact _) hp hst hC 1 b c rfl rfl).2 hbr
  · exact (C134_first h duoMat_good archMesh_valid archMesh_lengths hc1 arch_lengths ht (lookup_exact _) hp hst hC 2 c rfl).2
      ⟨1, b, by omega, rfl, hbr⟩

end Fibermat
