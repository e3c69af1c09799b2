import Verif.Props.Borne
import Verif.Props.LinkedExamples
import Verif.Props.DiagramExamples

/-! # Concrete cases for C136 -/

set_option linter.unusedSimpArgs false

namespace Fibermat
open Spec

/-- The two fibers of the arch and a third one that lies on the floor, apart from them. -/
def trioMat : Mat ℚ :=
  { fibers := duoMat.fibers ++ [⟨10, 1, 1, 0, 7, 1 / 2, 1, 0, 0, 1, ((2 : ℚ) : WithTop ℚ)⟩]
    attrs := { n := some 3, size := some 20, periodic := some true } }

def trioMesh : Mesh ℚ :=
  { archMesh with
    attrs := trioMat.attrs
    rows := archMesh.rows ++ [⟨2, -5, -5, 7, 1 / 2, 7, 6⟩, ⟨2, 5, 5, 7, 1 / 2, 6, 7⟩] }

theorem trioMat_good : GoodMat trioMat :=
  ((matCheck_frame_iff _).1 (by decide +kernel)).resolve_left (by simp [Skipped, trioMat])

theorem trioMesh_valid : ValidMesh trioMesh.frame :=
  ((C28_meshCheck_iff _).1 (by decide +kernel)).resolve_left (by simp [Skipped, trioMesh, trioMat, Mesh.frame])

theorem trioMesh_lengths : PositiveLengths trioMesh.rows none none := by
  refine positiveLengths_raw ?_
  rintro i ⟨r, hr, h⟩
  have hi : i < 8 := (List.getElem?_eq_some_iff.1 hr).1
  interval_cases i <;> simp [trioMesh, archMesh] at hr <;> subst hr <;> simp at h <;> decide +kernel

theorem trio_pairs {i j : ℕ} : IsPair trioMesh.rows i j ↔
    (i = 0 ∧ j = 0) ∨ (i = 1 ∧ j = 4) ∨ (i = 2 ∧ j = 2) ∨ (i = 3 ∧ j = 3) ∨ (i = 5 ∧ j = 5) ∨ (i = 6 ∧ j = 6) ∨ (i = 7 ∧ j = 7) := by
  constructor
  · rintro ⟨hij, r, hr, hc⟩
    have hi : i < 8 := (List.getElem?_eq_some_iff.1 hr).1
    interval_cases i <;> simp [trioMesh, archMesh] at hr <;> subst hr <;> simp at hc <;> omega
  · rintro (⟨rfl, rfl⟩ | ⟨rfl, rfl⟩ | ⟨rfl, rfl⟩ | ⟨rfl, rfl⟩ | ⟨rfl, rfl⟩ | ⟨rfl, rfl⟩ | ⟨rfl, rfl⟩) <;> exact ⟨by omega, _, rfl, rfl⟩

theorem trio_starts {i : ℕ} : StartsBeam trioMesh.rows i ↔ i = 0 ∨ i = 1 ∨ i = 3 ∨ i = 4 ∨ i = 6 := by
  constructor
  · rintro ⟨r, hr, hc⟩
    have hi : i < 8 := (List.getElem?_eq_some_iff.1 hr).1
    interval_cases i <;> simp [trioMesh, archMesh] at hr <;> subst hr <;> simp at hc <;> simp
  · rintro (rfl | rfl | rfl | rfl | rfl) <;> exact ⟨_, rfl, by decide⟩

set_option synthInstance.maxSize 1000 in
set_option synthInstance.maxHeartbeats 200000 in
/-- The run. -/
theorem trio_run : ∃ S recs stop, solve trioMat trioMesh none none (1 / 2) archOpts3 none = .ok (S, recs, stop) ∧
    recs.map (fun a => (a.Z, a.x 0, a.x 2, a.x 8, a.x 12, a.x 14)) =
      [(11 / 4, 0, 0, 0, 0, 0), (5 / 2, 0, 0, -1 / 4, 0, 0), (2, 0, -1 / 2, -3 / 4, 0, 0)] := by
  have hx : (solve trioMat trioMesh none none (1 / 2) archOpts3 none).toOption.map (fun r =>
      r.2.1.map (fun a => (a.Z, a.x 0, a.x 2, a.x 8, a.x 12, a.x 14))) =
      some [(11 / 4, 0, 0, 0, 0, 0), (5 / 2, 0, 0, -1 / 4, 0, 0), (2, 0, -1 / 2, -3 / 4, 0, 0)] := by
    decide +kernel
  cases h : solve trioMat trioMesh none none (1 / 2) archOpts3 none with
  | error e => rw [h] at hx; cases hx
  | ok r =>
    rw [h] at hx
    obtain ⟨S, recs, stop⟩ := r
    simp only [Except.toOption, Option.map_some, Option.some.injEq] at hx
    exact ⟨S, recs, stop, rfl, hx⟩

/-- The nodes of the first two fibers and those of the third one are whole parts. -/
theorem trio_parts (tol : ℚ) (u : ℕ → ℚ) : WholeParts trioMat trioMesh.rows tol u {0, 1, 2, 3, 4, 5} ∧
    WholeParts trioMat trioMesh.rows tol u {6, 7} := by
  have s0 : succNode trioMesh.rows 0 = 1 := rfl
  have s1 : succNode trioMesh.rows 1 = 2 := rfl
  have s3 : succNode trioMesh.rows 3 = 4 := rfl
  have s4 : succNode trioMesh.rows 4 = 5 := rfl
  have s6 : succNode trioMesh.rows 6 = 7 := rfl
  have key : ∀ {x y : ℕ}, Chained trioMat trioMesh.rows tol u x y →
      (if x < 6 then (0 : ℚ) else if x < 8 then 1 else 2) = if y < 6 then 0 else if y < 8 then 1 else 2 := by
    intro x y hl
    refine linked_const (P := fun _ => True) (fun _ _ _ => Iff.rfl) (g := fun i => if i < 6 then (0 : ℚ) else if i < 8 then 1 else 2)
      ?_ ?_ hl trivial
    · intro i hi _
      rw [trio_starts] at hi
      rcases hi with rfl | rfl | rfl | rfl | rfl <;> simp [s0, s1, s3, s4, s6]
    · intro i j hij hne hgap _
      rw [trio_pairs] at hij
      rcases hij with ⟨rfl, rfl⟩ | ⟨rfl, rfl⟩ | ⟨rfl, rfl⟩ | ⟨rfl, rfl⟩ | ⟨rfl, rfl⟩ | ⟨rfl, rfl⟩ | ⟨rfl, rfl⟩ <;> simp
  constructor <;> intro x y hl <;> have := key hl <;>
    simp only [Finset.mem_insert, Finset.mem_singleton] <;> split_ifs at this <;> first | omega | norm_num at this

/-- In the second step of the pressed arch the force of the plate on the first two fibers grows from zero, and the floor bears as much; the
third fiber, which no chain connects with the plate, is not deformed and bears no force. -/
example : ∃ (S : Sys ℚ) (recs : List (Rec ℚ)) (stop : Stop) (cs : ConstraintSys ℚ) (a b c : Rec ℚ),
    solve trioMat trioMesh none none (1 / 2) archOpts3 none = .ok (S, recs, stop) ∧ constraint trioMat trioMesh = .ok cs ∧
    recs = [a, b, c] ∧ c.x 2 = -1 / 2 ∧
    partForce cs.C (fun j => b.x (16 + j)) {0, 1, 2, 3, 4, 5} 2 < partForce cs.C (fun j => c.x (16 + j)) {0, 1, 2, 3, 4, 5} 2 ∧
    0 < partForce cs.C (fun j => c.x (16 + j)) {0, 1, 2, 3, 4, 5} 2 ∧
    partForce cs.C (fun j => c.x (16 + j)) {0, 1, 2, 3, 4, 5} 0 = partForce cs.C (fun j => c.x (16 + j)) {0, 1, 2, 3, 4, 5} 2 ∧
    partForce cs.C (fun j => c.x (16 + j)) {6, 7} 2 = 0 ∧ partForce cs.C (fun j => c.x (16 + j)) {6, 7} 0 = 0 ∧
    c.x 14 = c.x 12 ∧ c.x 13 = 0 ∧ c.x 15 = 0 ∧
    (∃ q, 3 * q + 2 < cs.C.nrows ∧ ContactRows cs.C q 6 6 ∧ c.x (16 + 3 * q) = 0 ∧ c.x (16 + (3 * q + 1)) = 0 ∧ c.x (16 + (3 * q + 2)) = 0) := by
  obtain ⟨S, recs, stop, h, hr⟩ := trio_run
  obtain ⟨Km, cs, -, hC, -⟩ := solve_run h
  obtain ⟨a, b, c, rfl⟩ := List.length_eq_three.1 (show recs.length = 3 by simpa using congrArg List.length hr)
  have hp : PermOf S.n none := by rintro p ⟨⟩
  have ht : (0 : ℚ) ≤ archOpts3.tol := by norm_num [archOpts3]
  have hto : archOpts3.tol = 0 := rfl
  have hc1 : |(1 / 2 : ℚ)| ≤ 1 := by rw [abs_of_pos] <;> norm_num
  have hst : |(1 / 2 : ℚ)| < 1 ∨ ∀ f ∈ trioMat.fibers, f.E = ⊤ := Or.inl (by rw [abs_of_pos] <;> norm_num)
  simp only [List.map_cons, List.map_nil, List.cons.injEq, Prod.mk.injEq] at hr
  obtain ⟨-, ⟨bZ, b0, b2, b8, b12, b14⟩, ⟨-, -, c2, -⟩, -⟩ := hr
  obtain ⟨pA, pB⟩ := trio_parts archOpts3.tol b.x
  have r4 : roofGap trioMat trioMesh.rows b.Z b.x 4 = b.Z - (9 / 4 + b.x 8) - 1 / 2 := rfl
  have r6 : roofGap trioMat trioMesh.rows b.Z b.x 6 = b.Z - (1 / 2 + b.x 12) - 1 / 2 := rfl
  have r7 : roofGap trioMat trioMesh.rows b.Z b.x 7 = b.Z - (1 / 2 + b.x 14) - 1 / 2 := rfl
  have f0 : floorGap trioMat trioMesh.rows b.x 0 = 1 / 2 + b.x 0 - 1 / 2 := rfl
  have p14 : pairGap trioMat trioMesh.rows b.x 1 4 = (9 / 4 + b.x 8) - (1 + b.x 2) - (1 + 1) / 2 := rfl
  have hA : ∃ i ∈ ({0, 1, 2, 3, 4, 5} : Finset ℕ), Hung trioMat trioMesh.rows archOpts3.tol b.Z b.x i ∧ Based trioMat trioMesh.rows archOpts3.tol b.x i := by
    refine ⟨1, by simp, ⟨4, ⟨1, ?_, ?_⟩, linked_pair ?_ (by norm_num) ?_⟩, ⟨0, ⟨0, ?_, ?_⟩, linked_symm (linked_beam ?_)⟩⟩
    · rw [trio_pairs]; simp
    · rw [r4, bZ, b8, hto]; norm_num
    · rw [trio_pairs]; simp
    · rw [p14, b2, b8, hto]; norm_num
    · rw [trio_pairs]; simp
    · rw [f0, b0, hto]; norm_num
    · rw [trio_starts]; simp
  have hB : ∀ i ∈ ({6, 7} : Finset ℕ), ¬ Hung trioMat trioMesh.rows archOpts3.tol b.Z b.x i := by
    rintro i hi ⟨n, ⟨j, hj, hg⟩, hl⟩
    rw [pB i n hl] at hi
    simp only [Finset.mem_insert, Finset.mem_singleton] at hi
    rcases hi with rfl | rfl
    · rw [r6, bZ, b12, hto] at hg; norm_num at hg
    · rw [r7, bZ, b14, hto] at hg; norm_num at hg
  obtain ⟨A1, A2, A3⟩ := C136_parts h trioMat_good trioMesh_valid trioMesh_lengths hc1 hst ht gauss_exact hp hC 1 b c rfl rfl _ pA
  obtain ⟨B1, B2, B3⟩ := C136_parts h trioMat_good trioMesh_valid trioMesh_lengths hc1 hst ht gauss_exact hp hC 1 b c rfl rfl _ pB
  have hB0 : partForce cs.C (fun j => c.x (16 + j)) {6, 7} 2 = 0 :=
    le_antisymm (not_lt.1 (mt B3.1 (fun ⟨i, hi, hh, _⟩ => hB i hi hh))) B2
  obtain ⟨u1, u2, u3⟩ := C136_undeformed h trioMat_good trioMesh_valid trioMesh_lengths hc1 hst ht gauss_exact hp 1 b c rfl rfl (i := 6)
    (by rw [trio_starts]; simp) (fun hh => hB 6 (by simp) hh.1)
  obtain ⟨q, hq, hrow⟩ := C127_rows hC (i := 6) (j := 6) (by rw [trio_pairs]; simp)
  obtain ⟨w0, w1, w2⟩ := C136_borne h trioMat_good trioMesh_valid trioMesh_lengths hc1 hst ht gauss_exact hp hC 1 b c rfl rfl hrow
  refine ⟨S, _, stop, cs, a, b, c, h, hC, rfl, c2,
    (C136_grows h trioMat_good trioMesh_valid trioMesh_lengths hc1 hst ht gauss_exact hp hC 1 b c rfl rfl _ pA).2.2 hA, A3.2 hA, A1, hB0,
    B1.trans hB0, u1, u2, u3, q, hq, hrow, ?_, ?_, ?_⟩
  · by_contra hne; exact hB 6 (by simp) (w0 hne).1
  · by_contra hne; exact hB 6 (by simp) (w1 hne).2.1
  · by_contra hne; exact hB 6 (by simp) (w2 hne).1

end Fibermat
