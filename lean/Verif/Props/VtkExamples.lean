import Verif.Props.Vtk
import Verif.Props.PipelineExamples
import Mathlib.Analysis.Real.Sqrt
import Mathlib.Data.Rat.Sqrt

/-! # Concrete cases of C90 -/

namespace Fibermat
open Spec

theorem ratSqrt_root : SquareRoot Rat.sqrt := Rat.sqrt_eq

theorem realSqrt_root : SquareRoot Real.sqrt := Real.sqrt_mul_self_eq_abs

theorem real_square (a : ℝ) (h : 0 ≤ a) : IsSquare a := ⟨√a, (Real.mul_self_sqrt h).symm⟩

/-- A nearest node exists. -/
theorem exists_nearest : ∃ nearest : List ℚ → ℚ → ℕ, ∀ (s : List ℚ) (x : ℚ), s ≠ [] → Nearest s x (nearest s x) := by
  have : ∀ (s : List ℚ) (x : ℚ), ∃ k, s ≠ [] → Nearest s x k := by
    intro s x
    by_cases hs : s = []
    · exact ⟨0, fun h => absurd hs h⟩
    · have hl := List.length_pos_iff.2 hs
      obtain ⟨k, hk, hmin⟩ := Finset.exists_min_image (Finset.range s.length) (fun i => |s.getD i 0 - x|)
        ⟨0, Finset.mem_range.2 hl⟩
      exact ⟨k, fun _ => ⟨Finset.mem_range.1 hk, fun j hj => hmin j (Finset.mem_range.2 hj)⟩⟩
  choose f hf using this
  exact ⟨f, hf⟩

/-- The corners of the unit box. -/
def corners : List (ℚ × ℚ × ℚ) :=
  [(-(1 / 2), -(1 / 2), -(1 / 2)), (-(1 / 2), 1 / 2, 1 / 2), (1 / 2, -(1 / 2), 1 / 2), (1 / 2, 1 / 2, -(1 / 2))]

theorem corners_box : ∀ t ∈ corners, InUnitBox t := by
  simp only [corners, List.mem_cons, List.not_mem_nil, or_false, InUnitBox]
  rintro t (rfl | rfl | rfl | rfl) <;> norm_num [abs_of_neg]

/-- C90_flat: a fiber of length 10 along (3, 4) (normed). -/
example : (vtkFiber Rat.sqrt corners 10 2 1 1 2 3 (3 / 5) (4 / 5) 0 1 ⊤ 7).map (fun p => (p.fiber, p.xyz, p.pos)) =
    [(7, (-5, -1, -(1 / 2)), (-(6 / 5), -(13 / 5), 5 / 2)), (7, (-5, 1, 1 / 2), (-(14 / 5), -(7 / 5), 7 / 2)),
     (7, (5, -1, 1 / 2), (24 / 5, 27 / 5, 7 / 2)), (7, (5, 1, -(1 / 2)), (16 / 5, 33 / 5, 5 / 2))] := by
  decide +kernel

example : (3 / 5 : ℚ) * (3 / 5) + (4 / 5) * (4 / 5) = 1 ∧ (0 : ℚ) < 1 := by norm_num

/-- C90_rigid: a tilted fiber, in real numbers. -/
example (cyl : List (ℝ × ℝ × ℝ)) : ∃ (n : ℝ) (o : ℝ × ℝ × ℝ), 0 < n ∧ n ^ 2 = 14 ∧
    ∀ p ∈ vtkFiber Real.sqrt cyl 10 2 1 1 2 3 1 2 3 1 ⊤ 7, dist2 p.pos o = dist2 p.xyz (0, 0, 0) := by
  obtain ⟨n, o, h1, h2, -, h4⟩ := C90_rigid (cyl := cyl) realSqrt_root real_square (f := ⟨10, 2, 1, 1, 2, 3, 1, 2, 3, 1, ⊤⟩)
    (by norm_num) 7
  exact ⟨n, o, h1, by rw [h2]; norm_num, fun p hp => (h4 p hp).1⟩

/-- C90_mat: the picture of the three crossing fibers. -/
example : ∃ pts, vtkMat Rat.sqrt corners (fun _ p => .ok p) crossMat = .ok pts ∧ pts.length = 12 := by
  obtain ⟨pts, h, hl, -⟩ := (C90_mat (root := Rat.sqrt) (cyl := corners) crossMat).2 (by decide +kernel)
  exact ⟨pts, h, hl⟩

/-- The mesh of the three crossing fibers after stacking. -/
theorem cross_apart {lp : Linprog ℚ} (hlp : GoodLinprog lp) {net : Net ℚ} {m' : Mat ℚ} {st : Net ℚ} {mesh : Mesh ℚ}
    (hn : netNew crossMat true = .ok net) (hst : stackNew lp crossMat net (some 2) = .ok (m', st)) (hmesh : meshNew st = .ok mesh) :
    Apart mesh.rows ∧ mesh.rows.length = 10 := by
  obtain ⟨net1, st1, hn1, hst1⟩ := crossMat_moved hlp (some 2)
  rw [hn] at hn1; cases hn1
  rw [hst] at hst1; cases hst1
  obtain ⟨net', g1, rfl, -⟩ := chain_facts hlp crossMat_good (by simp [crossMat]) hn hst hmesh
  have e1 : ((netNew (crossMat.setZ [1 / 2, 2, 3 / 2]) true).bind (fun n => (meshNew (keep (some 2) n)).map (fun mesh =>
      mesh.rows.map (fun r : MeshRow ℚ => (r.fiber, r.s))))).toOption = 
      some [(0, -5), (0, -3), (0, 3), (0, 5), (1, -4), (1, -1), (1, 4), (2, -5), (2, 0), (2, 5)] := by
    decide +kernel
  rw [g1] at e1
  simp only [Except.bind] at e1
  rw [hmesh] at e1
  simp only [Except.map, Except.toOption, Option.some.injEq] at e1
  refine ⟨fun i j a b ha hb hf hs => ?_, by simpa using congrArg List.length e1⟩
  have hnd : (mesh.rows.map (fun r : MeshRow ℚ => (r.fiber, r.s))).Nodup := by rw [e1]; decide +kernel
  obtain ⟨hi, rfl⟩ := List.getElem?_eq_some_iff.1 ha
  obtain ⟨hj, rfl⟩ := List.getElem?_eq_some_iff.1 hb
  exact (List.Nodup.getElem_inj_iff hnd (hi := by simpa using hi) (hj := by simpa using hj)).1 (by simp [hf, hs])

/-- C90_plates: the compressed mat of the three crossing fibers is drawn between the plates. -/
example (lp : Linprog ℚ) (hlp : GoodLinprog lp) (nearest : List ℚ → ℚ → ℕ)
    (hnear : ∀ (s : List ℚ) (x : ℚ), s ≠ [] → Nearest s x (nearest s x)) (pk : Cell ℚ) : ∃ net m' st mesh S recs stop,
    netNew crossMat true = .ok net ∧ stackNew lp crossMat net (some 2) = .ok (m', st) ∧ meshNew st = .ok mesh ∧
      solve m' mesh (some (1 / 100)) none 1 ⟨pk, 100, 1 / 1000, 1 / 1000, [], goodGauss⟩ none = .ok (S, recs, stop) ∧
      ∀ a ∈ recs, ∃ pts, vtkMesh Rat.sqrt corners nearest m' mesh (some ((List.range 10).map (fun i => a.x (2 * i))))
        (some ((List.range 10).map (fun i => a.x (2 * i + 1)))) none none = .ok pts ∧
        ∀ p ∈ pts, ∃ z, p.pos.2.2 = .fin z ∧ -(1 / 10 ^ 8) ≤ z ∧ z ≤ a.Z + 1 / 10 ^ 8 := by
  obtain ⟨net, m', st, mesh, S, recs, stop, hn, hst, hmesh, hs⟩ := C78_runs hlp crossMat_good (by simp [crossMat]) true
    (some 2) (some (1 / 100)) none 1 ⟨pk, 100, 1 / 1000, 1 / 1000, [], goodGauss⟩ none
  obtain ⟨hp, -⟩ := C78_positive hlp crossMat_good (by simp [crossMat]) hn hst hmesh (a := 1 / 100) (by norm_num) (lmax := none)
    (by simp)
  obtain ⟨hap, hlen⟩ := cross_apart hlp hn hst hmesh
  refine ⟨net, m', st, mesh, S, recs, stop, hn, hst, hmesh, hs, fun a ha => ?_⟩
  obtain ⟨k, hk⟩ := List.mem_iff_getElem?.1 ha
  have := C90_plates ratSqrt_root hnear corners_box hlp crossMat_good crossMat_flat crossMat_rigid (by
    simp only [crossMat, List.mem_cons, List.not_mem_nil, or_false]
    rintro f (rfl | rfl | rfl) <;> norm_num) hn hst hmesh hs hap hp (by norm_num) goodGauss_good.1 (by intro p hp; cases hp) k a hk none none
    (by simp)
  rwa [hlen] at this

end Fibermat
