import Verif.Props.OpenBox

/-! # C119: concrete cases -/

namespace Fibermat
open Spec

/-- Two crossing fibers in the middle of the box. -/
def middleMat : Mat ℚ :=
  { fibers := [⟨4, 1, 1, 0, 0, 0, 3 / 5, 4 / 5, 0, 1, ⊤⟩, ⟨4, 1, 1, 1, 0, 0, 4 / 5, -3 / 5, 0, 1, ⊤⟩]
    attrs := { n := some 2, size := some 10 } }

/-- Four fibers, the first and the last of which cross through a side of the box only. -/
def sideMat : Mat ℚ :=
  { fibers := [⟨4, 1, 1, -4, 0, 0, 3 / 5, 4 / 5, 0, 1, ⊤⟩, ⟨4, 1, 1, -3, 0, 0, 4 / 5, -3 / 5, 0, 1, ⊤⟩,
      ⟨4, 1, 1, 4, 0, 0, 0, 1, 0, 1, ⊤⟩, ⟨4, 1, 1, 5, 0, 0, 1, 0, 0, 1, ⊤⟩]
    attrs := { n := some 4, size := some 10 } }

theorem middleMat_good : GoodMat middleMat := by
  have h : matCheck middleMat.frame = .ok () := by decide +kernel
  exact ((matCheck_frame_iff _).1 h).resolve_left (by simp [Skipped, middleMat])

theorem sideMat_good : GoodMat sideMat := by
  have h : matCheck sideMat.frame = .ok () := by decide +kernel
  exact ((matCheck_frame_iff _).1 h).resolve_left (by simp [Skipped, sideMat])

/-- The hypotheses of `C119_inside` and `C119_run` hold for the first mat, whose fibers are connected. -/
example : GoodMat middleMat ∧ middleMat.attrs.size = some 10 ∧ (∀ f ∈ middleMat.fibers, Planar f) ∧
    (∀ f ∈ middleMat.fibers, InsideBox 10 f) ∧
    (netNew middleMat false).toOption.map (fun n => n.rows.map (fun r => (r.A, r.B, r.sA, r.sB))) =
      some [(0, 0, 2, -2), (0, 1, 3 / 5, -4 / 5), (1, 1, 2, -2)] := by
  refine ⟨middleMat_good, rfl, ?_, ?_, by decide +kernel⟩
  · intro f hf
    simp only [middleMat, List.mem_cons, List.not_mem_nil, or_false] at hf
    rcases hf with rfl | rfl <;> exact ⟨rfl, by norm_num⟩
  · intro f hf s hs
    simp only [middleMat, List.mem_cons, List.not_mem_nil, or_false] at hf
    rcases hf with rfl | rfl <;> simp only [abs_lt] at * <;> refine ⟨⟨?_, ?_⟩, ?_, ?_⟩ <;> linarith

/-- In the second mat the periodic box has connections that the open box has not. -/
example : GoodMat sideMat ∧
    (netNew sideMat false).toOption.map (fun n => n.rows.map (fun r => (r.A, r.B, r.sA, r.sB))) =
      some [(0, 0, 2, -2), (0, 1, 3 / 5, -4 / 5), (1, 1, 2, -2), (2, 2, 2, -2), (2, 3, 0, -1), (3, 3, 2, -2)] ∧
    (netNew sideMat true).toOption.map (fun n => n.rows.map (fun r => (r.A, r.B, r.sA, r.sB))) =
      some [(0, 0, 2, -2), (0, 1, 3 / 5, -4 / 5), (0, 3, 0, 1), (1, 1, 2, -2), (2, 2, 2, -2), (2, 3, 0, -1), (3, 3, 2, -2)] :=
  ⟨sideMat_good, by decide +kernel, by decide +kernel⟩

/-- Two fibers that cross in the box, and a second time through its side. -/
def twoCrossMat : Mat ℚ :=
  { fibers := [⟨8, 1, 1, -3, 4, 0, 4 / 5, -3 / 5, 0, 1, ⊤⟩, ⟨8, 1, 1, 3, 4, 0, 4 / 5, 3 / 5, 0, 1, ⊤⟩]
    attrs := { n := some 2, size := some 10 } }

theorem twoCrossMat_good : GoodMat twoCrossMat := by
  have h : matCheck twoCrossMat.frame = .ok () := by decide +kernel
  exact ((matCheck_frame_iff _).1 h).resolve_left (by simp [Skipped, twoCrossMat])

/-- Both crossings are found in the periodic box; the one of the open box is kept. -/
example : GoodMat twoCrossMat ∧
    (((triu (periodicFibers 10 twoCrossMat.fibers)).filterMap candidate).filter (fun c => c.A = 0 ∧ c.B = 1)).map
      (fun c => (c.sA, c.sB)) = [(15 / 4, -15 / 4), (-5 / 2, 5 / 2)] ∧
    (netNew twoCrossMat true).toOption.map (fun n => n.rows.map (fun r => (r.A, r.B, r.sA, r.sB))) =
      some [(0, 0, 4, -4), (0, 1, 15 / 4, -15 / 4), (1, 1, 4, -4)] :=
  ⟨twoCrossMat_good, by decide +kernel, by decide +kernel⟩

end Fibermat
