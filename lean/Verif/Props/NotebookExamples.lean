import Verif.Props.Notebook

/-! # C100: a negative number of samples, on two crossing fibers -/

namespace Fibermat

/-- Two crossing fibers, stacked. -/
def pairMat : Mat ℚ :=
  { fibers := [⟨4, 1, 1, 0, 0, 1 / 2, 1, 0, 0, 1, ⊤⟩, ⟨4, 1, 1, 0, 0, 3 / 2, 0, 1, 0, 1, ⊤⟩]
    attrs := { n := some 2, size := some 20 } }

/-- The run with the keywords `packing=2, itermax=1` and the given `interp_size`. -/
def pairRun (v : PyVal ℚ) : Except Err ℕ :=
  netNew pairMat false >>= fun n => meshNew n >>= fun me =>
    (solveKw (fun a : ℚ => ⌊a⌋) gauss pairMat me
      [(.setting .interpSize, v), (.setting .packing, .num 2), (.setting .itermax, .num 1)]).map (fun r => r.recs.length)

/-- C100: the hypothesis of `C100_negative_size` on an example, and its conclusion. -/
example : pairRun .none = .ok 1 ∧ pairRun (.num 5) = .ok 1 ∧ pairRun (.num (-3)) = .error .valueError := by decide +kernel

end Fibermat
