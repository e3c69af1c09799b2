import Verif.Lemmas.Rounded

/-! # The rounded solver with exact arithmetic is the solver -/

namespace Fibermat
open Spec
variable {K : Type} [Field K] [LinearOrder K] [IsStrictOrderedRing K]

theorem Cell.round_id (c : Cell K) : c.round id = c := by cases c <;> rfl

theorem dotR_exact (S : Sys K) (cs : List ℕ) (x : ℕ → K) (r : ℕ) :
    S.dotR Floats.exact cs x r = cellSum (cs.map (fun c => S.P r c * .fin (x c))) := by
  have key : ∀ (l : List ℕ) (z : Cell K),
      (l.filter (fun c => decide (S.P r c ≠ .fin 0))).foldl
        (fun acc c => (acc + (S.P r c * .fin (x c)).round (Floats.exact (K := K)).fl).round (Floats.exact (K := K)).fl) z =
      z + cellSum (l.map (fun c => S.P r c * .fin (x c))) := by
    intro l
    induction l with
    | nil => intro z; simp [cellSum]
    | cons c l ih =>
      intro z
      by_cases h : S.P r c = .fin 0
      · rw [List.filter_cons_of_neg (by simp [h]), ih]
        have e : cellSum ((c :: l).map (fun c => S.P r c * .fin (x c))) = cellSum (l.map (fun c => S.P r c * .fin (x c))) := by
          rw [cellSum, List.map_cons, List.sum_cons, h, Cell.fin_mul_fin, zero_mul]
          exact zero_add _
        rw [e]
      · rw [List.filter_cons_of_pos (by simp [h]), List.foldl_cons, ih]
        simp only [Floats.exact, Cell.round_id]
        rw [cellSum, cellSum, List.map_cons, List.sum_cons, add_assoc]
  unfold Sys.dotR
  rw [key]
  exact zero_add _

theorem residR_exact (S : Sys K) (x : ℕ → K) (q : ℕ → Cell K) (r : ℕ) : S.residR Floats.exact x q r = S.resid x q r := by
  unfold Sys.residR Sys.resid Sys.mulVec
  rw [dotR_exact]
  exact Cell.round_id _

theorem activeR_exact (S : Sys K) (tol : K) (x : ℕ → K) (q : ℕ → Cell K) : S.activeR Floats.exact tol x q = S.active tol x q := by
  funext r
  unfold Sys.activeR Sys.active
  rw [residR_exact]

theorem rateR_exact (S : Sys K) (dx : ℕ → K) : S.rateR Floats.exact dx = S.rate dx := by
  funext r
  unfold Sys.rateR Sys.rate Sys.mulVec
  rw [dotR_exact]
  exact Cell.round_id _

theorem limitingR_exact (S : Sys K) (o : Opts K) (a : Rec K) (v : ℕ → Cell K) : S.limitingR Floats.exact o a v = S.limiting o a v := by
  unfold Sys.limitingR Sys.limiting
  simp only [residR_exact]

theorem activesR_exact (S : Sys K) (o : Opts K) (a : Rec K) : S.activesR Floats.exact o a = S.actives o a := by
  unfold Sys.activesR Sys.actives
  rw [activeR_exact]

theorem directionR_exact (S : Sys K) (o : Opts K) (a : Rec K) : S.directionR Floats.exact o a = S.direction o a := by
  unfold Sys.directionR Sys.direction
  rw [activesR_exact]

theorem errsR_exact (S : Sys K) (m : ℕ → Bool) (dx : ℕ → K) :
    cellSum ((S.errsR Floats.exact m dx).map (fun c => c * c)) = S.errSq m dx := by
  unfold Sys.errsR Sys.errSq
  simp only [List.map_map]
  congr 1
  apply List.map_congr_left
  intro r _
  simp only [Function.comp_apply, dotR_exact]
  rw [show (Floats.exact (K := K)).fl = id from rfl, Cell.round_id]

theorem stepR_exact (S : Sys K) (o : Opts K) (a : Rec K) : S.stepR Floats.exact o a = S.step o a := by
  unfold Sys.stepR Sys.step
  simp only [directionR_exact, activeR_exact, activesR_exact, limitingR_exact, rateR_exact, residR_exact]
  cases S.direction o a with
  | none => rfl
  | some dx =>
    simp only [errsR_exact]
    rw [show (Floats.exact (K := K)).tooBig o.errtol (S.errsR Floats.exact (S.active o.tol a.x a.q) dx) =
      errGt o.errtol (S.errSq (S.active o.tol a.x a.q) dx) by rw [← errsR_exact]; rfl]
    simp only [show (Floats.exact (K := K)).fl = id from rfl, Cell.round_id, id_eq]
    split_ifs
    · rfl
    · rfl
    · cases minCells (List.map (fun r => S.resid a.x a.q r / S.rate dx r) (S.limiting o a (S.rate dx))) <;> rfl

theorem loopR_exact (S : Sys K) (o : Opts K) (n : ℕ) (a : Rec K) : S.loopR Floats.exact o n a = S.loop o n a := by
  induction n generalizing a with
  | zero => rfl
  | succ n ih =>
    unfold Sys.loopR Sys.loop
    simp only [stepR_exact, ih]
    cases S.step o a <;> rfl

theorem runR_exact (S : Sys K) (o : Opts K) : S.runR Floats.exact o = S.run o := by
  have e : S.initR Floats.exact o = S.init o := by
    unfold Sys.initR Sys.init
    simp only [residR_exact]
  unfold Sys.runR Sys.run
  simp only [e, loopR_exact]

end Fibermat
