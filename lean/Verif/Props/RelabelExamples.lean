import Verif.Props.Relabel
import Verif.Props.DirectionExamples

/-! # Concrete cases of other numbers of the fibers (C107) -/

set_option linter.unusedSectionVars false
set_option linter.unusedSimpArgs false

namespace Fibermat
open Spec

/-- The three fibers of the example with the last two exchanged; they do not cross. -/
def swapMat : Mat ℚ :=
  { fibers := [⟨10, 1, 1, 8, 0, 5, 1, 0, 0, 1, ⊤⟩, ⟨10, 1, 1, -9, 0, 7, 3 / 5, 4 / 5, 0, 1, ⊤⟩, ⟨8, 1, 2, 5, 1, 0, 0, 1, 0, 1, ⊤⟩]
    attrs := { n := some 3, size := some 20 } }

/-- Exchanging 1 and 2. -/
def swapLast (i : ℕ) : ℕ := if i = 1 then 2 else if i = 2 then 1 else i

theorem swapMat_relabelled : RelabelledMat swapLast crossMat swapMat where
  attrs := rfl
  count := rfl
  inj := by
    intro i j hi hj
    simp only [crossMat, List.length_cons, List.length_nil] at hi hj
    interval_cases i <;> interval_cases j <;> decide
  fiber := by
    intro i hi
    simp only [crossMat, List.length_cons, List.length_nil] at hi
    interval_cases i <;> rfl

theorem swapLast_keeps {net : Net ℚ} (hn : netNew crossMat true = .ok net) : KeepsOrder swapLast net.rows := by
  have h : (netNew crossMat true).toOption.map (fun n : Net ℚ =>
      n.rows.all (fun r => decide (r.A < r.B → swapLast r.A.toNat < swapLast r.B.toNat))) = some true := by decide +kernel
  rw [hn] at h
  simp only [Except.toOption, Option.map_some, Option.some.injEq, List.all_eq_true, decide_eq_true_eq] at h
  exact h

/-- C107: the last two of the three fibers of the example exchanged: same run, with any correct solvers and any target. -/
example (lp lp' : Linprog ℚ) (hlp : GoodLinprog lp) (hlp' : GoodLinprog lp') (pk : Cell ℚ) (lin' : LinSolver ℚ) (hlin' : GoodLin lin') :
    ∃ S recs stop S' recs' rows rows' σ,
      chain lp true (some 2) (some (1 / 100)) none 1 ⟨pk, 100, 1 / 1000, 1 / 1000, [], goodGauss⟩ none crossMat =
        .ok (S, recs, stop) ∧
      chain lp' true (some 2) (some (1 / 100)) none 1 ⟨pk, 100, 1 / 1000, 1 / 1000, [], lin'⟩ none swapMat = .ok (S', recs', stop) ∧
      RelabelledMesh swapLast rows rows' σ ∧ List.Forall₂ (RelabelledState rows rows' σ) recs recs' := by
  obtain ⟨net, m', st, mesh, S, recs, stop, hn, hst, hmesh, hs⟩ := C78_runs hlp crossMat_good (by simp [crossMat]) true
    (some 2) (some (1 / 100)) none 1 ⟨pk, 100, 1 / 1000, 1 / 1000, [], goodGauss⟩ none
  obtain ⟨hp, -⟩ := C78_positive hlp crossMat_good (by simp [crossMat]) hn hst hmesh (a := 1 / 100) (by norm_num) (lmax := none)
    (by simp)
  have hth : KeepsTouching crossMat (some 2) := by
    intro t ht f hf
    cases ht
    simp only [crossMat, List.mem_cons, List.not_mem_nil, or_false] at hf
    rcases hf with rfl | rfl | rfl <;> norm_num
  have hperm : PermOf S.n none := by intro p hp; cases hp
  have hc : chain lp true (some 2) (some (1 / 100)) none 1 ⟨pk, 100, 1 / 1000, 1 / 1000, [], goodGauss⟩ none crossMat =
      .ok (S, recs, stop) := by
    unfold chain
    simp only [hn, hst, hmesh, Bind.bind, Except.bind]
    exact hs
  obtain ⟨S', recs', net', m1', st', mesh', σ, h1, -, -, -, -, h2, h3⟩ := C107_chain hlp hlp' crossMat_good swapMat_relabelled
    crossMat_flat hn (swapLast_keeps hn) hst hth hmesh
    (crossMat_distinct hlp hn hst hmesh) hp (by norm_num) (Or.inr crossMat_rigid) (by norm_num) goodGauss_good hlin' hc hperm
    (perm' := none) hperm
  exact ⟨S, recs, stop, S', recs', mesh.rows, mesh'.rows, σ, hc, h1, h2, h3⟩

/-- The fibers of the example with the first two, which cross, exchanged. -/
def swapFirstMat : Mat ℚ :=
  { fibers := [⟨8, 1, 2, 5, 1, 0, 0, 1, 0, 1, ⊤⟩, ⟨10, 1, 1, 8, 0, 5, 1, 0, 0, 1, ⊤⟩, ⟨10, 1, 1, -9, 0, 7, 3 / 5, 4 / 5, 0, 1, ⊤⟩]
    attrs := { n := some 3, size := some 20 } }

/-- Exchanging 0 and 1. -/
def swapFirst (i : ℕ) : ℕ := if i = 0 then 1 else if i = 1 then 0 else i

theorem swapFirstMat_relabelled : RelabelledMat swapFirst crossMat swapFirstMat where
  attrs := rfl
  count := rfl
  inj := by
    intro i j hi hj
    simp only [crossMat, List.length_cons, List.length_nil] at hi hj
    interval_cases i <;> interval_cases j <;> decide
  fiber := by
    intro i hi
    simp only [crossMat, List.length_cons, List.length_nil] at hi
    interval_cases i <;> rfl

/-- The order of crossing fibers matters: with the first two fibers of the example exchanged, the first one lies on the second instead of
on the floor. -/
theorem C107_order {lp lp' : Linprog ℚ} (hlp : GoodLinprog lp) (hlp' : GoodLinprog lp') (threshold : Option ℚ) :
    RelabelledMat swapFirst crossMat swapFirstMat ∧ ∃ net net' m1 m1' st st', netNew crossMat true = .ok net ∧
      netNew swapFirstMat true = .ok net' ∧ ¬ KeepsOrder swapFirst net.rows ∧
      stackNew lp crossMat net threshold = .ok (m1, st) ∧ stackNew lp' swapFirstMat net' threshold = .ok (m1', st') ∧
      heightOf m1 0 = 1 / 2 ∧ heightOf m1' (swapFirst 0) = 5 / 2 := by
  have hgood' := swapFirstMat_relabelled.good crossMat_good
  obtain ⟨net, m1, st, hn, hst, h0, -⟩ := crossMat_stack hlp threshold
  obtain ⟨net', hn', hinc, -⟩ := C06_netNew_ok hgood' true
  obtain ⟨hck, ho, -⟩ := netNew_over hgood' hn'
  obtain ⟨⟨m1', st'⟩, hst'⟩ := C15_stack_ok hlp' hgood' hck ho threshold
  obtain ⟨-, hlow, -⟩ := stack_lowest hlp' hgood' hck ho hst'
  have hg := lowest_unique hlow (greedy_lowest ho ((C06_increasing hgood' hn').imp (by intro a b hab; omega)))
  have hgr : ((netNew swapFirstMat true).toOption.map (fun n =>
      greedy swapFirstMat n.rows (fun i => thick swapFirstMat i / 2) 1)) = some (5 / 2) := by decide +kernel
  rw [hn'] at hgr
  simp only [Except.toOption, Option.map_some, Option.some.injEq] at hgr
  refine ⟨swapFirstMat_relabelled, net, net', m1, m1', st, st', hn, hn', ?_, hst, hst', h0, ?_⟩
  · have h : (netNew crossMat true).toOption.map (fun n : Net ℚ =>
      n.rows.any (fun r => decide (r.A < r.B ∧ swapFirst r.B.toNat ≤ swapFirst r.A.toNat))) = some true := by decide +kernel
    rw [hn] at h
    simp only [Except.toOption, Option.map_some, Option.some.injEq, List.any_eq_true, decide_eq_true_eq] at h
    obtain ⟨r, hr, h1, h2⟩ := h
    intro hk
    have := hk r hr h1
    omega
  · rw [show swapFirst 0 = 1 from rfl, hg 1 (by decide), hgr]

end Fibermat
