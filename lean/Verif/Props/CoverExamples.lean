import Verif.Props.Cover
import Verif.Props.DirectionExamples

/-! # Concrete cases of repeated mats (C113) -/

set_option linter.unusedSectionVars false
set_option linter.unusedSimpArgs false

namespace Fibermat
open Spec

theorem crossMat_short : ∀ f ∈ crossMat.fibers, f.l ≤ 20 / 2 := by
  simp only [crossMat, List.mem_cons, List.not_mem_nil, or_false]
  rintro f (rfl | rfl | rfl) <;> norm_num

/-- C113: the three fibers of the example, two of which cross through the side of the box, repeated 2 × 2 or 3 × 3 times or more: same run
for all copies, with any correct solvers and any target. -/
example (lp lp' : Linprog ℚ) (hlp : GoodLinprog lp) (hlp' : GoodLinprog lp') (pk : Cell ℚ) (lin' : LinSolver ℚ) (hlin' : GoodLin lin')
    (p : ℕ) (hp0 : 0 < p) :
    (tile p crossMat).fibers.length = 3 * (p * p) ∧
    ∃ S recs stop S' recs' rows rows' π,
      chain lp true (some 2) (some (1 / 100)) none 1 ⟨pk, 100, 1 / 1000, 1 / 1000, [], goodGauss⟩ none crossMat =
        .ok (S, recs, stop) ∧
      chain lp' true (some 2) (some (1 / 100)) none 1 ⟨pk, 100, 1 / 1000, 1 / 1000, [], lin'⟩ none (tile p crossMat) = .ok (S', recs', stop) ∧
      CoverMesh (fun i => i / (p * p)) rows rows' π ∧ List.Forall₂ (CoveredState rows rows' π) recs recs' := by
  refine ⟨(C113_tile hp0 crossMat_good rfl).2.1, ?_⟩
  obtain ⟨net, m', st, mesh, S, recs, stop, hn, hst, hmesh, hs⟩ := C78_runs hlp crossMat_good (by simp [crossMat]) true
    (some 2) (some (1 / 100)) none 1 ⟨pk, 100, 1 / 1000, 1 / 1000, [], goodGauss⟩ none
  obtain ⟨hp, -⟩ := C78_positive hlp crossMat_good (by simp [crossMat]) hn hst hmesh (a := 1 / 100) (by norm_num) (lmax := none)
    (by simp)
  have hth : KeepsTouching crossMat (some 2) := by
    intro t ht f hf
    cases ht
    simp only [crossMat, List.mem_cons, List.not_mem_nil, or_false] at hf
    rcases hf with rfl | rfl | rfl <;> norm_num
  have hperm : PermOf S.n none := by intro p hp; cases hp
  have hc : chain lp true (some 2) (some (1 / 100)) none 1 ⟨pk, 100, 1 / 1000, 1 / 1000, [], goodGauss⟩ none crossMat =
      .ok (S, recs, stop) := by
    unfold chain
    simp only [hn, hst, hmesh, Bind.bind, Except.bind]
    exact hs
  obtain ⟨S', recs', net', m1', st', mesh', π, h1, -, -, -, -, h2, h3⟩ := C113_repeated hlp hlp' hp0 crossMat_good rfl crossMat_planar
    crossMat_short hn hst hth hmesh (crossMat_distinct hlp hn hst hmesh) hp (by norm_num) (Or.inr crossMat_rigid) (by norm_num) goodGauss_good
    hlin' hc hperm
  exact ⟨S, recs, stop, S', recs', mesh.rows, mesh'.rows, π, hc, h1, h2, h3⟩

/-- The copies of the example: 2 × 2 times three fibers, in a box twice as large, with 4 times as many connections. -/
example : (tile 2 crossMat).attrs.size = some 40 ∧ (tile 2 crossMat).attrs.n = some 12 ∧
    (tile 2 crossMat).fibers.map (fun f => (f.x, f.y)) =
      [(-2, -10), (-2, 10), (18, -10), (18, 10), (-5, -9), (-5, 11), (15, -9), (15, 11), (-19, -10), (-19, 10), (1, -10), (1, 10)] ∧
    (netNew crossMat true).toOption.map (fun n => n.rows.length) = some 5 ∧
    (netNew (tile 2 crossMat) true).toOption.map (fun n => n.rows.length) = some 20 := by
  decide +kernel

/-- Fibers longer than half the box: the net of two such fibers keeps one of their two crossings, that of the repeated mat has them both, so it
does not repeat the net. -/
theorem C113_long : GoodMat twiceMat ∧ GoodMat (tile 2 twiceMat) ∧ (∀ f ∈ twiceMat.fibers, Planar f) ∧
    ∃ net net', netNew twiceMat true = .ok net ∧ netNew (tile 2 twiceMat) true = .ok net' ∧
      ∀ (φ κ : ℕ → ℕ) (n : ℕ), ¬ CoverNet φ n net.rows net'.rows κ := by
  have hg := tile_good (p := 2) (by norm_num) twiceMat_good
  obtain ⟨net, hn, -⟩ := C06_netNew_ok twiceMat_good true
  obtain ⟨net', hn', -⟩ := C06_netNew_ok hg true
  refine ⟨twiceMat_good, hg, ?_, net, net', hn, hn', ?_⟩
  · simp only [twiceMat, List.mem_cons, List.not_mem_nil, or_false, Planar]
    rintro f (rfl | rfl) <;> norm_num
  · have h1 : (netNew twiceMat true).toOption.map (fun n => n.rows.map (fun r => (r.A, r.B))) = some [(0, 0), (0, 1), (1, 1)] := by
      decide +kernel
    have h2 : (netNew (tile 2 twiceMat) true).toOption.map (fun n => (n.rows.map (fun r => (r.A, r.B))).take 3) =
        some [(0, 0), (0, 4), (0, 6)] := by decide +kernel
    rw [hn] at h1
    rw [hn'] at h2
    simp only [Except.toOption, Option.map_some, Option.some.injEq] at h1 h2
    intro φ κ n hc
    have get' : ∀ (k : ℕ) (q : ℤ × ℤ), k < 3 → [((0 : ℤ), (0 : ℤ)), (0, 4), (0, 6)][k]? = some q →
        ∃ r, net'.rows[k]? = some r ∧ (r.A, r.B) = q := by
      intro k q hk hq
      rw [← h2, List.getElem?_take_of_lt hk, List.getElem?_map, Option.map_eq_some_iff] at hq
      exact hq
    have only : ∀ (k : ℕ) (r' : NetRow ℚ), net'.rows[k]? = some r' → r'.A < r'.B → κ k = 1 := by
      intro k r' hk hlt
      obtain ⟨r, hr, hcp⟩ := hc.copy k r' hk
      have hlt := hcp.less.1 hlt
      have : (net.rows.map (fun r => (r.A, r.B)))[κ k]? = some (r.A, r.B) := by rw [List.getElem?_map, hr]; rfl
      rw [h1] at this
      have hl := (List.getElem?_eq_some_iff.1 this).1
      simp only [List.length_cons, List.length_nil] at hl
      generalize κ k = c at *
      interval_cases c
      · simp at this; omega
      · rfl
      · simp at this; omega
    obtain ⟨r, hr, er⟩ := get' 1 (0, 4) (by norm_num) rfl
    obtain ⟨q, hq, eq⟩ := get' 2 (0, 6) (by norm_num) rfl
    simp only [Prod.mk.injEq] at er eq
    have := hc.uniqueA 1 2 r q hr hq (by rw [only 1 r hr (by omega), only 2 q hq (by omega)]) (by omega)
    omega

end Fibermat
