import Verif.Props.Mirror
import Verif.Props.DirectionExamples

/-! # Concrete cases of a mat turned upside down (C109) -/

set_option linter.unusedSectionVars false
set_option linter.unusedSimpArgs false

namespace Fibermat
open Spec

/-- Heights of the fibers of the example in an open box. -/
theorem crossMat_open {lp : Linprog ℚ} (hlp : GoodLinprog lp) {net st : Net ℚ} {m' : Mat ℚ}
    (hn : netNew crossMat false = .ok net) (hst : stackNew lp crossMat net none = .ok (m', st)) :
    m' = crossMat.setZ [1 / 2, 2, 1 / 2] := by
  obtain ⟨hck, ho, -⟩ := netNew_over crossMat_good hn
  obtain ⟨-, hlow, hsame, -⟩ := stack_lowest hlp crossMat_good hck ho hst
  have hg := lowest_unique hlow (greedy_lowest ho ((C06_increasing crossMat_good hn).imp (by intro a b hab; omega)))
  have hgr : ((netNew crossMat false).toOption.map (fun n =>
      (List.range 3).map (greedy crossMat n.rows (fun i => thick crossMat i / 2)))) = some [1 / 2, 2, 1 / 2] := by
    decide +kernel
  rw [hn] at hgr
  simp only [Except.toOption, Option.map_some, Option.some.injEq] at hgr
  rw [same_setZ hsame]
  congr 1
  rw [← hgr]
  refine List.map_congr_left ?_
  intro i hi
  exact hg i (by simpa using hi)

theorem crossMat_open_distinct {lp : Linprog ℚ} (hlp : GoodLinprog lp) {net st : Net ℚ} {m' : Mat ℚ} {mesh : Mesh ℚ}
    (hn : netNew crossMat false = .ok net) (hst : stackNew lp crossMat net none = .ok (m', st)) (hmesh : meshNew st = .ok mesh) :
    DistinctNodes mesh.rows := by
  obtain rfl := crossMat_open hlp hn hst
  obtain ⟨net', g1, rfl, -⟩ := chain_facts hlp crossMat_good (by simp [crossMat]) hn hst hmesh
  have e1 : (((netNew (crossMat.setZ [1 / 2, 2, 1 / 2]) false).bind (fun n => (meshNew (keep none n)).map (fun mesh =>
      (mesh.rows.map (fun r : MeshRow ℚ => (r.fiber, r.s)), decide (mesh.rows.map (fun r : MeshRow ℚ => (r.fiber, r.s))).Nodup)))).toOption).map
        (fun p => p.2) = some true := by
    decide +kernel
  rw [g1] at e1
  simp only [Except.bind, keep] at e1
  rw [hmesh] at e1
  simp only [Except.map, Except.toOption, Option.map_some, Option.some.injEq, decide_eq_true_eq] at e1
  intro i j r p hr hp h1 h2
  obtain ⟨hi, rfl⟩ := List.getElem?_eq_some_iff.1 hr
  obtain ⟨hj, rfl⟩ := List.getElem?_eq_some_iff.1 hp
  have := (List.Nodup.getElem_inj_iff (hi := by simpa using hi) (hj := by simpa using hj) e1).1 (by simp [h1, h2])
  exact this

/-- C109: the three fibers of the example, stacked, then turned upside down: same run upside down, with any correct solvers and any
target. -/
example (lp : Linprog ℚ) (hlp : GoodLinprog lp) (pk : Cell ℚ) (lin' : LinSolver ℚ) (hlin' : GoodLin lin') :
    ∃ net m1 st mesh Z S recs stop net2 mesh2 σ S' recs', netNew crossMat false = .ok net ∧ stackNew lp crossMat net none = .ok (m1, st) ∧
      meshNew st = .ok mesh ∧ IsTop m1 mesh.rows Z ∧
      solve m1 mesh (some (1 / 100)) none 1 ⟨pk, 100, 1 / 1000, 1 / 1000, [], goodGauss⟩ none = .ok (S, recs, stop) ∧
      netNew (upsideDown Z m1) false = .ok net2 ∧ meshNew net2 = .ok mesh2 ∧
      solve (upsideDown Z m1) mesh2 (some (1 / 100)) none 1 ⟨pk, 100, 1 / 1000, 1 / 1000, [], lin'⟩ none = .ok (S', recs', stop) ∧
      List.Forall₂ (MirroredState mesh.rows mesh2.rows σ) recs recs' := by
  obtain ⟨net, m1, st, mesh, S, recs, stop, hn, hst, hmesh, hs⟩ := C78_runs hlp crossMat_good (by simp [crossMat]) false
    none (some (1 / 100)) none 1 ⟨pk, 100, 1 / 1000, 1 / 1000, [], goodGauss⟩ none
  obtain ⟨hp, -⟩ := C78_positive hlp crossMat_good (by simp [crossMat]) hn hst hmesh (a := 1 / 100) (by norm_num) (lmax := none)
    (by simp)
  have hperm : PermOf S.n none := by intro p hp; cases hp
  obtain ⟨net', g1, -, hgood, hsame, -, h3, -⟩ := chain_facts hlp crossMat_good (by simp [crossMat]) hn hst hmesh
  obtain ⟨Km, cs, hK, hC, -⟩ := solve_run hs
  have hZ := (C37_geometric hC hgood (C26_reciprocal h3)).1
  have hlen : m1.fibers.length = crossMat.fibers.length := same_length hsame
  obtain ⟨net2, mesh2, σ, S', recs', r1, r2, -, r3, r4⟩ := C109_chain hlp crossMat_good crossMat_flat hn
    (by rw [hlen]; exact (C109_upsideDown 0 crossMat).2 _ (netNew_over crossMat_good hn).2.1) hst hmesh
    (crossMat_open_distinct hlp hn hst hmesh) hZ (C109_upsideDown cs.Z m1).1 hp (by norm_num) (Or.inr crossMat_rigid) (by norm_num)
    goodGauss_good hlin' hs hperm (perm' := none) hperm
  exact ⟨net, m1, st, mesh, cs.Z, S, recs, stop, net2, mesh2, σ, S', recs', hn, hst, hmesh, hZ, hs, r1, r2, r3, r4⟩

/-- Two fibers that cross through two sides of a periodic box. -/
def sidesMat : Mat ℚ :=
  { fibers := [⟨16, 1, 1, 5, -5, 0, 4 / 5, 3 / 5, 0, 1, ⊤⟩, ⟨16, 1, 1, -5, 5, 1, 3 / 5, 4 / 5, 0, 1, ⊤⟩]
    attrs := { n := some 2, size := some 20 } }

/-- In a periodic box, where only one of the crossings of two fibers is kept, another one may be kept for the mat turned upside down:
here the fibers, shorter than the box, cross through two of its sides, and the abscissae of the only connection have opposite signs. -/
theorem C109_periodic : ∃ net net' : Net ℚ, GoodMat sidesMat ∧ (∀ f ∈ sidesMat.fibers, f.l < 20) ∧
    MirroredMat (reversed 2) 1 sidesMat (upsideDown 1 sidesMat) ∧ netNew sidesMat true = .ok net ∧
    netNew (upsideDown 1 sidesMat) true = .ok net' ∧ ReversesOrder (reversed 2) net.rows ∧
    (∀ r ∈ net.rows, r.A < r.B → r.sA = 50 / 7 ∧ r.sB = -50 / 7) ∧ (∀ r ∈ net'.rows, r.A < r.B → r.sB = -50 / 7 ∧ r.sA = 50 / 7) ∧
    ¬ MirroredNet (reversed 2) 1 net net' := by
  have hgood : GoodMat sidesMat := by
    refine ⟨rfl, 20, rfl, ?_⟩
    intro f hf
    simp only [sidesMat, List.mem_cons, List.not_mem_nil, or_false] at hf
    rcases hf with rfl | rfl <;> refine ⟨?_, ?_, ?_, ?_, ?_, ?_, ?_, ?_, ?_, ?_, ?_⟩ <;> first | norm_num | exact WithTop.top_pos
  have hm := (C109_upsideDown 1 sidesMat).1
  obtain ⟨net, hn, -⟩ := C06_netNew_ok hgood true
  obtain ⟨net', hn', -⟩ := C06_netNew_ok (hm.good hgood) true
  have e1 : (netNew sidesMat true).toOption.map (fun n : Net ℚ => n.rows.map (fun r => (r.A, r.B, r.sA, r.sB))) =
      some [(0, 0, 8, -8), (0, 1, 50 / 7, -50 / 7), (1, 1, 8, -8)] := by decide +kernel
  have e2 : (netNew (upsideDown 1 sidesMat) true).toOption.map (fun n : Net ℚ => n.rows.map (fun r => (r.A, r.B, r.sA, r.sB))) =
      some [(0, 0, 8, -8), (0, 1, 50 / 7, -50 / 7), (1, 1, 8, -8)] := by decide +kernel
  rw [hn] at e1
  rw [hn'] at e2
  simp only [Except.toOption, Option.map_some, Option.some.injEq] at e1 e2
  have key : ∀ n : Net ℚ, n.rows.map (fun r => (r.A, r.B, r.sA, r.sB)) = [(0, 0, 8, -8), (0, 1, 50 / 7, -50 / 7), (1, 1, 8, -8)] →
      ∀ r ∈ n.rows, r.A < r.B → r.sA = 50 / 7 ∧ r.sB = -50 / 7 := by
    intro n e r hr hlt
    have := List.mem_map_of_mem (f := fun r : NetRow ℚ => (r.A, r.B, r.sA, r.sB)) hr
    rw [e] at this
    simp only [List.mem_cons, Prod.mk.injEq, List.not_mem_nil, or_false] at this
    rcases this with ⟨h1, h2, h3, h4⟩ | ⟨h1, h2, h3, h4⟩ | ⟨h1, h2, h3, h4⟩
    · omega
    · exact ⟨h3, h4⟩
    · omega
  have hrev : ReversesOrder (reversed 2) net.rows := (C109_upsideDown 1 sidesMat).2 _ (netNew_over hgood hn).2.1
  refine ⟨net, net', hgood, ?_, hm, hn, hn', hrev, key net e1, fun r hr h => (key net' e2 r hr h).symm, ?_⟩
  · intro f hf
    simp only [sidesMat, List.mem_cons, List.not_mem_nil, or_false] at hf
    rcases hf with rfl | rfl <;> norm_num
  · intro hmn
    have hex : ∃ r ∈ net.rows, r.A = 0 ∧ r.B = 1 := by
      have : ((0 : ℤ), (1 : ℤ), (50 / 7 : ℚ), (-50 / 7 : ℚ)) ∈ net.rows.map (fun r => (r.A, r.B, r.sA, r.sB)) := by rw [e1]; simp
      obtain ⟨r, hr, e⟩ := List.mem_map.1 this
      simp only [Prod.mk.injEq] at e
      exact ⟨r, hr, e.1, e.2.1⟩
    obtain ⟨r, hr, hA, hB⟩ := hex
    have h1 := key net e1 r hr (by omega)
    have hne : ¬ r.A = r.B := by omega
    have hmem := hmn.rows.mem_iff.2 (List.mem_map_of_mem (f := mirrorRow (reversed 2) 1) hr)
    have h2 := key net' e2 _ hmem (by rw [mirrorRow, if_neg hne]; simp [hA, hB, reversed])
    rw [mirrorRow, if_neg hne] at h2
    have := h2.1.symm.trans h1.2
    norm_num at this

end Fibermat
