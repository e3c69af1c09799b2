import Verif.Props.Draw
import Verif.Props.PipelineExamples

/-! # C97: concrete cases -/

namespace Fibermat
open Spec

/-- C97: three fibers before stacking (`mesh.py`). The second connection is drawn across the whole box, since fiber 2 is touched through the
side of the box but drawn at its own place. -/
example : ((netNew crossMat true).toOption.bind (fun net => (meshInit net).toOption.bind (fun mesh => (drawMesh mesh).toOption))) =
    some { beams := [((3, 0, 5), (5, 0, 5), 0), ((5, 0, 5), (11, 0, 5), 0), ((11, 0, 5), (13, 0, 5), 0),
                     ((5, -3, 0), (5, 0, 0), 1), ((5, 0, 0), (5, 5, 0), 1), ((-12, -4, 7), (-9, 0, 7), 2), ((-9, 0, 7), (-6, 4, 7), 2)]
           contacts := [((11, 0, 5), (-9, 0, 7)), ((5, 0, 0), (5, 0, 5))]
           ends := [((3, 0, 5), (3, 0, 5)), ((13, 0, 5), (13, 0, 5)), ((5, -3, 0), (5, -3, 0)), ((5, 5, 0), (5, 5, 0)),
                    ((-12, -4, 7), (-12, -4, 7)), ((-6, 4, 7), (-6, 4, 7))] } := by decide +kernel

/-- C97: the hypotheses of the theorems on networks. -/
example : ∃ (net : Net ℚ) (mesh : Mesh ℚ), netNew crossMat true = .ok net ∧ meshInit (keep none net) = .ok mesh ∧
    crossMat.fibers[1]? = some ⟨8, 1, 2, 5, 1, 0, 0, 1, 0, 1, ⊤⟩ ∧ -((8 : ℚ) / 2) ≤ 1 ∧ (1 : ℚ) < 8 / 2 := by
  obtain ⟨net, hn, -⟩ := C06_netNew_ok crossMat_good true
  obtain ⟨hck, -⟩ := netNew_over crossMat_good hn
  exact ⟨net, _, hn, meshInit_of_check hck, rfl, by norm_num, by norm_num⟩

/-- C97: two crossing fibers at the same height are connected but no line is drawn between them. -/
example : (netNew ({ crossMat with fibers := crossMat.fibers.map (fun f => { f with z := 0 }) } : Mat ℚ) true).toOption.bind (fun net =>
    (meshInit net).toOption.bind (fun mesh => (drawMesh mesh).toOption.map (fun P => ((innerRows net.rows).length, P.contacts)))) =
    some (2, []) := by decide +kernel

/-- C97: the hypotheses of the theorem on packed fibers, with every correct linear programming solver. -/
example (lp : Linprog ℚ) (hlp : GoodLinprog lp) (pk : Cell ℚ) : ∃ net m' st mesh S recs stop,
    netNew crossMat true = .ok net ∧ stackNew lp crossMat net (some 2) = .ok (m', st) ∧ meshNew st = .ok mesh ∧
      solve m' mesh (some (1 / 100)) none 1 ⟨pk, 1000, 1 / 1000, 1 / 1000, [], goodGauss⟩ none = .ok (S, recs, stop) ∧
      PositiveLengths mesh.rows (some (1 / 100)) none ∧ (∀ f ∈ crossMat.fibers, f.w = 0) ∧ ExactLin goodGauss ∧
      ∀ a ∈ recs, ∃ P, drawMesh (mesh.deform a.x) = .ok P ∧ P.contacts.length = (innerRows st.rows).length := by
  obtain ⟨net, m', st, mesh, S, recs, stop, hn, hst, hmesh, hs⟩ := C78_runs hlp crossMat_good (by simp [crossMat]) true
    (some 2) (some (1 / 100)) none 1 ⟨pk, 1000, 1 / 1000, 1 / 1000, [], goodGauss⟩ none
  have hw : ∀ f ∈ crossMat.fibers, f.w = 0 := fun f hf => (crossMat_planar f hf).1
  obtain ⟨hp, -⟩ := C78_positive hlp crossMat_good (by simp [crossMat]) hn hst hmesh (a := 1 / 100) (by norm_num) (lmax := none)
    (by simp)
  refine ⟨net, m', st, mesh, S, recs, stop, hn, hst, hmesh, hs, hp, hw, goodGauss_good.1, fun a ha => ?_⟩
  obtain ⟨P, place, -, h2, h3, -⟩ := C97_packed hlp crossMat_good hw hn hst hmesh hs hp (by norm_num) goodGauss_good.1 (by rintro p ⟨⟩) ha
  refine ⟨P, h2, ?_⟩
  rw [h3.length_eq, List.length_map]
  have key : ∀ (l : List (NetRow ℚ)), (innerRows l).length = (l.map (fun r => (r.A, r.B))).countP (fun p => p.1 < p.2) := by
    intro l
    unfold innerRows
    rw [← List.countP_eq_length_filter, List.countP_map]
    rfl
  have e : (displaced st.rows place a.x).map (fun r => (r.A, r.B)) = st.rows.map (fun r => (r.A, r.B)) := by
    apply List.ext_getElem?
    intro i
    simp [displaced, List.getElem?_mapIdx, Function.comp_def]
  rw [key, key, e]

end Fibermat
