import Verif.Props.Dropped
import Verif.Props.LimitExamples

/-! # A connection dropped by the threshold that is pierced (C116) -/

set_option linter.unusedSectionVars false
set_option linter.unusedSimpArgs false

namespace Fibermat
open Spec

/-- A thin fiber (0) under a bridge: two thick fibers (1, 2) carry a beam (3), a thick fiber (4) lies on its middle, above the first. -/
def bridgeMat : Mat ℚ :=
  { fibers := [⟨4, 1, 1 / 2, 0, 0, 5, 0, 1, 0, 1, ⊤⟩, ⟨4, 1, 2, -4, 0, 5, 0, 1, 0, 1, ⊤⟩, ⟨4, 1, 2, 4, 0, 5, 0, 1, 0, 1, ⊤⟩,
               ⟨12, 1, 1, 0, 0, 5, 1, 0, 0, 1, ⊤⟩, ⟨4, 1, 2, 0, 0, 5, 0, 1, 0, 1, ⊤⟩]
    attrs := { n := some 5, size := some 20 } }

theorem bridgeMat_good : GoodMat bridgeMat := by
  have h : matCheck bridgeMat.frame = .ok () := by decide +kernel
  exact ((matCheck_frame_iff _).1 h).resolve_left (by simp [Skipped, bridgeMat])

theorem bridgeMat_flat : ∀ f ∈ bridgeMat.fibers, f.w = 0 := by simp [bridgeMat]

theorem bridgeMat_rigid : ∀ f ∈ bridgeMat.fibers, f.E = ⊤ := by simp [bridgeMat]

theorem bridgeMat_keeps : KeepsTouching bridgeMat (some 2) := by
  intro t ht f hf
  cases ht
  simp only [bridgeMat, List.mem_cons, List.not_mem_nil, or_false] at hf
  rcases hf with rfl | rfl | rfl | rfl | rfl <;> norm_num

/-- The bridge once stacked. -/
def bridgeUp : Mat ℚ := bridgeMat.setZ [1 / 4, 1, 1, 5 / 2, 4]

/-- The stacked bridge, for any correct linear programming solver. -/
theorem bridge_stack {lp : Linprog ℚ} (hlp : GoodLinprog lp) (threshold : Option ℚ) :
    ∃ net net', netNew bridgeMat false = .ok net ∧ netNew bridgeUp false = .ok net' ∧
      stackNew lp bridgeMat net threshold = .ok (bridgeUp, keep threshold net') := by
  obtain ⟨net, hn, -⟩ := C06_netNew_ok bridgeMat_good false
  obtain ⟨hck, ho, hper⟩ := netNew_over bridgeMat_good hn
  obtain ⟨m', st, mesh, hst, hmesh, -⟩ := C27_mesh_of_stack hlp bridgeMat_good hn threshold
  obtain ⟨hlen, hlow, hsame, hgood, -⟩ := stack_lowest hlp bridgeMat_good hck ho hst
  have hg := lowest_unique hlow (greedy_lowest ho ((C06_increasing bridgeMat_good hn).imp (by intro a b hab; omega)))
  have hgr : ((netNew bridgeMat false).toOption.map (fun n =>
      (List.range 5).map (greedy bridgeMat n.rows (fun i => thick bridgeMat i / 2)))) = some [1 / 4, 1, 1, 5 / 2, 4] := by
    decide +kernel
  rw [hn] at hgr
  simp only [Except.toOption, Option.map_some, Option.some.injEq, List.range_succ, List.range_zero, List.nil_append, List.cons_append,
    List.map_cons, List.map_nil, List.cons.injEq, and_true] at hgr
  have e := same_setZ hsame
  have e3 : (List.range bridgeMat.fibers.length).map (heightOf m') = [1 / 4, 1, 1, 5 / 2, 4] := by
    have e : (List.range bridgeMat.fibers.length).map (heightOf m') =
      [heightOf m' 0, heightOf m' 1, heightOf m' 2, heightOf m' 3, heightOf m' 4] := rfl
    rw [e, hg 0 (by decide), hg 1 (by decide), hg 2 (by decide), hg 3 (by decide), hg 4 (by decide), hgr.1, hgr.2.1, hgr.2.2.1,
      hgr.2.2.2.1, hgr.2.2.2.2]
  rw [e3] at e
  subst e
  obtain ⟨net', g1, rfl, -⟩ := chain_facts hlp bridgeMat_good (by simp [bridgeMat]) hn hst hmesh
  exact ⟨net, net', hn, g1, hst⟩

/-- With the threshold 2, not less than any thickness, the connection between the thin fiber and the beam (whose axes are 9/4 apart)
is dropped.  When the compression ends, whatever the solver and the coupling, the beam goes through the thin fiber. -/
theorem C116_pierced {lp : Linprog ℚ} (hlp : GoodLinprog lp) {coupling : ℚ} (hcoup : |coupling| ≤ 1) {lin : LinSolver ℚ}
    (hlin : GoodLin lin) : ∃ net m' full st mesh S recs stop r a,
    netNew bridgeMat false = .ok net ∧ stackNew lp bridgeMat net none = .ok (m', full) ∧
      stackNew lp bridgeMat net (some 2) = .ok (m', st) ∧ meshNew st = .ok mesh ∧ r ∈ full.rows ∧ r ∉ st.rows ∧
      solve m' mesh (some (1 / 100)) none coupling ⟨.pinf, 3 * mesh.rows.length + 1, 1 / 1000, 1 / 1000, [], lin⟩ none = .ok (S, recs, stop) ∧
      recs.getLast? = some a ∧
      ∃ j q, mesh.rows[j]? = some q ∧ q.fiber = r.B ∧ q.x = r.xA ∧ q.y = r.yA ∧
        (∃ i, OnFiber mesh.rows r.A i) ∧ ∀ i, OnFiber mesh.rows r.A i → pairGap m' mesh.rows a.x i j ≤ -1 / 4 := by
  obtain ⟨net, net', hn, g1, hst⟩ := bridge_stack hlp (some 2)
  obtain ⟨net2, net2', hn', g1', hfull⟩ := bridge_stack hlp none
  rw [hn] at hn'; cases hn'
  rw [g1] at g1'; cases g1'
  obtain ⟨m2, st2, mesh, hst2, hmesh, -⟩ := C27_mesh_of_stack hlp bridgeMat_good hn (some 2)
  rw [hst] at hst2; cases hst2
  obtain ⟨net3, m3, st3, mesh3, S, recs, stop, hn3, hst3, hmesh3, hs⟩ := C78_runs hlp bridgeMat_good (by simp [bridgeMat]) false
    (some 2) (some (1 / 100)) none coupling ⟨.pinf, 3 * mesh.rows.length + 1, 1 / 1000, 1 / 1000, [], lin⟩ none
  rw [hn] at hn3; cases hn3
  rw [hst] at hst3; cases hst3
  rw [hmesh] at hmesh3; cases hmesh3
  have hperm : PermOf S.n none := by intro p hp; cases hp
  obtain ⟨hp, -⟩ := C78_positive hlp bridgeMat_good (by simp [bridgeMat]) hn hst hmesh (a := 1 / 100) (by norm_num) (lmax := none)
    (by simp)
  -- the mesh
  have e1 : (((netNew bridgeUp false).bind (fun n => (meshNew (keep (some 2) n)).map (fun mesh =>
      mesh.rows.map (fun r : MeshRow ℚ => (r.fiber, r.x, r.y, r.z, r.constraint)))))).toOption =
      some [(0, 0, -2, 1 / 4, 0), (0, 0, 2, 1 / 4, 1), (1, -4, -2, 1, 2), (1, -4, 0, 1, 9), (1, -4, 2, 1, 4), (2, 4, -2, 1, 5),
        (2, 4, 0, 1, 11), (2, 4, 2, 1, 7), (3, -6, 0, 5 / 2, 8), (3, -4, 0, 5 / 2, 3), (3, 0, 0, 5 / 2, 14), (3, 4, 0, 5 / 2, 6),
        (3, 6, 0, 5 / 2, 12), (4, 0, -2, 4, 13), (4, 0, 0, 4, 10), (4, 0, 2, 4, 15)] := by
    decide +kernel
  rw [g1] at e1
  simp only [Except.bind] at e1
  rw [hmesh] at e1
  simp only [Except.map, Except.toOption, Option.some.injEq] at e1
  have hlen : mesh.rows.length = 16 := by simpa using congrArg List.length e1
  have hrow : ∀ (i : ℕ), (mesh.rows[i]?).map (fun r : MeshRow ℚ => (r.fiber, r.x, r.y, r.z, r.constraint)) =
      ([(0, 0, -2, 1 / 4, 0), (0, 0, 2, 1 / 4, 1), (1, -4, -2, 1, 2), (1, -4, 0, 1, 9), (1, -4, 2, 1, 4), (2, 4, -2, 1, 5),
        (2, 4, 0, 1, 11), (2, 4, 2, 1, 7), (3, -6, 0, 5 / 2, 8), (3, -4, 0, 5 / 2, 3), (3, 0, 0, 5 / 2, 14), (3, 4, 0, 5 / 2, 6),
        (3, 6, 0, 5 / 2, 12), (4, 0, -2, 4, 13), (4, 0, 0, 4, 10), (4, 0, 2, 4, 15)] : List (Int × ℚ × ℚ × ℚ × Int))[i]? := by
    intro i
    rw [← e1]; simp
  -- the connections
  have e2 : (netNew bridgeUp false).toOption.map (fun n => n.rows.map (fun r => (r.A, r.B, r.xA, r.yA))) =
      some [(0, 0, 0, 2), (0, 3, 0, 0), (1, 1, -4, 2), (1, 3, -4, 0), (2, 2, 4, 2), (2, 3, 4, 0), (3, 3, 6, 0), (3, 4, 0, 0),
        (4, 4, 0, 2)] := by decide +kernel
  have e3 : (netNew bridgeUp false).toOption.map (fun n => (keep (some 2) n).rows.map (fun r => (r.A, r.B, solid bridgeMat r))) =
      some [(0, 0, 1 / 2), (1, 1, 2), (1, 3, 3), (2, 2, 2), (2, 3, 3), (3, 3, 1), (3, 4, 3), (4, 4, 2)] := by decide +kernel
  rw [g1] at e2 e3
  simp only [Except.toOption, Option.map_some, Option.some.injEq] at e2 e3
  obtain ⟨r, hr, er⟩ : ∃ r ∈ net'.rows, (r.A, r.B, r.xA, r.yA) = ((0, 3, 0, 0) : Int × Int × ℚ × ℚ) := by
    have : ((0, 3, 0, 0) : Int × Int × ℚ × ℚ) ∈ net'.rows.map (fun r => (r.A, r.B, r.xA, r.yA)) := by rw [e2]; simp
    obtain ⟨r, hr, e⟩ := List.mem_map.1 this
    exact ⟨r, hr, e⟩
  simp only [Prod.mk.injEq] at er
  obtain ⟨rA, rB, rx, ry⟩ := er
  have hdrop : r ∉ (keep (some 2) net').rows := by
    intro hc
    have : (r.A, r.B, solid bridgeMat r) ∈ (keep (some 2) net').rows.map (fun r => (r.A, r.B, solid bridgeMat r)) :=
      List.mem_map.2 ⟨r, hc, rfl⟩
    rw [e3, rA, rB] at this
    simp at this
  have hH : SolidHeight bridgeMat (keep (some 2) net').rows 3 := by
    have hsol : ((keep (some 2) net').rows.map (solid bridgeMat)) = [1 / 2, 2, 3, 2, 3, 1, 3, 2] := by
      have := congrArg (List.map (fun p : Int × Int × ℚ => p.2.2)) e3
      rw [List.map_map] at this
      exact this
    constructor
    · have : (3 : ℚ) ∈ (keep (some 2) net').rows.map (solid bridgeMat) := by rw [hsol]; simp
      exact List.mem_map.1 this
    · intro q hq
      have : solid bridgeMat q ∈ (keep (some 2) net').rows.map (solid bridgeMat) := List.mem_map.2 ⟨q, hq, rfl⟩
      rw [hsol] at this
      simp only [List.mem_cons, List.not_mem_nil, or_false] at this
      rcases this with e | e | e | e | e | e | e | e <;> rw [e] <;> norm_num
  -- the end of the compression
  obtain ⟨a, ha, hfin⟩ := C82_final hlp bridgeMat_good bridgeMat_flat hn hst bridgeMat_keeps hmesh hs hp hcoup (Or.inr bridgeMat_rigid)
    (by norm_num) (by norm_num) hlin hperm (by simp) hH
  have hpk := (C82_limit hlp bridgeMat_good bridgeMat_flat hn hst hmesh hs hp (by norm_num) hlin.1 hperm hH _ a
    (getLast_getElem ha)).2.2
  have hZ : a.Z ≤ 3 + 3 / 1000 := by
    rcases hfin with hf | ⟨-, hf⟩
    · rw [hpk] at hf; simp [Cell.lt] at hf
    · refine hf.trans ?_
      norm_num
  have hnp := (C78_nonPenetrating hlp bridgeMat_good bridgeMat_flat hn hst hmesh hs hp (by norm_num) hlin.1 hperm _ a
    (getLast_getElem ha)).1
  have hget : ∀ i, i < 16 → ∃ q, mesh.rows[i]? = some q := fun i hi => ⟨_, List.getElem?_eq_getElem (by omega)⟩
  obtain ⟨q, hq⟩ := hget 10 (by norm_num)
  obtain ⟨c, hc⟩ := hget 14 (by norm_num)
  obtain ⟨b, hb⟩ := hget 0 (by norm_num)
  have hq' := hrow 10
  have hc' := hrow 14
  have hb' := hrow 0
  rw [hq] at hq'
  rw [hc] at hc'
  rw [hb] at hb'
  simp at hq' hc' hb'
  obtain ⟨q1, q2, q3, q4, q5⟩ := hq'
  obtain ⟨c1, c2, c3, c4, c5⟩ := hc'
  have t4 : thick bridgeUp 4 = 2 := by decide +kernel
  have t3 : thick bridgeUp 3 = 1 := by decide +kernel
  have t0 : thick bridgeUp 0 = 1 / 2 := by decide +kernel
  have tq : nodeThick bridgeUp mesh.rows 10 = 1 := by rw [← t3]; simp [nodeThick, thick, hq, q1]
  have tc : nodeThick bridgeUp mesh.rows 14 = 2 := by rw [← t4]; simp [nodeThick, thick, hc, c1]
  have n1 := hnp.roof 14 (by omega)
  have n2 := hnp.pair 10 14 q hq (by rw [q5]; norm_num) (by norm_num)
  rw [tc] at n1
  rw [tq, tc] at n2
  refine ⟨net, bridgeUp, _, _, mesh, S, recs, stop, r, a, hn, hfull, hst, hmesh, hr, hdrop, hs, ha, 10, q, hq, by rw [q1, rB],
    by rw [q2, rx], by rw [q3, ry], ⟨0, b, hb, by rw [hb'.1, rA]⟩, ?_⟩
  rintro i ⟨p, hi, hf⟩
  rw [rA] at hf
  have n3 := hnp.floor i (List.getElem?_eq_some_iff.1 hi).1
  have tp : nodeThick bridgeUp mesh.rows i = 1 / 2 := by rw [← t0]; simp [nodeThick, thick, hi, hf]
  rw [tp] at n3
  unfold pairGap
  rw [tq, tp]
  linarith

/-- C116: in the same compression, the dropped connection stays open until the plate has moved by 5/4, and the beam stays less than
`travel - 2` below it. -/
example (lp : Linprog ℚ) (hlp : GoodLinprog lp) : ∃ net m' full st mesh S recs stop r,
    netNew bridgeMat false = .ok net ∧ stackNew lp bridgeMat net none = .ok (m', full) ∧
      stackNew lp bridgeMat net (some 2) = .ok (m', st) ∧ meshNew st = .ok mesh ∧ r ∈ full.rows ∧ r ∉ st.rows ∧
      solve m' mesh (some (1 / 100)) none 1 ⟨.pinf, 3 * mesh.rows.length + 1, 1 / 1000, 1 / 1000, [], goodGauss⟩ none =
        .ok (S, recs, stop) ∧
      (∃ a ∈ recs, S.Z0 - a.Z ≤ 5 / 4) ∧ (∃ i, OnFiber mesh.rows r.A i) ∧ (∃ j, OnFiber mesh.rows r.B j) ∧
      ∀ a ∈ recs, ∀ i j, OnFiber mesh.rows r.A i → OnFiber mesh.rows r.B j →
        (2 - (S.Z0 - a.Z) < (nodeHeight mesh.rows j + a.x (2 * j)) - (nodeHeight mesh.rows i + a.x (2 * i))) ∧
        (S.Z0 - a.Z ≤ 5 / 4 → 0 < pairGap m' mesh.rows a.x i j) := by
  obtain ⟨net, m', full, st, mesh, S, recs, stop, r, a, hn, hfull, hst, hmesh, hr, hdrop, hs, -, j, q, hj, hjB, -, -, hi, -⟩ :=
    C116_pierced hlp (coupling := 1) (by norm_num) goodGauss_good
  obtain ⟨hp, -⟩ := C78_positive hlp bridgeMat_good (by simp [bridgeMat]) hn hst hmesh (a := 1 / 100) (by norm_num) (lmax := none)
    (by simp)
  have hperm : PermOf S.n none := by intro p hp; cases hp
  have hAB : r.A = 0 ∧ r.B = 3 := by
    obtain ⟨net2, net', hn', g1, hfull'⟩ := bridge_stack hlp none
    rw [hn] at hn'; cases hn'
    rw [hfull] at hfull'; cases hfull'
    obtain ⟨net2, net2', hn', g1', hst'⟩ := bridge_stack hlp (some 2)
    rw [hn] at hn'; cases hn'
    rw [g1] at g1'; cases g1'
    rw [hst] at hst'; cases hst'
    have e2 : (netNew bridgeUp false).toOption.map (fun n => n.rows.map (fun r => (r.A, r.B, decide (|r.zB - r.zA| ≤ 2 ∨ r.A = r.B)))) =
      some [(0, 0, true), (0, 3, false), (1, 1, true), (1, 3, true), (2, 2, true), (2, 3, true), (3, 3, true), (3, 4, true),
        (4, 4, true)] := by decide +kernel
    rw [g1] at e2
    simp only [Except.toOption, Option.map_some, Option.some.injEq] at e2
    have h1 : (r.A, r.B, decide (|r.zB - r.zA| ≤ 2 ∨ r.A = r.B)) ∈
        net'.rows.map (fun r => (r.A, r.B, decide (|r.zB - r.zA| ≤ 2 ∨ r.A = r.B))) := List.mem_map.2 ⟨r, hr, rfl⟩
    have h2 : decide (|r.zB - r.zA| ≤ 2 ∨ r.A = r.B) = false := by
      by_contra hc
      exact hdrop (List.mem_filter.2 ⟨hr, by rw [Bool.not_eq_false] at hc; exact hc⟩)
    rw [e2, h2] at h1
    simpa using h1
  have ht : (thick bridgeMat r.A.toNat + thick bridgeMat r.B.toNat) / 2 = 3 / 4 := by
    rw [hAB.1, hAB.2]; decide +kernel
  obtain ⟨-, a0, ha0, -, -, hZ0, -⟩ := C40_itermax hs
  refine ⟨net, m', full, st, mesh, S, recs, stop, r, hn, hfull, hst, hmesh, hr, hdrop, hs,
    ⟨a0, List.mem_of_getElem? ha0, by rw [hZ0]; norm_num⟩, hi, ⟨j, q, hj, hjB⟩, ?_⟩
  intro a ha i j hi hj
  obtain ⟨k, hk⟩ := List.mem_iff_getElem?.1 ha
  constructor
  · obtain ⟨p, hp1, hp2⟩ := hi
    obtain ⟨q, hq1, hq2⟩ := hj
    exact C116_clearance hlp bridgeMat_good bridgeMat_flat hn hfull hst bridgeMat_keeps hmesh hs hp (Or.inr bridgeMat_rigid)
      (by norm_num) goodGauss_good.1 hperm hr hdrop k a hk i j p q hp1 hq1 hp2 hq2
  · intro hle
    refine C116_open hlp bridgeMat_good bridgeMat_flat hn hfull hst bridgeMat_keeps hmesh hs hp (Or.inr bridgeMat_rigid)
      (by norm_num) goodGauss_good.1 hperm hr hdrop k a hk ?_ i j hi hj
    rw [ht]; linarith

end Fibermat
