import Verif.Props.PullExamples

/-! # C127 along the whole chain: a contact that pulls in a planar stacked mat

The kernel evaluates the chain; the matrix of the solver is first compared with a table, row by row, since evaluating it directly takes too much memory. -/

namespace Fibermat
open Spec

/-- A fiber on the floor, two fibers across it, and two fibers over these: the first over both, the second, which is thicker, over one of them.  All fibers have the default (infinite)
tensile modulus. -/
def hoistMat : Mat ℚ :=
  { fibers := [⟨10, 1, 1, 0, 0, 1 / 2, 0, 1, 0, 1, ⊤⟩,
               ⟨10, 1, 1, 0, 2, 3 / 2, 1, 0, 0, 1, ⊤⟩,
               ⟨10, 1, 1, 0, -2, 3 / 2, 1, 0, 0, 1, ⊤⟩,
               ⟨10, 1, 1, 1, 0, 5 / 2, 0, 1, 0, 1, ⊤⟩,
               ⟨4, 1, 2, 3, 3, 3, 0, 1, 0, 1, ⊤⟩]
    attrs := { n := some 5, size := some 20, periodic := some true } }


/-- The chain from the fibers to the stiffness and constraint matrices. -/
def hoistChain : Option (Mesh ℚ × Coo (Cell ℚ) × ConstraintSys ℚ) := ((netNew hoistMat true).bind (fun n => (meshNew (keep none n)).bind (fun mesh =>
   (stiffness hoistMat mesh none none 1).bind (fun Km => (constraint hoistMat mesh).map (fun cs => (mesh, Km, cs)))))).toOption

/-- Entries of the matrix of the solver that are not zero. -/
def hoistTab : List (List (ℕ × Cell ℚ)) := [
  [(0, .fin (884279719003555 / 3377699720527872)), (1, .fin (884279719003555 / 2251799813685248)), (2, .fin (-884279719003555 / 3377699720527872)), (3, .fin (884279719003555 / 2251799813685248)), (40, .fin (-1)), (42, .fin (1))],
  [(0, .fin (884279719003555 / 2251799813685248)), (1, .pinf), (2, .fin (-884279719003555 / 2251799813685248)), (3, .ninf)],
  [(0, .fin (-884279719003555 / 3377699720527872)), (1, .fin (-884279719003555 / 2251799813685248)), (2, .fin (6189958033024885 / 13510798882111488)), (4, .fin (-884279719003555 / 4503599627370496)), (5, .fin (884279719003555 / 2251799813685248)), (43, .fin (-1)), (44, .fin (1))],
  [(0, .fin (884279719003555 / 2251799813685248)), (1, .ninf), (3, .pinf), (4, .fin (-884279719003555 / 2251799813685248)), (5, .ninf)],
  [(2, .fin (-884279719003555 / 4503599627370496)), (3, .fin (-884279719003555 / 2251799813685248)), (4, .fin (6189958033024885 / 13510798882111488)), (6, .fin (-884279719003555 / 3377699720527872)), (7, .fin (884279719003555 / 2251799813685248)), (46, .fin (-1)), (47, .fin (1))],
  [(2, .fin (884279719003555 / 2251799813685248)), (3, .ninf), (5, .pinf), (6, .fin (-884279719003555 / 2251799813685248)), (7, .ninf)],
  [(4, .fin (-884279719003555 / 3377699720527872)), (5, .fin (-884279719003555 / 2251799813685248)), (6, .fin (884279719003555 / 3377699720527872)), (7, .fin (-884279719003555 / 2251799813685248)), (49, .fin (-1)), (51, .fin (1))],
  [(4, .fin (884279719003555 / 2251799813685248)), (5, .ninf), (6, .fin (-884279719003555 / 2251799813685248)), (7, .pinf)],
  [(8, .fin (176855943800711 / 1125899906842624)), (9, .fin (884279719003555 / 2251799813685248)), (10, .fin (-176855943800711 / 1125899906842624)), (11, .fin (884279719003555 / 2251799813685248)), (52, .fin (-1)), (54, .fin (1))],
  [(8, .fin (884279719003555 / 2251799813685248)), (9, .pinf), (10, .fin (-884279719003555 / 2251799813685248)), (11, .ninf)],
  [(8, .fin (-176855943800711 / 1125899906842624)), (9, .fin (-884279719003555 / 2251799813685248)), (10, .fin (530567831402133 / 562949953421312)), (12, .fin (-884279719003555 / 1125899906842624)), (13, .fin (884279719003555 / 2251799813685248)), (47, .fin (-1)), (48, .fin (1))],
  [(8, .fin (884279719003555 / 2251799813685248)), (9, .ninf), (11, .pinf), (12, .fin (-884279719003555 / 2251799813685248)), (13, .ninf)],
  [(10, .fin (-884279719003555 / 1125899906842624)), (11, .fin (-884279719003555 / 2251799813685248)), (12, .fin (2652839157010665 / 2251799813685248)), (14, .fin (-884279719003555 / 2251799813685248)), (15, .fin (884279719003555 / 2251799813685248)), (55, .fin (-1)), (56, .fin (1))],
  [(10, .fin (884279719003555 / 2251799813685248)), (11, .ninf), (13, .pinf), (14, .fin (-884279719003555 / 2251799813685248)), (15, .ninf)],
  [(12, .fin (-884279719003555 / 2251799813685248)), (13, .fin (-884279719003555 / 2251799813685248)), (14, .fin (884279719003555 / 1125899906842624)), (16, .fin (-884279719003555 / 2251799813685248)), (17, .fin (884279719003555 / 2251799813685248)), (58, .fin (-1)), (59, .fin (1))],
  [(12, .fin (884279719003555 / 2251799813685248)), (13, .ninf), (15, .pinf), (16, .fin (-884279719003555 / 2251799813685248)), (17, .ninf)],
  [(14, .fin (-884279719003555 / 2251799813685248)), (15, .fin (-884279719003555 / 2251799813685248)), (16, .fin (884279719003555 / 2251799813685248)), (17, .fin (-884279719003555 / 2251799813685248)), (61, .fin (-1)), (63, .fin (1))],
  [(14, .fin (884279719003555 / 2251799813685248)), (15, .ninf), (16, .fin (-884279719003555 / 2251799813685248)), (17, .pinf)],
  [(18, .fin (176855943800711 / 1125899906842624)), (19, .fin (884279719003555 / 2251799813685248)), (20, .fin (-176855943800711 / 1125899906842624)), (21, .fin (884279719003555 / 2251799813685248)), (64, .fin (-1)), (66, .fin (1))],
  [(18, .fin (884279719003555 / 2251799813685248)), (19, .pinf), (20, .fin (-884279719003555 / 2251799813685248)), (21, .ninf)],
  [(18, .fin (-176855943800711 / 1125899906842624)), (19, .fin (-884279719003555 / 2251799813685248)), (20, .fin (530567831402133 / 562949953421312)), (22, .fin (-884279719003555 / 1125899906842624)), (23, .fin (884279719003555 / 2251799813685248)), (44, .fin (-1)), (45, .fin (1))],
  [(18, .fin (884279719003555 / 2251799813685248)), (19, .ninf), (21, .pinf), (22, .fin (-884279719003555 / 2251799813685248)), (23, .ninf)],
  [(20, .fin (-884279719003555 / 1125899906842624)), (21, .fin (-884279719003555 / 2251799813685248)), (22, .fin (4421398595017775 / 4503599627370496)), (24, .fin (-884279719003555 / 4503599627370496)), (25, .fin (884279719003555 / 2251799813685248)), (67, .fin (-1)), (68, .fin (1))],
  [(20, .fin (884279719003555 / 2251799813685248)), (21, .ninf), (23, .pinf), (24, .fin (-884279719003555 / 2251799813685248)), (25, .ninf)],
  [(22, .fin (-884279719003555 / 4503599627370496)), (23, .fin (-884279719003555 / 2251799813685248)), (24, .fin (884279719003555 / 4503599627370496)), (25, .fin (-884279719003555 / 2251799813685248)), (70, .fin (-1)), (72, .fin (1))],
  [(22, .fin (884279719003555 / 2251799813685248)), (23, .ninf), (24, .fin (-884279719003555 / 2251799813685248)), (25, .pinf)],
  [(26, .fin (884279719003555 / 3377699720527872)), (27, .fin (884279719003555 / 2251799813685248)), (28, .fin (-884279719003555 / 3377699720527872)), (29, .fin (884279719003555 / 2251799813685248)), (73, .fin (-1)), (75, .fin (1))],
  [(26, .fin (884279719003555 / 2251799813685248)), (27, .pinf), (28, .fin (-884279719003555 / 2251799813685248)), (29, .ninf)],
  [(26, .fin (-884279719003555 / 3377699720527872)), (27, .fin (-884279719003555 / 2251799813685248)), (28, .fin (6189958033024885 / 13510798882111488)), (30, .fin (-884279719003555 / 4503599627370496)), (31, .fin (884279719003555 / 2251799813685248)), (68, .fin (-1)), (69, .fin (1))],
  [(26, .fin (884279719003555 / 2251799813685248)), (27, .ninf), (29, .pinf), (30, .fin (-884279719003555 / 2251799813685248)), (31, .ninf)],
  [(28, .fin (-884279719003555 / 4503599627370496)), (29, .fin (-884279719003555 / 2251799813685248)), (30, .fin (6189958033024885 / 13510798882111488)), (32, .fin (-884279719003555 / 3377699720527872)), (33, .fin (884279719003555 / 2251799813685248)), (56, .fin (-1)), (57, .fin (1))],
  [(28, .fin (884279719003555 / 2251799813685248)), (29, .ninf), (31, .pinf), (32, .fin (-884279719003555 / 2251799813685248)), (33, .ninf)],
  [(30, .fin (-884279719003555 / 3377699720527872)), (31, .fin (-884279719003555 / 2251799813685248)), (32, .fin (884279719003555 / 3377699720527872)), (33, .fin (-884279719003555 / 2251799813685248)), (76, .fin (-1)), (78, .fin (1))],
  [(30, .fin (884279719003555 / 2251799813685248)), (31, .ninf), (32, .fin (-884279719003555 / 2251799813685248)), (33, .pinf)],
  [(34, .fin (884279719003555 / 562949953421312)), (35, .fin (884279719003555 / 1125899906842624)), (36, .fin (-884279719003555 / 562949953421312)), (37, .fin (884279719003555 / 1125899906842624)), (79, .fin (-1)), (81, .fin (1))],
  [(34, .fin (884279719003555 / 1125899906842624)), (35, .pinf), (36, .fin (-884279719003555 / 1125899906842624)), (37, .ninf)],
  [(34, .fin (-884279719003555 / 562949953421312)), (35, .fin (-884279719003555 / 1125899906842624)), (36, .fin (884279719003555 / 422212465065984)), (38, .fin (-884279719003555 / 1688849860263936)), (39, .fin (884279719003555 / 1125899906842624)), (59, .fin (-1)), (60, .fin (1))],
  [(34, .fin (884279719003555 / 1125899906842624)), (35, .ninf), (37, .pinf), (38, .fin (-884279719003555 / 1125899906842624)), (39, .ninf)],
  [(36, .fin (-884279719003555 / 1688849860263936)), (37, .fin (-884279719003555 / 1125899906842624)), (38, .fin (884279719003555 / 1688849860263936)), (39, .fin (-884279719003555 / 1125899906842624)), (82, .fin (-1)), (84, .fin (1))],
  [(36, .fin (884279719003555 / 1125899906842624)), (37, .ninf), (38, .fin (-884279719003555 / 1125899906842624)), (39, .pinf)],
  [(0, .fin (-1))],
  [],
  [(0, .fin (1))],
  [(2, .fin (-1))],
  [(2, .fin (1)), (20, .fin (-1))],
  [(20, .fin (1))],
  [(4, .fin (-1))],
  [(4, .fin (1)), (10, .fin (-1))],
  [(10, .fin (1))],
  [(6, .fin (-1))],
  [],
  [(6, .fin (1))],
  [(8, .fin (-1))],
  [],
  [(8, .fin (1))],
  [(12, .fin (-1))],
  [(12, .fin (1)), (30, .fin (-1))],
  [(30, .fin (1))],
  [(14, .fin (-1))],
  [(14, .fin (1)), (36, .fin (-1))],
  [(36, .fin (1))],
  [(16, .fin (-1))],
  [],
  [(16, .fin (1))],
  [(18, .fin (-1))],
  [],
  [(18, .fin (1))],
  [(22, .fin (-1))],
  [(22, .fin (1)), (28, .fin (-1))],
  [(28, .fin (1))],
  [(24, .fin (-1))],
  [],
  [(24, .fin (1))],
  [(26, .fin (-1))],
  [],
  [(26, .fin (1))],
  [(32, .fin (-1))],
  [],
  [(32, .fin (1))],
  [(34, .fin (-1))],
  [],
  [(34, .fin (1))],
  [(38, .fin (-1))],
  [],
  [(38, .fin (1))]]

def hoistP (r c : ℕ) : Cell ℚ := ((hoistTab.getD r []).lookup c).getD (.fin 0)

/-- An exact solver that knows the solution of the first step. -/
def hoistOpts : Opts ℚ :=
  { packing := .pinf, itermax := 1, tol := 0, errtol := 0, perm := List.range 85,
    lin := lookup [[0, 0, 0, 0, 0, 0, 5 / 17, 1, 1, 0, 0, 1 / 17, 1 / 17, 1 / 17, 1 / 17, 5 / 17, 5 / 17, 1, 1, 1, 0,
      -884279719003555 / 19140298416324608, -884279719003555 / 19140298416324608, -4421398595017775 / 19140298416324608,
      -4421398595017775 / 19140298416324608, 0, 884279719003555 / 19140298416324608, -2652839157010665 / 9570149208162304,
      -2652839157010665 / 9570149208162304, -884279719003555 / 19140298416324608, 0, 0]] }


/-- Entries of a matrix, row by row. -/
def sumCol {V : Type} [Add V] [Zero V] (row : List (ℕ × ℕ × V)) (c : ℕ) : V := ((row.filter (fun e => e.2.1 = c)).map (fun e => e.2.2)).sum
def sumRow {V : Type} [Add V] [Zero V] (col : List (ℕ × ℕ × V)) (r : ℕ) : V := ((col.filter (fun e => e.1 = r)).map (fun e => e.2.2)).sum

def tabUpper (Km : Coo (Cell ℚ)) (C : Coo ℚ) (r : ℕ) : Bool :=
  let row := Km.entries.filter (fun e => e.1 = r)
  let col := C.entries.filter (fun e => e.2.1 = r)
  (List.range 40).all (fun c => decide (sumCol row c = hoistP r c)) && (List.range 45).all (fun c => decide (Cell.fin (sumRow col c) = hoistP r (40 + c)))

def tabLower (C : Coo ℚ) (r : ℕ) : Bool :=
  let row := C.entries.filter (fun e => e.1 = r)
  (List.range 40).all (fun c => decide (Cell.fin (sumCol row c) = hoistP (40 + r) c)) && (List.range 45).all (fun c => decide (Cell.fin (0 : ℚ) = hoistP (40 + r) (40 + c)))
theorem hoistMat_good : GoodMat hoistMat :=
  ((matCheck_frame_iff _).1 (by decide +kernel)).resolve_left (by simp [Skipped, hoistMat])

/-- The fibers already are where `Stack` puts them. -/
theorem hoist_stack {lp : Linprog ℚ} (hlp : GoodLinprog lp) (threshold : Option ℚ) :
    ∃ net st, netNew hoistMat true = .ok net ∧ stackNew lp hoistMat net threshold = .ok (hoistMat, st) := by
  obtain ⟨net, hn, hinc, -⟩ := C06_netNew_ok hoistMat_good true
  obtain ⟨hck, ho, -⟩ := netNew_over hoistMat_good hn
  obtain ⟨⟨m', st⟩, hst⟩ := C15_stack_ok hlp hoistMat_good hck ho threshold
  obtain ⟨hlen, hlow, hsame, -, -⟩ := stack_lowest hlp hoistMat_good hck ho hst
  have hg := lowest_unique hlow (greedy_lowest ho ((C06_increasing hoistMat_good hn).imp (by intro a b hab; omega)))
  have hgr : ((netNew hoistMat true).toOption.map (fun n =>
      (List.range 5).map (greedy hoistMat n.rows (fun i => thick hoistMat i / 2)))) = some [1 / 2, 3 / 2, 3 / 2, 5 / 2, 3] := by
    decide +kernel
  rw [hn] at hgr
  simp only [Except.toOption, Option.map_some, Option.some.injEq] at hgr
  refine ⟨net, st, hn, ?_⟩
  have e := same_setZ hsame
  have e3 : (List.range hoistMat.fibers.length).map (heightOf m') = [1 / 2, 3 / 2, 3 / 2, 5 / 2, 3] := by
    rw [← hgr]
    apply List.map_congr_left
    intro i hi
    exact hg i (List.mem_range.1 hi)
  rw [e3] at e
  rw [hst, e]
  rfl


set_option synthInstance.maxSize 1000 in
set_option synthInstance.maxHeartbeats 200000 in
theorem hoist_tab : hoistChain.map (fun p => (p.2.1.nrows, p.2.2.C.nrows, (List.range 40).all (tabUpper p.2.1 p.2.2.C) && (List.range 45).all (tabLower p.2.2.C))) =
    some (40, 45, true) := by decide +kernel

set_option synthInstance.maxSize 1000 in
set_option synthInstance.maxHeartbeats 200000 in
theorem hoist_steps : hoistChain.map (fun p =>
    (({ assemble p.2.1 p.2.2 with P := fun r c => if r < 85 ∧ c < 85 then hoistP r c else (assemble p.2.1 p.2.2).P r c } : Sys ℚ).run hoistOpts).1.map
      (fun a => (a.Z, a.x 56))) = some [(4, 0), (3, -884279719003555 / 19140298416324608)] := by decide +kernel

set_option synthInstance.maxSize 1000 in
set_option synthInstance.maxHeartbeats 200000 in
/-- Node 6 of the second fiber is in contact with node 15 of the fourth; their rows in the constraint matrix are the sixth. -/
theorem hoist_mesh : hoistChain.map (fun p => (p.1.rows.map (fun r => (r.fiber, r.s, r.beam, r.constraint)), (List.range 15).filter (fun q => p.2.2.C.get (3 * q) 12 = -1), p.2.2.C.ncols,
      (List.range 20).all (fun i => decide (0 < beamLength p.1.rows i) || [3, 8, 12, 16, 19].contains i))) =
    some ([(0, -5, 1, 0), (0, -2, 2, 10), (0, 2, 3, 5), (0, 5, 0, 3),
             (1, -5, 5, 4), (1, 0, 6, 2), (1, 1, 7, 15), (1, 3, 8, 18), (1, 5, 4, 8),
             (2, -5, 10, 9), (2, 0, 11, 1), (2, 1, 12, 14), (2, 5, 9, 12),
             (3, -5, 14, 13), (3, -2, 15, 11), (3, 2, 16, 6), (3, 5, 13, 16),
             (4, -2, 18, 17), (4, -1, 19, 7), (4, 2, 17, 19)], [5], 40, true) := by decide +kernel

theorem get_row {V : Type} [AddMonoid V] (M : Coo V) (r c : ℕ) : M.get r c = sumCol (M.entries.filter (fun e => e.1 = r)) c := by
  unfold Coo.get sumCol
  rw [List.filter_filter]
  congr 2
  apply List.filter_congr
  intro e _
  simp [Bool.and_comm]

theorem get_col {V : Type} [AddMonoid V] (M : Coo V) (r c : ℕ) : M.get r c = sumRow (M.entries.filter (fun e => e.2.1 = c)) r := by
  unfold Coo.get sumRow
  rw [List.filter_filter]
  congr 2
  apply List.filter_congr
  intro e _
  simp

/-- The matrix of the solver is the table. -/
theorem hoist_matrix {mesh : Mesh ℚ} {Km : Coo (Cell ℚ)} {cs : ConstraintSys ℚ} (h : hoistChain = some (mesh, Km, cs)) :
    Km.nrows = 40 ∧ cs.C.nrows = 45 ∧ ∀ r c, r < 85 → c < 85 → (assemble Km cs).P r c = hoistP r c := by
  have hx := hoist_tab
  rw [h] at hx
  simp only [Option.map_some, Option.some.injEq, Prod.mk.injEq, Bool.and_eq_true, List.all_eq_true, List.mem_range] at hx
  obtain ⟨h1, h2, h3, h4⟩ := hx
  refine ⟨h1, h2, fun r c hr hc => ?_⟩
  simp only [tabUpper, tabLower, Bool.and_eq_true, List.all_eq_true, List.mem_range, decide_eq_true_eq] at h3 h4
  simp only [assemble, h1]
  by_cases r40 : r < 40
  · rw [if_pos r40]
    by_cases c40 : c < 40
    · rw [if_pos c40, get_row]
      exact (h3 r r40).1 c c40
    · obtain ⟨c', rfl⟩ : ∃ c', c = 40 + c' := ⟨c - 40, by omega⟩
      rw [if_neg c40, Nat.add_sub_cancel_left, get_col]
      exact (h3 r r40).2 c' (by omega)
  · obtain ⟨r', rfl⟩ : ∃ r', r = 40 + r' := ⟨r - 40, by omega⟩
    rw [if_neg r40]
    by_cases c40 : c < 40
    · rw [if_pos c40, Nat.add_sub_cancel_left, get_row]
      exact (h4 r' (by omega)).1 c c40
    · obtain ⟨c', rfl⟩ : ∃ c', c = 40 + c' := ⟨c - 40, by omega⟩
      rw [if_neg c40]
      exact (h4 r' (by omega)).2 c' (by omega)

/-- The first step of the solver along the chain. -/
theorem hoist_run {net : Net ℚ} (hn : netNew hoistMat true = .ok net) : ∃ mesh Km cs recs stop, hoistChain = some (mesh, Km, cs) ∧ meshNew (keep none net) = .ok mesh ∧
    constraint hoistMat mesh = .ok cs ∧ solve hoistMat mesh none none 1 hoistOpts none = .ok (assemble Km cs, recs, stop) ∧
    recs.map (fun a => (a.Z, a.x 56)) = [(4, 0), (3, -884279719003555 / 19140298416324608)] := by
  have hx := hoist_tab
  cases hch : hoistChain with
  | none => rw [hch] at hx; cases hx
  | some p =>
    obtain ⟨mesh, Km, cs⟩ := p
    have h2 := hch
    unfold hoistChain at h2
    rw [hn] at h2
    simp only [Except.bind] at h2
    cases hmesh : meshNew (keep none net) with
    | error e => rw [hmesh] at h2; cases h2
    | ok mesh' =>
      rw [hmesh] at h2
      simp only at h2
      cases hK : stiffness hoistMat mesh' none none 1 with
      | error e => rw [hK] at h2; cases h2
      | ok Km' =>
        rw [hK] at h2
        simp only at h2
        cases hC : constraint hoistMat mesh' with
        | error e => rw [hC] at h2; cases h2
        | ok cs' =>
          rw [hC] at h2
          simp only [Except.map, Except.toOption, Option.some.injEq, Prod.mk.injEq] at h2
          obtain ⟨rfl, rfl, rfl⟩ := h2
          obtain ⟨n1, n2, htab⟩ := hoist_matrix hch
          have hP : (fun r c => if r < 85 ∧ c < 85 then hoistP r c else (assemble Km' cs').P r c) = (assemble Km' cs').P := by
            funext r c
            split_ifs with hrc
            · exact (htab r c hrc.1 hrc.2).symm
            · rfl
          have hs := hoist_steps
          rw [hch] at hs
          simp only [Option.map_some, Option.some.injEq] at hs
          rw [hP] at hs
          have hn85 : (assemble Km' cs').n = 85 := by
            show Km'.nrows + cs'.C.nrows = 85
            omega
          refine ⟨mesh', Km', cs', ((assemble Km' cs').run hoistOpts).1, ((assemble Km' cs').run hoistOpts).2, rfl, rfl, hC, ?_, hs⟩
          unfold solve
          rw [hK, hC]
          show Except.ok (assemble Km' cs', (assemble Km' cs').run { hoistOpts with perm := List.range (assemble Km' cs').n }) = _
          rw [hn85]
          rfl

/-- A contact between two fibers can pull even in a planar mat with the default, infinite tensile modulus, obtained from `Net`, `Stack` and `Mesh` and compressed with an exact solver
and `tol = 0`.  The plate pushes the thick fiber on one side of the second one, which pulls down the fiber that lies on it and on its neighbour. -/
theorem C127_pulls_chain {lp : Linprog ℚ} (hlp : GoodLinprog lp) : ∃ (m : Mat ℚ) (net st : Net ℚ) (mesh : Mesh ℚ) (o : Opts ℚ) (S : Sys ℚ) (recs : List (Rec ℚ)) (stop : Stop)
    (cs : ConstraintSys ℚ) (b : Rec ℚ) (q i j : ℕ), GoodMat m ∧ (∀ f ∈ m.fibers, f.w = 0 ∧ f.E = ⊤) ∧ netNew m true = .ok net ∧
    stackNew lp m net none = .ok (m, st) ∧ meshNew st = .ok mesh ∧ solve m mesh none none 1 o none = .ok (S, recs, stop) ∧ PositiveLengths mesh.rows none none ∧
    o.tol = 0 ∧ ExactLin o.lin ∧ constraint m mesh = .ok cs ∧ ContactRows cs.C q i j ∧ i ≠ j ∧ recs[1]? = some b ∧ b.x (2 * mesh.rows.length + (3 * q + 1)) < 0 := by
  obtain ⟨net, st, hn, hst⟩ := hoist_stack hlp none
  obtain ⟨mesh, Km, cs, recs, stop, hch, hmesh, hC, hs, hr⟩ := hoist_run hn
  obtain ⟨-, n2, -⟩ := hoist_matrix hch
  have hst' : st = keep none net := by
    obtain ⟨m', st', mesh', hst'', hmesh', -⟩ := C27_mesh_of_stack hlp hoistMat_good hn none
    rw [hst] at hst''; cases hst''
    obtain ⟨net', g1, g2, -⟩ := chain_facts hlp hoistMat_good (by simp [hoistMat]) hn hst hmesh'
    rw [hn] at g1; cases g1
    exact g2
  subst hst'
  have hm := hoist_mesh
  rw [hch] at hm
  simp only [Option.map_some, Option.some.injEq, Prod.mk.injEq] at hm
  obtain ⟨hrows, hq5, hcols, hpos⟩ := hm
  have hlen : mesh.rows.length = 20 := by simpa using congrArg List.length hrows
  have hrow : ∀ (i : ℕ) (r : MeshRow ℚ), mesh.rows[i]? = some r → ([(0, -5, 1, 0), (0, -2, 2, 10), (0, 2, 3, 5), (0, 5, 0, 3),
             (1, -5, 5, 4), (1, 0, 6, 2), (1, 1, 7, 15), (1, 3, 8, 18), (1, 5, 4, 8),
             (2, -5, 10, 9), (2, 0, 11, 1), (2, 1, 12, 14), (2, 5, 9, 12),
             (3, -5, 14, 13), (3, -2, 15, 11), (3, 2, 16, 6), (3, 5, 13, 16),
             (4, -2, 18, 17), (4, -1, 19, 7), (4, 2, 17, 19)] : List (Int × ℚ × Int × Int))[i]? = some (r.fiber, r.s, r.beam, r.constraint) := by
    intro i r hr
    rw [← hrows]; simp [hr]
  have hl : recs.length = 2 := by simpa using congrArg List.length hr
  have h1 : recs[1]? = some (recs[1]'(by omega)) := List.getElem?_eq_getElem _
  generalize recs[1] = b at h1
  have hb := congrArg (fun l => l[1]?) hr
  simp only [List.getElem?_map, h1, Option.map_some, List.getElem?_cons_succ, List.getElem?_cons_zero, Option.some.injEq, Prod.mk.injEq] at hb
  have h6 : mesh.rows[6]? = some (mesh.rows[6]'(by omega)) := List.getElem?_eq_getElem _
  have e6 := hrow 6 _ h6
  simp only [List.getElem?_cons_succ, List.getElem?_cons_zero, Option.some.injEq, Prod.mk.injEq] at e6
  obtain ⟨q, hq, hqr⟩ := C127_rows hC (i := 6) (j := 15) ⟨by omega, _, h6, e6.2.2.2.symm⟩
  have g1 := (hqr (fun r => if r = 12 then 1 else 0)).1
  rw [rowDot_single (by omega), if_pos rfl] at g1
  have g2 : q ∈ (List.range 15).filter (fun q => cs.C.get (3 * q) 12 = -1) := List.mem_filter.2 ⟨List.mem_range.2 (by omega), by simpa using g1⟩
  rw [hq5, List.mem_singleton] at g2
  subst g2
  refine ⟨hoistMat, _, _, mesh, hoistOpts, _, recs, stop, cs, b, 5, 6, 15, hoistMat_good, by simp [hoistMat], hn, hst, hmesh, hs, ?_, rfl, lookup_exact _, hC,
    hqr, by omega, h1, ?_⟩
  · refine positiveLengths_raw ?_
    rintro i ⟨r, hr, hb⟩
    have hi : i < 20 := by rw [← hlen]; exact (List.getElem?_eq_some_iff.1 hr).1
    have h3 := List.all_eq_true.1 hpos i (List.mem_range.2 hi)
    rw [Bool.or_eq_true, decide_eq_true_eq] at h3
    refine h3.resolve_right (fun hin => ?_)
    have hin : i = 3 ∨ i = 8 ∨ i = 12 ∨ i = 16 ∨ i = 19 := by simpa using hin
    have e := hrow i r hr
    rcases hin with rfl | rfl | rfl | rfl | rfl <;> simp at e <;> omega
  · rw [hlen]
    show b.x 56 < 0
    rw [hb.2]; norm_num

end Fibermat
