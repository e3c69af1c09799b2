import Verif.Props.Constraint
import Verif.Props.SolverMore

/-! # Concrete runs of the solver

Non-vacuity of C40-C50 and C54: two crossing fibers, the lower one arched, are pressed in two steps (the upper fiber goes down
to the arch, then the arch bends down to the plate) until nothing can move any more. -/

namespace Fibermat
open Spec

/-- A linear solver that answers the first candidate satisfying the equations: exact by construction, and executable. -/
def lookup (cands : List (List ℚ)) : LinSolver ℚ := fun A b =>
  cands.find? (fun x => decide (x.length = b.length ∧
    A.map (fun row => (List.zipWith (fun c y => c * Cell.fin y) row x).sum) = b.map Cell.fin))

theorem zipWith_dot (row x : List ℚ) :
    (List.zipWith (fun c y => c * Cell.fin y) (row.map Cell.fin) x).sum = .fin (dot row x) := by
  induction row generalizing x with
  | nil => rfl
  | cons a row ih =>
    cases x with
    | nil => rfl
    | cons b x =>
      simp only [List.map_cons, List.zipWith_cons_cons, List.sum_cons, ih, dot]
      rfl

theorem lookup_exact (cands : List (List ℚ)) : ExactLin (lookup cands) := by
  intro A b x hsq h
  have := List.find?_some h
  simp only [decide_eq_true_eq] at this
  refine ⟨this.1, ?_⟩
  intro i row c hr hc
  have h2 := congrArg (fun l => l[i]?) this.2
  simp only [List.getElem?_map, cells, hr, hc, Option.map_some, Option.some.injEq, zipWith_dot, Cell.fin.injEq] at h2
  exact h2

/-- The mesh of `duoMat` with an arched lower fiber, the upper fiber hanging above it. -/
def archMesh : Mesh ℚ :=
  { duoMesh with
    rows := [⟨0, -5, -5, 0, 1 / 2, 1, 0⟩, ⟨0, 0, 0, 0, 1, 2, 4⟩, ⟨0, 5, 5, 0, 1 / 2, 0, 2⟩,
             ⟨1, -5, 0, -5, 9 / 4, 4, 3⟩, ⟨1, 0, 0, 0, 9 / 4, 5, 1⟩, ⟨1, 5, 0, 5, 9 / 4, 3, 5⟩] }

theorem archMesh_valid : ValidMesh archMesh.frame :=
  ((C28_meshCheck_iff _).1 (by decide +kernel)).resolve_left (by simp [Skipped, archMesh, duoMesh, Mesh.frame])

theorem archMesh_over : OverFibers duoMat archMesh.rows ∧ OverFibers rigidMat archMesh.rows := by
  constructor <;> intro r hr <;> simp [archMesh] at hr <;> rcases hr with rfl | rfl | rfl | rfl | rfl | rfl <;>
    simp [duoMat, rigidMat]

theorem archMesh_beam : StartsBeam archMesh.rows 0 := ⟨_, rfl, by decide⟩

theorem archMesh_lengths : PositiveLengths archMesh.rows none none := by
  refine positiveLengths_raw ?_
  rintro i ⟨r, hr, h⟩
  have hi : i < 6 := (List.getElem?_eq_some_iff.1 hr).1
  interval_cases i <;> simp [archMesh] at hr <;> subst hr <;> simp at h <;>
    simp [beamLength, abscissa, succNode, archMesh]

theorem archMesh_reciprocal : ConstraintsReciprocal archMesh.rows := by
  have := archMesh_valid.constraints
  rwa [rows_meshFrame] at this

theorem arch_constraint : ∃ cs, constraint duoMat archMesh = .ok cs ∧ cs.Z = 11 / 4 ∧ cs.C.nrows = 15 ∧
    Admissible cs (fun _ => 0) := by
  obtain ⟨cs, h⟩ := C37_total duoMat_good (mesh := archMesh) (by decide +kernel) archMesh_reciprocal archMesh_over.1
    (by simp [archMesh])
  have hx : (constraint duoMat archMesh).toOption.map (fun c => (c.Z, c.C.nrows)) = some (11 / 4, 15) := by
    decide +kernel
  rw [h] at hx
  simp only [Except.toOption, Option.map_some, Option.some.injEq, Prod.mk.injEq] at hx
  obtain ⟨-, -, -, -, hiff⟩ := C37_geometric h duoMat_good archMesh_reciprocal
  refine ⟨cs, h, hx.1, hx.2, ?_⟩
  rw [hiff, hx.1]
  refine ⟨?_, ?_, ?_⟩
  · intro i hi
    have hi : i < 6 := hi
    interval_cases i <;> norm_num [nodeThick, nodeHeight, archMesh, duoMat]
  · intro i hi
    have hi : i < 6 := hi
    interval_cases i <;> norm_num [nodeThick, nodeHeight, archMesh, duoMat]
  · intro i j r hr hj hij
    have hi : i < 6 := (List.getElem?_eq_some_iff.1 hr).1
    interval_cases i <;> simp [archMesh] at hr <;> subst hr <;> simp at hj <;>
      first | omega | (have : j = 4 := by omega
                       subst this
                       norm_num [nodeThick, nodeHeight, archMesh, duoMat])

/-- Answers needed by the two runs below. -/
def archLin : LinSolver ℚ := lookup
  [[0, 0, 0, 0, 0, 0, 1, 0, 1, 0, 1, 0, 0, 0, 0, 0, 0],
   [0, 15 / 124, 1, 0, 0, -15 / 124, 1, 0, 1, 0, 1, 0, -74456352340099331 / 7539025776218210304,
    -74456352340099331 / 3769512888109105152, -74456352340099331 / 3769512888109105152,
    -74456352340099331 / 7539025776218210304, 0, 0],
   [0, 0, 0, 1, 0, 1, 0, 1, 0, 0, 0, 0, 0, 0],
   [0, 1, 0, 1, 0, 1, 0, 1, 0, -176855943800711 / 1125899906842624, -176855943800711 / 562949953421312,
    -176855943800711 / 562949953421312, -176855943800711 / 1125899906842624, 0, 0]]

def archOpts : Opts ℚ :=
  { packing := .pinf, itermax := 10, tol := 1 / 1000, errtol := 1 / 1000, perm := [], lin := archLin }

set_option synthInstance.maxSize 1000 in
set_option synthInstance.maxHeartbeats 200000 in
/-- The run: what the records say about the plate, the packing, the middle of the lower fiber, a rotation, the force of the upper
contact of node 4 and the first error. -/
theorem arch_run : ∃ S recs, solve duoMat archMesh none none (1 / 2) archOpts none = .ok (S, recs, .blocked) ∧
    S.n = 27 ∧ recs.map (fun a => (a.Z, a.rlambda, a.x 2, a.x 1)) =
      [(11 / 4, .fin 1, 0, 0), (5 / 2, .fin (11 / 10), 0, 0), (2, .fin (11 / 8), -1 / 2, -15 / 248)] ∧
    recs.map (fun a => a.x 16) = [0, 0, 74456352340099331 / 7539025776218210304] := by
  have hx : (solve duoMat archMesh none none (1 / 2) archOpts none).toOption.map (fun r =>
      (r.1.n, r.2.1.map (fun a => (a.Z, a.rlambda, a.x 2, a.x 1)), r.2.1.map (fun a => a.x 16), r.2.2)) = some (27,
      [(11 / 4, .fin 1, 0, 0), (5 / 2, .fin (11 / 10), 0, 0), (2, .fin (11 / 8), -1 / 2, -15 / 248)],
      [0, 0, 74456352340099331 / 7539025776218210304], .blocked) := by
    decide +kernel
  cases h : solve duoMat archMesh none none (1 / 2) archOpts none with
  | error e => rw [h] at hx; cases hx
  | ok r =>
    rw [h] at hx
    obtain ⟨S, recs, stop⟩ := r
    simp only [Except.toOption, Option.map_some, Option.some.injEq, Prod.mk.injEq] at hx
    obtain ⟨h1, h2, h3, rfl⟩ := hx
    exact ⟨S, recs, rfl, h1, h2, h3⟩

/-- All hypotheses of C40-C47, C50 and C54 are met by this run, which makes two steps. -/
example : ∃ S recs cs, solve duoMat archMesh none none (1 / 2) archOpts none = .ok (S, recs, .blocked) ∧
    recs.length = 3 ∧ GoodMat duoMat ∧ PositiveLengths archMesh.rows none none ∧ 0 ≤ archOpts.tol ∧
    ExactLin archOpts.lin ∧ PermOf S.n none ∧ |(1 / 2 : ℚ)| ≤ 1 ∧ constraint duoMat archMesh = .ok cs ∧
    Admissible cs (fun _ => 0) ∧ ConstraintsReciprocal archMesh.rows := by
  obtain ⟨S, recs, h, -, h2, -⟩ := arch_run
  obtain ⟨cs, hC, -, -, hadm⟩ := arch_constraint
  refine ⟨S, recs, cs, h, ?_, duoMat_good, archMesh_lengths, by norm_num [archOpts], lookup_exact _, ?_, ?_, hC, hadm,
    archMesh_reciprocal⟩
  · have := congrArg List.length h2
    simpa using this
  · rintro p ⟨⟩
  · rw [abs_of_pos] <;> norm_num

/-- C41, C42, C44-C47 applied to it. -/
example : ∃ S recs cs, solve duoMat archMesh none none (1 / 2) archOpts none = .ok (S, recs, .blocked) ∧
    constraint duoMat archMesh = .ok cs ∧ recs.length ≤ 16 ∧
    ∃ a b, recs[1]? = some a ∧ recs[2]? = some b ∧ b.Z < a.Z ∧ NonPenetrating duoMat archMesh.rows b.Z b.x ∧
      plateForce 12 15 a ≤ plateForce 12 15 b ∧ b.x 16 ≠ 0 ∧
      ∃ H, b.q 16 = .fin H ∧ H - rowDot cs.C 4 b.x ≤ 1 / 1000 := by
  obtain ⟨S, recs, h, -, h2, h3⟩ := arch_run
  obtain ⟨cs, hC, -, hn, hadm⟩ := arch_constraint
  have hl : recs.length = 3 := by simpa using congrArg List.length h2
  have hp : PermOf S.n none := by rintro p ⟨⟩
  have ht : (0 : ℚ) ≤ archOpts.tol := by norm_num [archOpts]
  have ha : recs[1]? = some (recs[1]'(by omega)) := List.getElem?_eq_getElem _
  have hb : recs[2]? = some (recs[2]'(by omega)) := List.getElem?_eq_getElem _
  have hx : (recs[2]'(by omega)).x 16 = 74456352340099331 / 7539025776218210304 := by
    have := congrArg (fun l => l[2]?) h3
    simpa [hb] using this
  have hx0 : (recs[2]'(by omega)).x 16 ≠ 0 := by rw [hx]; norm_num
  refine ⟨S, recs, cs, h, hC, ?_, _, _, ha, hb, ?_, ?_, ?_, hx0, ?_⟩
  · have := C45_terminates h duoMat_good archMesh_lengths ht (lookup_exact _) hp hC
    omega
  · exact C41_down h duoMat_good archMesh_lengths ht 1 _ _ ha hb
  · exact C46_nonPenetrating h duoMat_good archMesh_lengths ht (lookup_exact _) hp hC hadm archMesh_reciprocal 2 _ hb
  · have := C47_monotone h duoMat_good archMesh_lengths ht (lookup_exact _) hp (by rw [abs_of_pos] <;> norm_num) hC 1 _ _ ha hb
    rw [hn] at this
    exact this
  · exact C44_complementary h duoMat_good archMesh_lengths (lookup_exact _) hp hC 2 _ hb 4 (by omega) hx0

/-- C40: no step is made with the default `packing = 1`. -/
example : ∃ S recs stop, solve duoMat archMesh none none (1 / 2) { archOpts with packing := .fin 1 } none = .ok (S, recs, stop) ∧
    Cell.lt (.fin 1) (Cell.fin (1 : ℚ)) = false ∧ recs.length = 1 := by
  cases h : solve duoMat archMesh none none (1 / 2) { archOpts with packing := .fin 1 } none with
  | error e =>
    have hx : (solve duoMat archMesh none none (1 / 2) { archOpts with packing := .fin 1 } none).toOption.isSome = true := by
      decide +kernel
    rw [h] at hx; cases hx
  | ok r =>
    obtain ⟨S, recs, stop⟩ := r
    exact ⟨S, recs, stop, rfl, by decide +kernel, C40_no_step h (by decide +kernel)⟩

/-- C49: with a rigid lower fiber (infinite tensile modulus) the same run has no rotation. -/
example : ∃ S recs, solve rigidMat archMesh none none (1 / 2) archOpts none = .ok (S, recs, .blocked) ∧
    recs.map (fun a => (a.Z, a.x 2)) = [(11 / 4, 0), (5 / 2, 0), (2, -1 / 2)] ∧ ∀ a ∈ recs, a.x 1 = 0 ∧ a.mask 1 = false := by
  have hx : (solve rigidMat archMesh none none (1 / 2) archOpts none).toOption.map (fun r =>
      (r.2.1.map (fun a => (a.Z, a.x 2)), r.2.2)) = some ([(11 / 4, 0), (5 / 2, 0), (2, -1 / 2)], .blocked) := by
    decide +kernel
  cases h : solve rigidMat archMesh none none (1 / 2) archOpts none with
  | error e => rw [h] at hx; cases hx
  | ok r =>
    rw [h] at hx
    obtain ⟨S, recs, stop⟩ := r
    simp only [Except.toOption, Option.map_some, Option.some.injEq, Prod.mk.injEq] at hx
    obtain ⟨h1, rfl⟩ := hx
    refine ⟨S, recs, rfl, h1, ?_⟩
    intro a ha
    obtain ⟨k, hk, rfl⟩ := List.mem_iff_getElem.1 ha
    have ha : recs[k]? = some recs[k] := List.getElem?_eq_getElem hk
    have hr : archMesh.rows[0]? = some ⟨0, -5, -5, 0, 1 / 2, 1, 0⟩ := rfl
    have hf : rigidMat.fibers[(0 : ℤ).toNat]? = some ⟨10, 1, 1, 0, 0, 1 / 2, 1, 0, 0, 1, ⊤⟩ := rfl
    exact ⟨C49_rotations h rigidMat_good archMesh_valid archMesh_lengths hr hf rfl (Or.inl archMesh_beam) k _ ha,
      C49_inactive h rigidMat_good archMesh_valid archMesh_lengths hr hf rfl (Or.inl archMesh_beam) k _ ha⟩

/-- C54: the interpolated plate position of the run. -/
example : ∃ S recs, solve duoMat archMesh none none (1 / 2) archOpts none = .ok (S, recs, .blocked) ∧ 2 ≤ recs.length ∧
    interpolate .linear (recs.map (·.Z)) (some 5) (3 / 4) = 9 / 4 ∧
    interpolate .linear (recs.map (·.Z)) (some 5) 1 ≤ interpolate .linear (recs.map (·.Z)) (some 5) (3 / 4) := by
  obtain ⟨S, recs, h, -, h2, -⟩ := arch_run
  have hl : recs.length = 3 := by simpa using congrArg List.length h2
  have hz : recs.map (·.Z) = [11 / 4, 5 / 2, 2] := by
    have := congrArg (List.map Prod.fst) h2
    simpa [Function.comp_def] using this
  refine ⟨S, recs, h, by omega, ?_, ?_⟩
  · rw [hz]; decide +kernel
  · exact C54_plate h duoMat_good archMesh_lengths (by norm_num [archOpts]) (by omega) (some 5)
      (by rintro k ⟨⟩; omega) (by norm_num) (by norm_num) le_rfl

/-! ## C48 -/

/-- One inclined fiber. -/
def twigMat : Mat ℚ :=
  { fibers := [⟨10, 1, 1, 0, 0, 1 / 2, 1, 0, 0, 1, ((2 : ℚ) : WithTop ℚ)⟩]
    attrs := { n := some 1, size := some 20, periodic := some true } }

def twigMesh : Mesh ℚ :=
  { rows := [⟨0, -5, -5, 0, 1 / 2, 1, 0⟩, ⟨0, 5, 5, 0, 1, 0, 1⟩]
    attrs := { n := some 1, size := some 20, periodic := some true }
    h := none }

theorem twigMat_good : GoodMat twigMat :=
  ((matCheck_frame_iff _).1 (by decide +kernel)).resolve_left (by simp [Skipped, twigMat])

theorem twigMesh_lengths : PositiveLengths twigMesh.rows none none := by
  refine positiveLengths_raw ?_
  rintro i ⟨r, hr, h⟩
  have hi : i < 2 := (List.getElem?_eq_some_iff.1 hr).1
  interval_cases i <;> simp [twigMesh] at hr <;> subst hr <;> simp at h
  all_goals simp [beamLength, abscissa, succNode, twigMesh]

open Classical in
/-- Any solution, when there is one. -/
noncomputable def choiceLin : LinSolver ℚ := fun A b =>
  if h : ∃ x A', cells A' = A ∧ Solves A' b x then some h.choose else none

theorem cells_inj {A B : List (List ℚ)} (h : cells A = cells B) : A = B := by
  refine List.map_injective_iff.2 ?_ h
  exact List.map_injective_iff.2 (fun a b h => Cell.fin.inj h)

/-- Candidates first, then any solution. -/
noncomputable def twigLin : LinSolver ℚ := fun A b =>
  match lookup [[0, 1 / 20, 1, 1 / 20, -176855943800711 / 153122387330596864, -176855943800711 / 153122387330596864]] A b with
  | some x => some x
  | none => choiceLin A b

theorem twigLin_good : GoodLin twigLin := by
  constructor
  · intro A b x hsq h
    unfold twigLin at h
    split at h
    · rename_i y hy
      cases h
      exact lookup_exact _ A b _ hsq hy
    · unfold choiceLin at h
      split_ifs at h with hx
      cases h
      obtain ⟨A', h1, h2⟩ := hx.choose_spec
      rwa [cells_inj h1] at h2
  · rintro A b hsq ⟨x, hx, -⟩
    unfold twigLin
    split
    · exact ⟨_, rfl⟩
    · unfold choiceLin
      rw [dif_pos ⟨x, A, rfl, hx⟩]
      exact ⟨_, rfl⟩

noncomputable def twigOpts : Opts ℚ :=
  { packing := .fin (3 / 2), itermax := 10, tol := 0, errtol := 0, perm := [], lin := twigLin }

set_option maxRecDepth 10000 in
/-- The reduced system at the start is regular; after one step the target is reached. The run with the unknowns taken in reverse
order gives the same result. -/
example : ∃ S recs stop, solve twigMat twigMesh none none (1 / 2) twigOpts none = .ok (S, recs, stop) ∧ recs.length = 2 ∧
    (∀ a ∈ recs, Cell.lt a.rlambda twigOpts.packing = true → RegularAt S twigOpts.tol a) ∧
    solve twigMat twigMesh none none (1 / 2) twigOpts (some (List.range S.n).reverse) = .ok (S, recs, stop) := by
  have hx : (solve twigMat twigMesh none none (1 / 2) twigOpts none).toOption.map (fun r =>
      (r.1.n, r.2.1.map (fun a => a.rlambda))) = some (10, [.fin 1, .fin (3 / 2)]) := by
    decide +kernel
  have hS : (solve twigMat twigMesh none none (1 / 2) twigOpts none).toOption.map (fun r =>
      ((List.range 10).map (fun i => (List.range 10).map (fun j => r.1.P i j)),
        (List.range 10).map (r.1.active 0 (fun _ => 0) r.1.q0))) = some
      ([[.fin (176855943800711 / 114841790497947648), .fin (884279719003555 / 229683580995895296),
         .fin (-176855943800711 / 114841790497947648), .fin (884279719003555 / 229683580995895296),
         .fin (-1), .fin 0, .fin 1, .fin 0, .fin 0, .fin 0],
        [.fin (884279719003555 / 229683580995895296), .fin (9373365021437683 / 172262685746921472),
         .fin (-884279719003555 / 229683580995895296), .fin (1945415381807821 / 86131342873460736),
         .fin 0, .fin 0, .fin 0, .fin 0, .fin 0, .fin 0],
        [.fin (-176855943800711 / 114841790497947648), .fin (-884279719003555 / 229683580995895296),
         .fin (176855943800711 / 114841790497947648), .fin (-884279719003555 / 229683580995895296),
         .fin 0, .fin 0, .fin 0, .fin (-1), .fin 0, .fin 1],
        [.fin (884279719003555 / 229683580995895296), .fin (1945415381807821 / 86131342873460736),
         .fin (-884279719003555 / 229683580995895296), .fin (9373365021437683 / 172262685746921472),
         .fin 0, .fin 0, .fin 0, .fin 0, .fin 0, .fin 0],
        [.fin (-1), .fin 0, .fin 0, .fin 0, .fin 0, .fin 0, .fin 0, .fin 0, .fin 0, .fin 0],
        [.fin 0, .fin 0, .fin 0, .fin 0, .fin 0, .fin 0, .fin 0, .fin 0, .fin 0, .fin 0],
        [.fin 1, .fin 0, .fin 0, .fin 0, .fin 0, .fin 0, .fin 0, .fin 0, .fin 0, .fin 0],
        [.fin 0, .fin 0, .fin (-1), .fin 0, .fin 0, .fin 0, .fin 0, .fin 0, .fin 0, .fin 0],
        [.fin 0, .fin 0, .fin 0, .fin 0, .fin 0, .fin 0, .fin 0, .fin 0, .fin 0, .fin 0],
        [.fin 0, .fin 0, .fin 1, .fin 0, .fin 0, .fin 0, .fin 0, .fin 0, .fin 0, .fin 0]],
       [true, true, true, true, true, false, false, false, false, true]) := by
    decide +kernel
  cases h : solve twigMat twigMesh none none (1 / 2) twigOpts none with
  | error e => rw [h] at hx; cases hx
  | ok r =>
    rw [h] at hx hS
    obtain ⟨S, recs, stop⟩ := r
    simp only [Except.toOption, Option.map_some, Option.some.injEq, Prod.mk.injEq] at hx hS
    obtain ⟨hn, hl⟩ := hx
    obtain ⟨hP, hA⟩ := hS
    have hlen : recs.length = 2 := by simpa using congrArg List.length hl
    have hreg : ∀ a ∈ recs, Cell.lt a.rlambda twigOpts.packing = true → RegularAt S twigOpts.tol a := by
      intro a ha hlt
      obtain ⟨-, b, hb, hbx, hbq, -⟩ := C40_itermax h
      obtain ⟨k, hk, rfl⟩ := List.mem_iff_getElem.1 ha
      have hk' : k = 0 ∨ k = 1 := by omega
      rcases hk' with rfl | rfl
      · have e : recs[0] = b := by
          rw [List.getElem?_eq_getElem hk] at hb
          exact Option.some.inj hb
        rw [e]
        have hbx' : b.x = fun _ => 0 := funext hbx
        intro y h1 h2
        rw [hbx', hbq] at h1 h2
        simp only [List.range, List.range.loop, List.map_cons, List.map_nil, List.cons.injEq, and_true] at hP hA
        have ht : twigOpts.tol = 0 := rfl
        rw [ht] at h1 h2
        have e0 := h2 0 (by omega) hA.1
        have e1 := h2 1 (by omega) hA.2.1
        have e2 := h2 2 (by omega) hA.2.2.1
        have e3 := h2 3 (by omega) hA.2.2.2.1
        have e4 := h2 4 (by omega) hA.2.2.2.2.1
        have e9 := h2 9 (by omega) hA.2.2.2.2.2.2.2.2.2
        have y5 := h1 5 hA.2.2.2.2.2.1
        have y6 := h1 6 hA.2.2.2.2.2.2.1
        have y7 := h1 7 hA.2.2.2.2.2.2.2.1
        have y8 := h1 8 hA.2.2.2.2.2.2.2.2.1
        simp only [Sys.mulVec, cellSum, hn, List.range, List.range.loop, List.map_cons, List.map_nil, hP] at e0 e1 e2 e3 e4 e9
        simp [y5, y6, y7, y8] at e0 e1 e2 e3 e4 e9
        have y1 : y 1 = 0 := by linarith
        have y3 : y 3 = 0 := by linarith
        have y4 : y 4 = 0 := by linarith
        have y9 : y 9 = 0 := by linarith
        intro r hr
        rw [hn] at hr
        interval_cases r <;> assumption
      · have := congrArg (fun l => l[1]?) hl
        simp [hk] at this
        rw [this] at hlt
        exact absurd hlt (by decide +kernel)
    refine ⟨S, recs, stop, rfl, hlen, hreg, ?_⟩
    refine C48_perm h twigMat_good twigMesh_lengths twigLin_good (by rintro p ⟨⟩) hreg ?_
    rintro p ⟨⟩
    exact List.reverse_perm _

end Fibermat
