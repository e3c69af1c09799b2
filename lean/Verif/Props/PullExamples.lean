import Verif.Props.Pull
import Verif.Props.PipelineExamples

/-! # Concrete cases of C127 -/

namespace Fibermat
open Spec

/-- Two inclined fibers standing on the floor, the second leaning on the first, which reaches the plate.  They have the default (infinite) tensile modulus. -/
def leanMat : Mat ℚ :=
  { fibers := [⟨10, 1, 1, 0, 0, 7 / 2, 4 / 5, 0, 3 / 5, 1, ⊤⟩,
               ⟨8, 1, 1, -4 / 3, -4 / 5, 29 / 10, 0, 4 / 5, 3 / 5, 1, ⊤⟩]
    attrs := { n := some 2, size := some 20, periodic := some true } }

def leanMesh : Mesh ℚ :=
  { duoMesh with
    attrs := leanMat.attrs
    rows := [⟨0, -5, -4, 0, 1 / 2, 1, 0⟩, ⟨0, -5 / 3, -4 / 3, 0, 5 / 2, 2, 4⟩, ⟨0, 5, 4, 0, 13 / 2, 0, 2⟩,
             ⟨1, -4, -4 / 3, -4, 1 / 2, 4, 3⟩, ⟨1, 1, -4 / 3, 0, 7 / 2, 5, 1⟩, ⟨1, 4, -4 / 3, 12 / 5, 53 / 10, 3, 5⟩] }

def leanOpts : Opts ℚ :=
  { packing := .pinf, itermax := 1, tol := 0, errtol := 0, perm := [], lin := gauss }

theorem leanMat_good : GoodMat leanMat :=
  ((matCheck_frame_iff _).1 (by decide +kernel)).resolve_left (by simp [Skipped, leanMat])

theorem leanMesh_valid : ValidMesh leanMesh.frame :=
  ((C28_meshCheck_iff _).1 (by decide +kernel)).resolve_left (by simp [Skipped, leanMesh, leanMat, Mesh.frame])

theorem leanMesh_lengths : PositiveLengths leanMesh.rows none none := by
  refine positiveLengths_raw ?_
  rintro i ⟨r, hr, h⟩
  have hi : i < 6 := (List.getElem?_eq_some_iff.1 hr).1
  interval_cases i <;> simp [leanMesh] at hr <;> subst hr <;> simp at h <;> decide +kernel

theorem lean_thick : ∀ i < 6, nodeThick leanMat leanMesh.rows i = 1 := by decide +kernel

theorem lean_height : nodeHeight leanMesh.rows 0 = 1 / 2 ∧ nodeHeight leanMesh.rows 1 = 5 / 2 ∧ nodeHeight leanMesh.rows 2 = 13 / 2 ∧ nodeHeight leanMesh.rows 3 = 1 / 2 ∧
    nodeHeight leanMesh.rows 4 = 7 / 2 ∧ nodeHeight leanMesh.rows 5 = 53 / 10 := by decide +kernel

/-- Both fibers are supported by the floor. -/
theorem lean_supported (u : ℕ → ℚ) (hu : ∀ r, u r = 0) : ¬ Unsupported leanMat leanMesh.rows 0 7 u := by
  rintro ⟨v, ⟨i, hi, hv⟩, hs, hk⟩
  obtain ⟨h0, -, -, h3, -⟩ := lean_height
  have f0 := (hk 0 0 ⟨le_rfl, _, rfl, rfl⟩).1 (by norm_num [floorGap, h0, lean_thick, hu])
  have f3 := (hk 3 3 ⟨le_rfl, _, rfl, rfl⟩).1 (by norm_num [floorGap, h3, lean_thick, hu])
  have hi : i < 6 := hi
  apply hv
  rcases (by omega : i < 3 ∨ 3 ≤ i) with hb | hb
  · have : SameFiber leanMesh.rows 0 i := by interval_cases i <;> exact ⟨_, _, rfl, rfl, rfl⟩
    rw [← hs 0 i this, f0]
  · have : SameFiber leanMesh.rows 3 i := by interval_cases i <;> exact ⟨_, _, rfl, rfl, rfl⟩
    rw [← hs 3 i this, f3]

set_option synthInstance.maxSize 1000 in
set_option synthInstance.maxHeartbeats 200000 in
/-- The first step of the solver. -/
theorem lean_run : ∃ S recs stop, solve leanMat leanMesh none none 1 leanOpts none = .ok (S, recs, stop) ∧
    recs.map (fun a => (a.Z, a.x 12, a.x 16, a.x 20)) = [(7, 0, 0, 0), (136 / 25, 4775110482619197 / 56294995342131200, -1591703494206399 / 28147497671065600,
      1591703494206399 / 11258999068426240)] := by
  have hx : (solve leanMat leanMesh none none 1 leanOpts none).toOption.map (fun r => r.2.1.map (fun a => (a.Z, a.x 12, a.x 16, a.x 20))) =
      some [(7, 0, 0, 0), (136 / 25, 4775110482619197 / 56294995342131200, -1591703494206399 / 28147497671065600, 1591703494206399 / 11258999068426240)] := by
    decide +kernel
  cases h : solve leanMat leanMesh none none 1 leanOpts none with
  | error e => rw [h] at hx; cases hx
  | ok r =>
    rw [h] at hx
    obtain ⟨S, recs, stop⟩ := r
    simp only [Except.toOption, Option.map_some, Option.some.injEq] at hx
    exact ⟨S, recs, stop, rfl, hx⟩

theorem rowDot_single {C : Coo ℚ} {k s : ℕ} (hs : s < C.ncols) : rowDot C k (fun r => if r = s then 1 else 0) = C.get k s := by
  unfold rowDot
  rw [Finset.sum_eq_single s]
  · simp
  · intro r _ hr; simp [hr]
  · intro hn; exact absurd (Finset.mem_range.2 hs) hn

set_option synthInstance.maxSize 1000 in
set_option synthInstance.maxHeartbeats 200000 in
/-- The place of a contact in the constraint matrix. -/
theorem lean_rows {cs : ConstraintSys ℚ} (hC : constraint leanMat leanMesh = .ok cs) :
    ContactRows cs.C 0 0 0 ∧ ContactRows cs.C 1 1 4 ∧ ContactRows cs.C 2 2 2 ∧ cs.Z = 7 := by
  have hx : (constraint leanMat leanMesh).toOption.map (fun c => (c.C.nrows, c.C.ncols, (List.range 5).map (fun q => c.C.get (3 * q) 0),
      (List.range 5).map (fun q => c.C.get (3 * q) 2), (List.range 5).map (fun q => c.C.get (3 * q) 4), c.Z)) =
      some (15, 12, [-1, 0, 0, 0, 0], [0, -1, 0, 0, 0], [0, 0, -1, 0, 0], 7) := by decide +kernel
  rw [hC] at hx
  simp only [Except.toOption, Option.map_some, Option.some.injEq, Prod.mk.injEq] at hx
  obtain ⟨hn, hcol, g0, g1, g2, hZ⟩ := hx
  have key : ∀ i j q0, i < 3 → IsPair leanMesh.rows i j → (∀ q < 5, cs.C.get (3 * q) (2 * i) = -1 → q = q0) → ContactRows cs.C q0 i j := by
    intro i j q0 hi hij hq0
    obtain ⟨q, hq, hrows⟩ := C127_rows hC hij
    have h1 := (hrows (fun r => if r = 2 * i then 1 else 0)).1
    rw [rowDot_single (by omega), if_pos rfl] at h1
    rwa [hq0 q (by omega) h1] at hrows
  have get : ∀ {l : List ℚ} {i : ℕ}, (List.range 5).map (fun q => cs.C.get (3 * q) (2 * i)) = l → ∀ q < 5, some (cs.C.get (3 * q) (2 * i)) = l[q]? := by
    rintro l i rfl q hq
    simp [hq]
  refine ⟨key 0 0 0 (by omega) ⟨le_rfl, _, rfl, rfl⟩ ?_, key 1 4 1 (by omega) ⟨by omega, _, rfl, rfl⟩ ?_, key 2 2 2 (by omega) ⟨le_rfl, _, rfl, rfl⟩ ?_, hZ⟩
  · intro q hq he
    have := get (i := 0) g0 q hq
    rw [he] at this
    interval_cases q <;> simp at this ⊢
  · intro q hq he
    have := get (i := 1) g1 q hq
    rw [he] at this
    interval_cases q <;> simp at this ⊢
  · intro q hq he
    have := get (i := 2) g2 q hq
    rw [he] at this
    interval_cases q <;> simp at this ⊢

theorem lean_admissible {cs : ConstraintSys ℚ} (h : constraint leanMat leanMesh = .ok cs) : Admissible cs (fun _ => 0) := by
  obtain ⟨-, -, -, hZ⟩ := lean_rows h
  have hcr : ConstraintsReciprocal leanMesh.rows := by
    have := leanMesh_valid.constraints
    rwa [rows_meshFrame] at this
  obtain ⟨-, -, -, -, hiff⟩ := C37_geometric h leanMat_good hcr
  rw [hiff, hZ]
  obtain ⟨h0, h1, h2, h3, h4, h5⟩ := lean_height
  refine ⟨?_, ?_, ?_⟩
  · intro i hi
    have hi : i < 6 := hi
    interval_cases i <;> norm_num [h0, h1, h2, h3, h4, h5, lean_thick]
  · intro i hi
    have hi : i < 6 := hi
    interval_cases i <;> norm_num [h0, h1, h2, h3, h4, h5, lean_thick]
  · intro i j r hr hj hij
    have hi : i < 6 := (List.getElem?_eq_some_iff.1 hr).1
    have : i = 1 ∧ j = 4 := by
      interval_cases i <;> simp [leanMesh] at hr <;> subst hr <;> simp at hj <;> omega
    obtain ⟨rfl, rfl⟩ := this
    norm_num [h1, h4, lean_thick]

/-- A contact between two fibers away from the floor and the plate can pull: the documented `f ≥ 0` (`solver.py:24`) fails even with the default, infinite tensile modulus, an
admissible start with supported fibers, an exact solver and `tol = 0`.  The plate bends the first fiber, which pulls down the second one leaning on it. -/
theorem C127_pulls : ∃ (mat : Mat ℚ) (mesh : Mesh ℚ) (o : Opts ℚ) (S : Sys ℚ) (recs : List (Rec ℚ)) (stop : Stop)
    (cs : ConstraintSys ℚ) (b : Rec ℚ) (q i j : ℕ), solve mat mesh none none 1 o none = .ok (S, recs, stop) ∧ GoodMat mat ∧ (∀ f ∈ mat.fibers, f.E = ⊤) ∧
    ValidMesh mesh.frame ∧ PositiveLengths mesh.rows none none ∧ o.tol = 0 ∧ ExactLin o.lin ∧ constraint mat mesh = .ok cs ∧ Admissible cs (fun _ => 0) ∧
    ¬ Unsupported mat mesh.rows o.tol S.Z0 (fun _ => 0) ∧ ContactRows cs.C q i j ∧ i ≠ j ∧ recs[1]? = some b ∧ b.x (2 * mesh.rows.length + (3 * q + 1)) < 0 := by
  obtain ⟨S, recs, stop, h, hr⟩ := lean_run
  obtain ⟨-, cs, -, hC, -⟩ := solve_run h
  obtain ⟨-, a, h0, hx0, -, hZ0, -⟩ := C40_itermax h
  have hl : recs.length = 2 := by simpa using congrArg List.length hr
  have h1 : recs[1]? = some (recs[1]'(by omega)) := List.getElem?_eq_getElem _
  generalize recs[1] = b at h1
  have ha := congrArg (fun l => l[0]?) hr
  have hb := congrArg (fun l => l[1]?) hr
  simp only [List.getElem?_map, h0, h1, Option.map_some, List.getElem?_cons_succ, List.getElem?_cons_zero, Option.some.injEq, Prod.mk.injEq] at ha hb
  refine ⟨leanMat, leanMesh, leanOpts, S, recs, stop, cs, b, 1, 1, 4, h, leanMat_good, by simp [leanMat], leanMesh_valid, leanMesh_lengths, rfl, gauss_exact, hC,
    lean_admissible hC, ?_, (lean_rows hC).2.1, by omega, h1, ?_⟩
  · rw [← hZ0, ha.1]
    exact lean_supported _ (fun _ => rfl)
  · show b.x 16 < 0
    rw [hb.2.2.1]; norm_num

/-- C127 on the same fibers: the floor and the plate push. -/
example : ∃ (S : Sys ℚ) (recs : List (Rec ℚ)) (stop : Stop) (cs : ConstraintSys ℚ) (b : Rec ℚ), solve leanMat leanMesh none none 1 leanOpts none = .ok (S, recs, stop) ∧
    constraint leanMat leanMesh = .ok cs ∧ recs[1]? = some b ∧ b.x 12 = 4775110482619197 / 56294995342131200 ∧ b.x 20 = 1591703494206399 / 11258999068426240 ∧
    0 ≤ b.x (2 * leanMesh.rows.length + 3 * 0) ∧ 0 ≤ b.x (2 * leanMesh.rows.length + (3 * 2 + 2)) := by
  obtain ⟨S, recs, stop, h, hr⟩ := lean_run
  obtain ⟨-, cs, -, hC, -⟩ := solve_run h
  obtain ⟨-, a, h0, hx0, -, hZ0, -⟩ := C40_itermax h
  have hl : recs.length = 2 := by simpa using congrArg List.length hr
  have h1 : recs[1]? = some (recs[1]'(by omega)) := List.getElem?_eq_getElem _
  generalize recs[1] = b at h1
  have ha := congrArg (fun l => l[0]?) hr
  have hb := congrArg (fun l => l[1]?) hr
  simp only [List.getElem?_map, h0, h1, Option.map_some, List.getElem?_cons_succ, List.getElem?_cons_zero, Option.some.injEq, Prod.mk.injEq] at ha hb
  obtain ⟨r0, -, r2, -⟩ := lean_rows hC
  have hsup : ¬ Unsupported leanMat leanMesh.rows leanOpts.tol S.Z0 (fun _ => 0) := by
    rw [← hZ0, ha.1]
    exact lean_supported _ (fun _ => rfl)
  have key := fun {q i j : ℕ} (hq : ContactRows cs.C q i j) => C127_push h leanMat_good leanMesh_valid leanMesh_lengths (Or.inr (by simp [leanMat])) (le_refl _) gauss_exact
    (by rintro p ⟨⟩) hC hsup hq 1 b h1
  exact ⟨S, recs, stop, cs, b, h, hC, h1, hb.2.1, hb.2.2.2, (key r0).1, (key r2).2.1⟩

/-- C127 along the whole chain, on the three crossing fibers. -/
example (lp : Linprog ℚ) (hlp : GoodLinprog lp) (pk : Cell ℚ) : ∃ net m' st mesh S recs stop cs, netNew crossMat true = .ok net ∧ stackNew lp crossMat net (some 2) = .ok (m', st) ∧
      meshNew st = .ok mesh ∧ solve m' mesh (some (1 / 100)) none 1 ⟨pk, 100, 1 / 1000, 1 / 1000, [], goodGauss⟩ none = .ok (S, recs, stop) ∧
      constraint m' mesh = .ok cs ∧ (∃ q i j, ContactRows cs.C q i j) ∧
      ∀ a ∈ recs, ∀ q i j, ContactRows cs.C q i j → 0 ≤ a.x (2 * mesh.rows.length + 3 * q) ∧ 0 ≤ a.x (2 * mesh.rows.length + (3 * q + 2)) := by
  obtain ⟨net, m', st, mesh, S, recs, stop, hn, hst, hmesh, hs⟩ := C78_runs hlp crossMat_good (by simp [crossMat]) true
    (some 2) (some (1 / 100)) none 1 ⟨pk, 100, 1 / 1000, 1 / 1000, [], goodGauss⟩ none
  obtain ⟨hp, -⟩ := C78_positive hlp crossMat_good (by simp [crossMat]) hn hst hmesh (a := 1 / 100) (by norm_num) (lmax := none)
    (by simp)
  have hth : KeepsTouching crossMat (some 2) := by
    intro t ht f hf
    cases ht
    simp only [crossMat, List.mem_cons, List.not_mem_nil, or_false] at hf
    rcases hf with rfl | rfl | rfl <;> norm_num
  obtain ⟨-, cs, -, hC, -⟩ := solve_run hs
  obtain ⟨net', -, -, -, -, -, -, hv, -, hne⟩ := chain_facts hlp crossMat_good (by simp [crossMat]) hn hst hmesh
  refine ⟨net, m', st, mesh, S, recs, stop, cs, hn, hst, hmesh, hs, hC, ?_, ?_⟩
  · have hcr : ConstraintsReciprocal mesh.rows := by have := hv.constraints; rwa [rows_meshFrame] at this
    obtain ⟨r, l, hrl⟩ : ∃ r l, mesh.rows = r :: l := List.exists_cons_of_ne_nil hne
    obtain ⟨j, p, hj, -⟩ := hcr 0 r (by rw [hrl]; rfl)
    obtain ⟨q, -, hq⟩ := C127_rows hC (i := 0) (j := j) ⟨by omega, r, by rw [hrl]; rfl, hj⟩
    exact ⟨q, 0, j, hq⟩
  · intro a ha q i j hq
    obtain ⟨k, hk⟩ := List.mem_iff_getElem?.1 ha
    obtain ⟨h1, h2, -⟩ := C127_chain hlp crossMat_good crossMat_flat hn hst hth hmesh hs hp (Or.inr crossMat_rigid) (by norm_num) goodGauss_good.1 (by rintro p ⟨⟩) hC hq k a hk
    exact ⟨h1, h2⟩

end Fibermat
