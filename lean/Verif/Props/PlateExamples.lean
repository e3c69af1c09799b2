import Verif.Props.Monotone
import Verif.Props.EnergyExamples
import Verif.Props.SolverStopExamples

/-! # Concrete cases of C75 and C76 -/

namespace Fibermat
open Spec

/-- Three crossing fibers on top of each other, the middle one loaded aside of its support. -/
def towerMat : Mat ℚ :=
  { fibers := [⟨10, 1, 1, 0, 0, 1 / 2, 0, 1, 0, 1, ((1 : ℚ) : WithTop ℚ)⟩,
               ⟨10, 1, 1, 0, 0, 3 / 2, 1, 0, 0, 1, ((1 : ℚ) : WithTop ℚ)⟩,
               ⟨10, 1, 1, 2, 0, 5 / 2, 0, 1, 0, 1, ((1 : ℚ) : WithTop ℚ)⟩]
    attrs := { n := some 3, size := some 20, periodic := some true } }

def towerMesh : Mesh ℚ :=
  { duoMesh with
    attrs := towerMat.attrs
    rows := [⟨0, -5, 0, -5, 1 / 2, 1, 0⟩, ⟨0, 0, 0, 0, 1 / 2, 2, 4⟩, ⟨0, 5, 0, 5, 1 / 2, 0, 2⟩,
             ⟨1, -5, -5, 0, 3 / 2, 4, 3⟩, ⟨1, 0, 0, 0, 3 / 2, 5, 1⟩, ⟨1, 2, 2, 0, 3 / 2, 6, 8⟩, ⟨1, 5, 5, 0, 3 / 2, 3, 6⟩,
             ⟨2, -5, 2, -5, 5 / 2, 8, 7⟩, ⟨2, 0, 2, 0, 5 / 2, 9, 5⟩, ⟨2, 5, 2, 5, 5 / 2, 7, 9⟩] }

def towerOpts : Opts ℚ :=
  { packing := .pinf, itermax := 1, tol := 0, errtol := 0, perm := [], lin := gauss }

theorem towerMat_good : GoodMat towerMat :=
  ((matCheck_frame_iff _).1 (by decide +kernel)).resolve_left (by simp [Skipped, towerMat])

theorem towerMesh_valid : ValidMesh towerMesh.frame :=
  ((C28_meshCheck_iff _).1 (by decide +kernel)).resolve_left (by simp [Skipped, towerMesh, towerMat, Mesh.frame])

theorem towerMesh_lengths : PositiveLengths towerMesh.rows none none := by
  refine positiveLengths_raw ?_
  rintro i ⟨r, hr, h⟩
  have hi : i < 10 := (List.getElem?_eq_some_iff.1 hr).1
  interval_cases i <;> simp [towerMesh] at hr <;> subst hr <;> simp at h <;> decide +kernel

theorem tower_thick : ∀ i < 10, nodeThick towerMat towerMesh.rows i = 1 := by decide +kernel

theorem tower_height : ∀ i < 10, nodeHeight towerMesh.rows i = if i < 3 then 1 / 2 else if i < 7 then 3 / 2 else 5 / 2 := by
  decide +kernel

/-- At the beginning the fibers are supported: the lower one by the floor, the middle one by the lower one, the upper one by the
plate. -/
theorem tower_supported (u : ℕ → ℚ) (hu : ∀ r, u r = 0) : ¬ Unsupported towerMat towerMesh.rows 0 3 u := by
  rintro ⟨v, ⟨i, hi, hv⟩, hs, hk⟩
  have f0 := (hk 0 0 ⟨le_rfl, _, rfl, rfl⟩).1 (by norm_num [floorGap, tower_height, tower_thick, hu])
  have f1 := (hk 1 4 ⟨by omega, _, rfl, rfl⟩).2.1 (by omega)
    (by norm_num [pairGap, tower_height, tower_thick, hu])
  have f7 := (hk 7 7 ⟨le_rfl, _, rfl, rfl⟩).2.2 (by norm_num [roofGap, tower_height, tower_thick, hu])
  have s01 := hs 0 1 ⟨_, _, rfl, rfl, rfl⟩
  have hi : i < 10 := hi
  apply hv
  rcases (by omega : i < 3 ∨ (3 ≤ i ∧ i < 7) ∨ (7 ≤ i)) with hb | hb | hb
  · have : SameFiber towerMesh.rows 0 i := by interval_cases i <;> exact ⟨_, _, rfl, rfl, rfl⟩
    rw [← hs 0 i this, f0]
  · have : SameFiber towerMesh.rows 4 i := by
      obtain ⟨b1, b2⟩ := hb
      interval_cases i <;> exact ⟨_, _, rfl, rfl, rfl⟩
    rw [← hs 4 i this, ← f1, ← s01, f0]
  · have : SameFiber towerMesh.rows 7 i := by interval_cases i <;> exact ⟨_, _, rfl, rfl, rfl⟩
    rw [← hs 7 i this, f7]

theorem tower_constraint {cs : ConstraintSys ℚ} (h : constraint towerMat towerMesh = .ok cs) :
    cs.Z = 3 ∧ Admissible cs (fun _ => 0) := by
  have hx : (constraint towerMat towerMesh).toOption.map (fun c => c.Z) = some 3 := by decide +kernel
  rw [h] at hx
  simp only [Except.toOption, Option.map_some, Option.some.injEq] at hx
  have hcr : ConstraintsReciprocal towerMesh.rows := by
    have := towerMesh_valid.constraints
    rwa [rows_meshFrame] at this
  obtain ⟨-, -, -, -, hiff⟩ := C37_geometric h towerMat_good hcr
  refine ⟨hx, ?_⟩
  rw [hiff, hx]
  refine ⟨?_, ?_, ?_⟩
  · intro i hi
    have hi : i < 10 := hi
    interval_cases i <;> norm_num [tower_height, tower_thick]
  · intro i hi
    have hi : i < 10 := hi
    interval_cases i <;> norm_num [tower_height, tower_thick]
  · intro i j r hr hj hij
    have hi : i < 10 := (List.getElem?_eq_some_iff.1 hr).1
    have : (i = 1 ∧ j = 4) ∨ (i = 5 ∧ j = 8) := by
      interval_cases i <;> simp [towerMesh] at hr <;> subst hr <;> simp at hj <;> omega
    rcases this with ⟨rfl, rfl⟩ | ⟨rfl, rfl⟩ <;> norm_num [tower_height, tower_thick]

theorem tower_some {c : ℚ} {l : List (ℚ × ℚ)} (hx : (solve towerMat towerMesh none none c towerOpts none).toOption.map (fun r =>
      r.2.1.map (fun a => (a.Z, a.x 6))) = some l) :
    ∃ S recs stop, solve towerMat towerMesh none none c towerOpts none = .ok (S, recs, stop) ∧
      recs.map (fun a => (a.Z, a.x 6)) = l := by
  cases h : solve towerMat towerMesh none none c towerOpts none with
  | error e => rw [h] at hx; cases hx
  | ok r =>
    rw [h] at hx
    obtain ⟨S, recs, stop⟩ := r
    simp only [Except.toOption, Option.map_some, Option.some.injEq] at hx
    exact ⟨S, recs, stop, rfl, hx⟩

set_option synthInstance.maxSize 1000 in
set_option synthInstance.maxHeartbeats 200000 in
/-- First step with the coupling 0.99 used in the examples of the documentation: the end of the middle fiber goes up. -/
theorem tower_run : ∃ S recs stop, solve towerMat towerMesh none none (99 / 100) towerOpts none = .ok (S, recs, stop) ∧
    recs.map (fun a => (a.Z, a.x 6)) = [(3, 0), (2139115777861 / 792893237024, 553329303813 / 792893237024)] :=
  tower_some (by decide +kernel)

set_option synthInstance.maxSize 1000 in
set_option synthInstance.maxHeartbeats 200000 in
/-- First step without coupling. -/
theorem tower_run0 : ∃ S recs stop, solve towerMat towerMesh none none 0 towerOpts none = .ok (S, recs, stop) ∧
    recs.map (fun a => (a.Z, a.x 12)) = [(3, 0), (2, -1)] := by
  have hx : (solve towerMat towerMesh none none 0 towerOpts none).toOption.map (fun r =>
      r.2.1.map (fun a => (a.Z, a.x 12))) = some [(3, 0), (2, -1)] := by decide +kernel
  cases h : solve towerMat towerMesh none none 0 towerOpts none with
  | error e => rw [h] at hx; cases hx
  | ok r =>
    rw [h] at hx
    obtain ⟨S, recs, stop⟩ := r
    simp only [Except.toOption, Option.map_some, Option.some.injEq] at hx
    exact ⟨S, recs, stop, rfl, hx⟩

/-- The documented condition `u ≤ 0` (`solver.py:23`) does not hold in general: with `coupling = 0.99`, from an admissible start
with supported fibers and an exact solver, a node moves up in the first step. -/
theorem C76_lifts : ∃ (mat : Mat ℚ) (mesh : Mesh ℚ) (o : Opts ℚ) (S : Sys ℚ) (recs : List (Rec ℚ)) (stop : Stop)
    (cs : ConstraintSys ℚ) (a b : Rec ℚ) (i : ℕ), solve mat mesh none none (99 / 100) o none = .ok (S, recs, stop) ∧
    GoodMat mat ∧ ValidMesh mesh.frame ∧ PositiveLengths mesh.rows none none ∧ o.tol = 0 ∧ ExactLin o.lin ∧
    constraint mat mesh = .ok cs ∧ Admissible cs (fun _ => 0) ∧ recs[0]? = some a ∧ recs[1]? = some b ∧
    ¬ Unsupported mat mesh.rows o.tol a.Z a.x ∧ i < mesh.rows.length ∧ 0 < b.x (2 * i) := by
  obtain ⟨S, recs, stop, h, hr⟩ := tower_run
  obtain ⟨-, cs, -, hC, -⟩ := solve_run h
  have hl : recs.length = 2 := by simpa using congrArg List.length hr
  obtain ⟨-, a, h0, hx0, -⟩ := C40_itermax h
  have h1 : recs[1]? = some (recs[1]'(by omega)) := List.getElem?_eq_getElem _
  generalize recs[1] = b at h1
  have ha := congrArg (fun l => l[0]?) hr
  have hb := congrArg (fun l => l[1]?) hr
  simp only [List.getElem?_map, h0, h1, Option.map_some, List.getElem?_cons_succ, List.getElem?_cons_zero, Option.some.injEq,
    Prod.mk.injEq] at ha hb
  refine ⟨_, _, _, S, recs, stop, cs, a, b, 3, h, towerMat_good, towerMesh_valid, towerMesh_lengths, rfl, gauss_exact, hC,
    (tower_constraint hC).2, h0, h1, ?_, by decide, ?_⟩
  · rw [ha.1]
    exact tower_supported a.x hx0
  · rw [hb.2]; norm_num

/-- C76 without coupling: the hypotheses are met, and the end of the middle fiber next to the load goes down with the plate. -/
example : ∃ (S : Sys ℚ) (recs : List (Rec ℚ)) (stop : Stop) (a b : Rec ℚ), solve towerMat towerMesh none none 0 towerOpts none = .ok (S, recs, stop) ∧ recs[0]? = some a ∧
    recs[1]? = some b ∧ b.x 12 = (-1 : ℚ) ∧ (∀ i, i < 10 → (-1 : ℚ) ≤ b.x (2 * i) ∧ b.x (2 * i) ≤ 0) ∧
    ∃ v : ℕ → ℚ, (∀ r, b.x r = a.x r - (a.Z - b.Z) * v r) ∧ Follows towerMat towerMesh.rows 0 a.Z a.x v := by
  obtain ⟨S, recs, stop, h, hr⟩ := tower_run0
  obtain ⟨Km, cs, hK, hC, -⟩ := solve_run h
  have hl : recs.length = 2 := by simpa using congrArg List.length hr
  have hp : PermOf S.n none := by rintro p ⟨⟩
  obtain ⟨-, a, h0, hx0, -, hZ0, -⟩ := C40_itermax h
  have h1 : recs[1]? = some (recs[1]'(by omega)) := List.getElem?_eq_getElem _
  generalize recs[1] = b at h1
  have ha := congrArg (fun l => l[0]?) hr
  have hb := congrArg (fun l => l[1]?) hr
  simp only [List.getElem?_map, h0, h1, Option.map_some, List.getElem?_cons_succ, List.getElem?_cons_zero, Option.some.injEq,
    Prod.mk.injEq] at ha hb
  have hd := C76_downward h towerMat_good towerMesh_valid towerMesh_lengths (Or.inl rfl) (le_refl _) gauss_exact hp 1 b h1 (by
    intro j c hj hc
    have : j = 0 := by omega
    subst this
    rw [h0] at hc; cases hc
    rw [ha.1]
    exact tower_supported _ hx0)
  obtain ⟨-, ⟨L, hL⟩, -, -⟩ := C65_lengths hK
  obtain ⟨v, v1, v2, -, -⟩ := C76_least h towerMat_good towerMesh_valid towerMesh_lengths (by norm_num) hL (le_refl _) gauss_exact
    hp 0 a b h0 h1
  refine ⟨S, recs, stop, a, b, h, h0, h1, hb.2, ?_, v, v1, v2⟩
  intro i hi
  have := hd i hi
  rw [← hZ0, ha.1, hb.1] at this
  norm_num at this
  exact this

set_option synthInstance.maxSize 1000 in
set_option synthInstance.maxHeartbeats 200000 in
/-- Displacements of the two nodes in the middle of the pressed arch. -/
theorem arch_middle : ∃ S recs, solve duoMat archMesh none none (1 / 2) archOpts none = .ok (S, recs, .blocked) ∧
    recs.map (fun a => (a.Z, a.x 2, a.x 8)) = [(11 / 4, 0, 0), (5 / 2, 0, -1 / 4), (2, -1 / 2, -3 / 4)] := by
  have hx : (solve duoMat archMesh none none (1 / 2) archOpts none).toOption.map (fun r =>
      (r.2.1.map (fun a => (a.Z, a.x 2, a.x 8)), r.2.2)) = some (
      [(11 / 4, 0, 0), (5 / 2, 0, -1 / 4), (2, -1 / 2, -3 / 4)], .blocked) := by
    decide +kernel
  cases h : solve duoMat archMesh none none (1 / 2) archOpts none with
  | error e => rw [h] at hx; cases hx
  | ok r =>
    rw [h] at hx
    obtain ⟨S, recs, stop⟩ := r
    simp only [Except.toOption, Option.map_some, Option.some.injEq, Prod.mk.injEq] at hx
    obtain ⟨h1, rfl⟩ := hx
    exact ⟨S, recs, rfl, h1⟩

/-- C75 applied to the pressed arch: the upper fiber reaches the arch in the second record and stays there; the plate rests on it;
the deformed mesh can be assembled again. -/
example : ∃ (S : Sys ℚ) (recs : List (Rec ℚ)) (a b c : Rec ℚ),
    solve duoMat archMesh none none (1 / 2) archOpts none = .ok (S, recs, .blocked) ∧
    recs[0]? = some a ∧ recs[1]? = some b ∧ recs[2]? = some c ∧ pairGap duoMat archMesh.rows a.x 1 4 = 1 / 4 ∧
    pairGap duoMat archMesh.rows b.x 1 4 = 0 ∧ pairGap duoMat archMesh.rows c.x 1 4 = pairGap duoMat archMesh.rows b.x 1 4 ∧
    IsTop duoMat (archMesh.deform c.x).rows 2 ∧ ∃ cs', constraint duoMat (archMesh.deform c.x) = .ok cs' ∧ cs'.Z = 2 := by
  obtain ⟨S, recs, h, hr⟩ := arch_middle
  obtain ⟨cs, hC, -, hn, hadm⟩ := arch_constraint
  have hl : recs.length = 3 := by simpa using congrArg List.length hr
  have hp : PermOf S.n none := by rintro p ⟨⟩
  have ht : (0 : ℚ) ≤ archOpts.tol := by norm_num [archOpts]
  have h0 : recs[0]? = some (recs[0]'(by omega)) := List.getElem?_eq_getElem _
  have h1 : recs[1]? = some (recs[1]'(by omega)) := List.getElem?_eq_getElem _
  have h2 : recs[2]? = some (recs[2]'(by omega)) := List.getElem?_eq_getElem _
  generalize recs[0] = a at h0
  generalize recs[1] = b at h1
  generalize recs[2] = c at h2
  have ha := congrArg (fun l => l[0]?) hr
  have hb := congrArg (fun l => l[1]?) hr
  have hc := congrArg (fun l => l[2]?) hr
  simp only [List.getElem?_map, h0, h1, h2, Option.map_some, List.getElem?_cons_succ, List.getElem?_cons_zero, Option.some.injEq,
    Prod.mk.injEq] at ha hb hc
  have gb : pairGap duoMat archMesh.rows b.x 1 4 = 0 := by
    norm_num [pairGap, nodeHeight, nodeThick, archMesh, duoMat, hb.2.1, hb.2.2]
  have hk := (C75_kept h duoMat_good archMesh_lengths ht (lookup_exact _) hp 1 2 (by omega) b c h1 h2 1 4
    ⟨by omega, _, rfl, rfl⟩).2.1 (by omega) (by rw [gb]; exact ht)
  have htop := C75_touches h duoMat_good archMesh_lengths ht (lookup_exact _) hp hC hadm archMesh_reciprocal 2 c h2
  obtain ⟨-, -, cs', hC', -, -, hZ, -⟩ := C75_restart h duoMat_good archMesh_lengths ht (lookup_exact _) hp hC hadm archMesh_valid
    2 c h2
  refine ⟨S, recs, a, b, c, h, h0, h1, h2, ?_, gb, hk, ?_, cs', hC', ?_⟩
  · norm_num [pairGap, nodeHeight, nodeThick, archMesh, duoMat, ha.2.1, ha.2.2]
  · rwa [hc.1] at htop
  · rw [hZ, hc.1]

end Fibermat
