import Verif.Props.Idle
import Verif.Props.BorneExamples
import Verif.Props.RegularExamples
import Verif.Props.Extend

/-! # Concrete cases for C137 and C138 -/

set_option linter.unusedSimpArgs false

namespace Fibermat
open Spec

/-- The mat of three fibers, the third one being of another material, and wider. -/
def oddMat : Mat ℚ :=
  { fibers := duoMat.fibers ++ [⟨10, 3, 1, 0, 7, 1 / 2, 1, 0, 0, 40, ⊤⟩]
    attrs := { n := some 3, size := some 20, periodic := some true } }

theorem oddMat_good : GoodMat oddMat :=
  ((matCheck_frame_iff _).1 (by decide +kernel)).resolve_left (by simp [Skipped, oddMat])

theorem odd_same : SameBut (fun k => k = 2) trioMat oddMat := by
  refine ⟨rfl, ?_, ?_⟩
  · intro k f f' h h'
    have hk : k < 3 := (List.getElem?_eq_some_iff.1 h).1
    interval_cases k <;> simp [trioMat, oddMat, duoMat] at h h' <;> subst h <;> subst h' <;> rfl
  · intro k f f' h h' hne
    have hk : k < 3 := (List.getElem?_eq_some_iff.1 h).1
    interval_cases k <;> simp [trioMat, oddMat, duoMat] at h h' hne <;> subst h <;> subst h' <;> exact ⟨rfl, rfl, rfl⟩

theorem trio_constraint : ∃ cs, constraint trioMat trioMesh = .ok cs ∧ cs.Z = 11 / 4 ∧ Admissible cs (fun _ => 0) := by
  obtain ⟨S, recs, stop, h, -⟩ := trio_run
  obtain ⟨Km, cs, -, hC, -⟩ := solve_run h
  have hx : (constraint trioMat trioMesh).toOption.map (fun c => c.Z) = some (11 / 4) := by decide +kernel
  rw [hC] at hx
  simp only [Except.toOption, Option.map_some, Option.some.injEq] at hx
  have hcr : ConstraintsReciprocal trioMesh.rows := by
    have := trioMesh_valid.constraints
    rwa [rows_meshFrame] at this
  obtain ⟨-, -, -, -, hiff⟩ := C37_geometric hC trioMat_good hcr
  refine ⟨cs, hC, hx, ?_⟩
  rw [hiff, hx]
  have e1 : ∀ i < 8, nodeThick trioMat trioMesh.rows i = 1 := by decide +kernel
  have e2 : ∀ i < 8, nodeThick trioMat trioMesh.rows i / 2 ≤ nodeHeight trioMesh.rows i ∧
    nodeHeight trioMesh.rows i ≤ 11 / 4 - nodeThick trioMat trioMesh.rows i / 2 := by decide +kernel
  refine ⟨fun i hi => by simpa using (e2 i hi).1, fun i hi => by simpa using (e2 i hi).2, ?_⟩
  intro i j r hr hc hij
  have := (trio_pairs (i := i) (j := j)).1 ⟨hij.le, r, hr, hc⟩
  obtain ⟨rfl, rfl⟩ : i = 1 ∧ j = 4 := by omega
  have h1 : nodeHeight trioMesh.rows 1 = 1 := rfl
  have h4 : nodeHeight trioMesh.rows 4 = 9 / 4 := rfl
  rw [e1 1 (by omega), e1 4 (by omega), h1, h4]
  norm_num

/-- At the beginning the fibers are supported: two by the floor, one by the plate. -/
theorem trio_supported : ¬ Unsupported trioMat trioMesh.rows 0 (11 / 4) (fun _ => 0) := by
  rintro ⟨v, ⟨i, hi, hv⟩, hs, hk⟩
  have f0 := (hk 0 0 (by rw [trio_pairs]; simp)).1 (by decide +kernel)
  have f3 := (hk 3 3 (by rw [trio_pairs]; simp)).2.2 (by decide +kernel)
  have f6 := (hk 6 6 (by rw [trio_pairs]; simp)).1 (by decide +kernel)
  have hi : i < 8 := hi
  apply hv
  rcases (by omega : i < 3 ∨ (3 ≤ i ∧ i < 6) ∨ (6 ≤ i)) with hb | hb | hb
  · have : SameFiber trioMesh.rows 0 i := by interval_cases i <;> exact ⟨_, _, rfl, rfl, rfl⟩
    rw [← hs 0 i this, f0]
  · have : SameFiber trioMesh.rows 3 i := by
      obtain ⟨b1, b2⟩ := hb
      interval_cases i <;> exact ⟨_, _, rfl, rfl, rfl⟩
    rw [← hs 3 i this, f3]
  · have : SameFiber trioMesh.rows 6 i := by interval_cases i <;> exact ⟨_, _, rfl, rfl, rfl⟩
    rw [← hs 6 i this, f6]

/-- While the plate is above the third fiber lying on the floor, this fiber does not connect the plates. -/
theorem trio_idle {Z : ℚ} {u : ℕ → ℚ} (h6 : u 12 = 0) (h7 : u 14 = 0) (hZ : 1 < Z) :
    Idle (fun k => k = 2) trioMat trioMesh.rows 0 Z u := by
  rintro m r hr hu ⟨⟨n, ⟨j, hj, hg⟩, hl⟩, -⟩
  have hm : m < 8 := (List.getElem?_eq_some_iff.1 hr).1
  have hm' : m ∈ ({6, 7} : Finset ℕ) := by
    interval_cases m <;> simp [trioMesh, archMesh] at hr <;> subst hr <;> simp at hu <;> simp
  rw [(trio_parts 0 u).2 m n hl] at hm'
  simp only [Finset.mem_insert, Finset.mem_singleton] at hm'
  have r6 : roofGap trioMat trioMesh.rows Z u 6 = Z - (1 / 2 + u 12) - 1 / 2 := rfl
  have r7 : roofGap trioMat trioMesh.rows Z u 7 = Z - (1 / 2 + u 14) - 1 / 2 := rfl
  rcases hm' with rfl | rfl
  · rw [r6, h6] at hg; linarith
  · rw [r7, h7] at hg; linarith

set_option synthInstance.maxSize 1000 in
set_option synthInstance.maxHeartbeats 200000 in
theorem odd_run : ∃ S recs stop, solve oddMat trioMesh none none (1 / 2) archOpts3 none = .ok (S, recs, stop) ∧ recs.length = 3 := by
  have hx : (solve oddMat trioMesh none none (1 / 2) archOpts3 none).toOption.map (fun r => r.2.1.length) = some 3 := by
    decide +kernel
  cases h : solve oddMat trioMesh none none (1 / 2) archOpts3 none with
  | error e => rw [h] at hx; cases hx
  | ok r =>
    rw [h] at hx
    obtain ⟨S, recs, stop⟩ := r
    simp only [Except.toOption, Option.map_some, Option.some.injEq] at hx
    exact ⟨S, recs, stop, rfl, hx⟩

/-- C137 in the second step of the pressed arch: it ends when the arch is flat on the floor. -/
example : ∃ (S : Sys ℚ) (recs : List (Rec ℚ)) (stop : Stop) (a b c : Rec ℚ) (v : ℕ → ℚ),
    solve trioMat trioMesh none none (1 / 2) archOpts3 none = .ok (S, recs, stop) ∧ recs = [a, b, c] ∧ c.Z = 2 ∧
    NewlyClosed trioMat trioMesh.rows 0 b.Z b.x c.Z c.x ∧
    StillOpen trioMat trioMesh.rows 0 b.Z b.x (b.Z - 1 / 4) (fun r => b.x r - 1 / 4 * v r) ∧
    0 < floorGap trioMat trioMesh.rows b.x 1 ∧ floorGap trioMat trioMesh.rows c.x 1 = 0 := by
  obtain ⟨S, recs, stop, h, hr⟩ := trio_run
  obtain ⟨a, b, c, rfl⟩ := List.length_eq_three.1 (show recs.length = 3 by simpa using congrArg List.length hr)
  have hp : PermOf S.n none := by rintro p ⟨⟩
  simp only [List.map_cons, List.map_nil, List.cons.injEq, Prod.mk.injEq] at hr
  obtain ⟨-, ⟨bZ, b0, b2, b8, b12, b14⟩, ⟨cZ, -, c2, -⟩, -⟩ := hr
  obtain ⟨v, -, h1, h2⟩ := C137_first h trioMat_good trioMesh_lengths (by norm_num [archOpts3]) gauss_exact hp 1 b c rfl rfl
  have f1 : ∀ u, floorGap trioMat trioMesh.rows u 1 = 1 + u 2 - 1 / 2 := fun u => rfl
  refine ⟨S, _, stop, a, b, c, v, h, rfl, cZ, h1, h2 (1 / 4) (by norm_num) (by rw [bZ, cZ]; norm_num), ?_, ?_⟩
  · rw [f1, b2]; norm_num
  · rw [f1, c2]; norm_num

/-- C138: with another material of the third fiber, the records are the same. -/
example : ∃ (S S' : Sys ℚ) (recs recs' : List (Rec ℚ)) (stop stop' : Stop) (a b c a' b' c' : Rec ℚ),
    solve trioMat trioMesh none none (1 / 2) archOpts3 none = .ok (S, recs, stop) ∧
    solve oddMat trioMesh none none (1 / 2) archOpts3 none = .ok (S', recs', stop') ∧
    recs = [a, b, c] ∧ recs' = [a', b', c'] ∧ c'.Z = 2 ∧ c'.x 2 = -1 / 2 ∧ c'.x 1 = c.x 1 := by
  obtain ⟨S, recs, stop, h, hr⟩ := trio_run
  obtain ⟨S', recs', stop', h', hl'⟩ := odd_run
  obtain ⟨a, b, c, rfl⟩ := List.length_eq_three.1 (show recs.length = 3 by simpa using congrArg List.length hr)
  obtain ⟨a', b', c', rfl⟩ := List.length_eq_three.1 hl'
  obtain ⟨cs, hC, hZ, hadm⟩ := trio_constraint
  obtain ⟨_, cs', -, hC', -⟩ := solve_run h'
  have hp : ∀ {n : ℕ}, PermOf n none := by rintro n p ⟨⟩
  simp only [List.map_cons, List.map_nil, List.cons.injEq, Prod.mk.injEq] at hr
  obtain ⟨⟨aZ, a0, a2, a8, a12, a14⟩, ⟨bZ, b0, b2, b8, b12, b14⟩, ⟨cZ, -, c2, -⟩, -⟩ := hr
  have ht : (0 : ℚ) ≤ archOpts3.tol := by norm_num [archOpts3]
  have hs0 : ¬ Unsupported trioMat trioMesh.rows archOpts3.tol a.Z a.x := by
    obtain ⟨-, d, hd, hx, -⟩ := C40_itermax h
    cases hd
    have e : a.x = fun _ => 0 := funext hx
    rw [e, aZ]
    exact trio_supported
  have hs1 := C77_supported h trioMat_good trioMesh_lengths ht gauss_exact hp 0 1 (by omega) a b rfl rfl hs0
  obtain ⟨e1, e2, -⟩ := C138_same h trioMat_good h' oddMat_good trioMesh_valid trioMesh_lengths (by rw [abs_of_pos] <;> norm_num)
    ht gauss_exact hp rfl gauss_exact hp hC hC' odd_same 2 c c' rfl rfl (by
      intro j d hj hd
      interval_cases j
      · cases hd
        exact ⟨trio_idle a12 a14 (by rw [aZ]; norm_num), hs0⟩
      · cases hd
        exact ⟨trio_idle b12 b14 (by rw [bZ]; norm_num), hs1⟩)
  exact ⟨S, S', _, _, stop, stop', a, b, c, a', b', c', h, h', rfl, rfl, e1.trans cZ, (e2 1 (by decide)).1.trans c2,
    (e2 0 (by decide)).2 (Or.inl (by rw [trio_starts]; simp))⟩

/-- C138 for whole runs, with a solver that answers whenever the solution is unique: whatever the target and the number of iterations,
the two mats have equally many records. -/
example (pk : Cell ℚ) (n : ℕ) : ∃ (S S' : Sys ℚ) (recs recs' : List (Rec ℚ)) (stop stop' : Stop),
    solve trioMat trioMesh none none (1 / 2) ⟨pk, n, 0, 0, [], goodGauss⟩ none = .ok (S, recs, stop) ∧
    solve oddMat trioMesh none none (1 / 2) ⟨pk, n, 0, 0, [], goodGauss⟩ none = .ok (S', recs', stop') ∧
    recs'.length = recs.length ∧ ∀ (k : ℕ) (b b' : Rec ℚ), recs[k]? = some b → recs'[k]? = some b' → b'.Z = b.Z := by
  obtain ⟨S, recs0, stop0, h0, -⟩ := trio_run
  obtain ⟨S', recs0', stop0', h0', -⟩ := odd_run
  obtain ⟨recs, stop, h⟩ := C105_options h0 ⟨pk, n, 0, 0, [], goodGauss⟩ none
  obtain ⟨recs', stop', h'⟩ := C105_options h0' ⟨pk, n, 0, 0, [], goodGauss⟩ none
  obtain ⟨cs, hC, hZ, hadm⟩ := trio_constraint
  obtain ⟨_, cs', -, hC', -⟩ := solve_run h'
  have hp : ∀ {n : ℕ}, PermOf n none := by rintro n p ⟨⟩
  have hcr : ConstraintsReciprocal trioMesh.rows := by
    have := trioMesh_valid.constraints
    rwa [rows_meshFrame] at this
  obtain ⟨l1, l2⟩ := C138_run h trioMat_good h' oddMat_good trioMesh_valid trioMesh_lengths (by rw [abs_of_pos] <;> norm_num)
    (le_refl 0) (le_refl 0) goodGauss_good hp rfl (le_refl 0) goodGauss_good hp rfl rfl (by simp [trioMesh, archMesh]) hC hC' odd_same
    (by rw [hZ]; exact trio_supported) (by
      intro k a _ ha
      obtain ⟨-, d, hd, hx, -, -, -⟩ := C40_itermax h
      have hnp := C46_nonPenetrating h trioMat_good trioMesh_lengths (le_refl 0) goodGauss_good.1 hp hC hadm hcr k a ha
      have kept := C75_kept h trioMat_good trioMesh_lengths (le_refl 0) goodGauss_good.1 hp 0 k (by omega) d a hd ha
      have k6 := (kept 6 6 (by rw [trio_pairs]; simp)).1
      have k7 := (kept 7 7 (by rw [trio_pairs]; simp)).1
      have f6 : ∀ u, floorGap trioMat trioMesh.rows u 6 = 1 / 2 + u 12 - 1 / 2 := fun u => rfl
      have f7 : ∀ u, floorGap trioMat trioMesh.rows u 7 = 1 / 2 + u 14 - 1 / 2 := fun u => rfl
      rw [f6, f6, hx] at k6
      rw [f7, f7, hx] at k7
      have k6 := k6 (by norm_num)
      have k7 := k7 (by norm_num)
      have n1 := hnp.floor 1 (by decide)
      have n2 := hnp.pair 1 4 _ rfl rfl (by omega)
      have n3 := hnp.roof 4 (by decide)
      have t1 : nodeThick trioMat trioMesh.rows 1 = 1 := rfl
      have t4 : nodeThick trioMat trioMesh.rows 4 = 1 := rfl
      rw [t1] at n1 n2
      rw [t4] at n2 n3
      exact trio_idle (by linarith) (by linarith) (by linarith))
  exact ⟨S, S', recs, recs', stop, stop', h, h', l1, fun k b b' hb hb' => (l2 k b b' hb hb').1⟩

end Fibermat
