import Verif.Props.RoundedProgram
import Verif.Props.RoundedStackExamples
import Mathlib.Analysis.SpecialFunctions.Trigonometric.Bounds

/-! # Concrete cases for C94 -/

namespace Fibermat
open Spec

/-- A solver with any approximate answer made of numbers of the format. -/
noncomputable def someAnswer {K : Type} [Field K] [LinearOrder K] (fl : K → K) (ε : K) : Linprog K := fun p =>
  open Classical in if h : ∃ z, NearFeasible ε p z ∧ ∀ c ∈ z, fl c = c then some h.choose else none

theorem someAnswer_good {K : Type} [Field K] [LinearOrder K] [IsStrictOrderedRing K] (fl : K → K) {ε : K} (hε : 0 ≤ ε) :
    NearLinprog ε (someAnswer fl ε) ∧ Answers fl (someAnswer fl ε) ∧ InFormat fl (someAnswer fl ε) := by
  refine ⟨?_, ?_, ?_⟩
  · intro p z h
    unfold someAnswer at h
    split_ifs at h with h1
    cases h
    exact h1.choose_spec.1
  · rintro p - ⟨z, hz, hf⟩
    have : ∃ z, NearFeasible ε p z ∧ ∀ c ∈ z, fl c = c :=
      ⟨z, ⟨hz.size, fun i hi => by have := hz.lower i hi; linarith, fun k hk => by have := hz.rows k hk; linarith⟩, hf⟩
    exact ⟨_, by unfold someAnswer; rw [dif_pos this]⟩
  · intro p z h
    unfold someAnswer at h
    split_ifs at h with h1
    cases h
    exact h1.choose_spec.2

/-- Hypotheses of `C94_main_py`. -/
example : ∃ R s' Z, mainProgramR dbl (fun x => dbl (Real.sqrt x)) (⟨fun k => k, fun s => (1 / ((s : ℝ) ^ 2 + 2), s + 1)⟩ : Rng ℤ ℝ)
      (fun t => dbl (Real.cos t)) (fun t => dbl (Real.sin t)) 0 (someAnswer dbl (1 / 1000)) (fun _ => []) mainArgs true
      (some 10) (some (dbl (1 / 100))) none (dbl (99 / 100)) (mainOpts (fun _ _ => none)) 0 = .ok (R, s') ∧
    R.mat.fibers.length = 100 ∧ IsTop R.mat R.mesh.rows Z := by
  obtain ⟨h1, h2, h3⟩ := someAnswer_good dbl (ε := 1 / 1000) (by norm_num)
  obtain ⟨R, s', Z, hR, hl, hT, -⟩ := C94_main_py (g := (⟨fun k => k, fun s => (1 / ((s : ℝ) ^ 2 + 2), s + 1)⟩ : Rng ℤ ℝ)) (by
    intro s
    refine ⟨by positivity, ?_⟩
    rw [div_lt_one (by positivity)]
    nlinarith [sq_nonneg (s : ℝ)]) h1 h2 h3 (by norm_num) (by norm_num) (fun _ _ => none) (fun _ => []) 0 0
  exact ⟨R, s', Z, hR, hl, hT⟩

/-- Three fibers, rational arithmetic rounded to 53 bits. -/
theorem toy_arith : ProgramArith (binary 53) (sqrtDown 53) (1 / 2 ^ 53) 0 toyCos toySin toyArgs :=
  C94_binary (by norm_num) (sqrtDown_rounds 53) toy_near (by norm_num) (by norm_num) (by decide +kernel)

theorem toy_lengths : ProgramLengths (binary 53) (1 / 2 ^ 53) toyArgs (some (1 / 128)) none (1 / 128) :=
  ⟨rfl, by norm_num, by decide +kernel, by simp, fun _ => by norm_num [toyArgs]⟩

/-- The mat of three fibers with doubles: coordinates are rounded. -/
example : (matNewR (binary 53) (sqrtDown 53) toyRng toyCos toySin 0 toyArgs 17).toOption.map
    (fun r => (r.1.fibers.map (fun f => (f.x, f.z, f.u)), r.1.fibers.map (fun f => decide (f.u = 3 / 5)))) =
    some ([(-5, -5, 5404319552844595 / 9007199254740992),
      (-6433713753386425 / 9007199254740992, -6433713753386425 / 9007199254740992, 5404319552844595 / 9007199254740992),
      (2010535547933257 / 562949953421312, 1608428438346605 / 2251799813685248, 5404319552844595 / 9007199254740992)],
      [false, false, false]) := by
  decide +kernel

/-- Hypotheses of `C94_matNew_ok_iff`, `C94_matNew_result`, `C94_checks` and `C94_doubles`. -/
example : ∃ R s' Z, mainProgramR (binary 53) (sqrtDown 53) toyRng toyCos toySin 0 (someAnswer (binary 53) (1 / 100)) (fun _ => []) toyArgs true
      (some 10) (some (1 / 128)) none (99 / 100) sunkOpts 17 = .ok (R, s') ∧ IsTop R.mat R.mesh.rows Z ∧
    ∀ b ∈ R.recs, ClearUpTo R.mat R.mesh.rows (1 / 100 + (8 * (1 / 1000) + (400 * 4 + 21) / 2 ^ 53) * Z) b.Z b.x := by
  obtain ⟨h1, h2, h3⟩ := someAnswer_good (binary 53 : ℚ → ℚ) (ε := 1 / 100) (by norm_num)
  have hgrid : Grid (binary 53 : ℚ → ℚ) toyArgs.n.toNat := C94_grid (by norm_num) (by decide +kernel)
  obtain ⟨⟨R, s'⟩, hR⟩ := (C94_runs (e := 0) (s := 17) (order := fun _ => []) (periodic := true) (threshold := some 10) (coupling := 99 / 100)
    (o := sunkOpts) toy_arith toyRng_unit rfl rfl h1 h2 h3 hgrid (by norm_num) (by norm_num [toyArgs]) toy_lengths).1.2
    ⟨by simp [toyArgs, GoodSeed], by decide, by norm_num [toyArgs], by norm_num [toyArgs], by norm_num [toyArgs],
      by norm_num [toyArgs], by norm_num [toyArgs], by simp [toyArgs]⟩
  obtain ⟨⟨Z, hT, hZ0⟩, -⟩ := C94_plate toy_arith toyRng_unit rfl rfl h1 h2 h3 hgrid (by norm_num) (by norm_num [toyArgs]) (by decide)
    toy_lengths (by norm_num [sunkOpts, archOpts]) hR
  refine ⟨R, s', Z, hR, hT, fun b hb => ?_⟩
  obtain ⟨k, hk, rfl⟩ := List.mem_iff_getElem.1 hb
  have hlen := (C94_length hR).2
  have hk4 : k ≤ 4 := by simp only [sunkOpts] at hlen; omega
  have hk4' : (k : ℚ) ≤ 4 := by exact_mod_cast hk4
  have h9 := C94_overlap toy_arith toyRng_unit rfl rfl h1 h3 (by norm_num) (by norm_num [toyArgs]) (by decide) toy_lengths
    (by norm_num [sunkOpts, archOpts]) (by norm_num [sunkOpts, archOpts]) (by norm_num [sunkOpts, archOpts]) hR hT (k := k) (by linarith)
    (List.getElem?_eq_getElem hk)
  have hZ : 0 ≤ Z := by
    by_contra hneg
    have := (abs_nonneg _).trans hZ0
    norm_num at this
    linarith
  have hle : 1 / 100 + (8 * sunkOpts.errtol + (400 * (k : ℚ) + 21) * (1 / 2 ^ 53)) * Z ≤
      1 / 100 + (8 * (1 / 1000) + (400 * 4 + 21) / 2 ^ 53) * Z := by
    have : 8 * sunkOpts.errtol + (400 * (k : ℚ) + 21) * (1 / 2 ^ 53) ≤ 8 * (1 / 1000) + (400 * 4 + 21) / 2 ^ 53 := by
      norm_num [sunkOpts, archOpts]
      linarith
    have := mul_le_mul_of_nonneg_right this hZ
    linarith
  intro i j hij
  obtain ⟨c1, c2, c3⟩ := h9 i j hij
  exact ⟨by linarith, fun hne => by have := c2 hne; linarith, by linarith⟩

/-- Without fibers, and with a negative length: `C94_runs`. -/
example (lp : Linprog ℚ) (h1 : NearLinprog (1 / 100) lp) (h2 : Answers (binary 53) lp) (h3 : InFormat (binary 53) lp) :
    mainProgramR (binary 53) (sqrtDown 53) toyRng toyCos toySin 0 lp (fun _ => []) { toyArgs with n := 0 } true
      (some 10) (some (1 / 128)) none (99 / 100) sunkOpts 17 = .error .valueError :=
  (C94_runs (C94_binary (by norm_num) (sqrtDown_rounds 53) toy_near (by norm_num) (by norm_num) (by decide +kernel)) toyRng_unit rfl rfl h1 h2 h3
    (C94_grid (by norm_num) (by decide)) (by norm_num) (by norm_num [toyArgs])
    (⟨rfl, by norm_num, by decide +kernel, by simp, fun _ => by norm_num [toyArgs]⟩ :
      ProgramLengths (binary 53) (1 / 2 ^ 53) { toyArgs with n := 0 } (some (1 / 128)) none (1 / 128))).2
    (by rintro ⟨-, h, -⟩; simp at h)

/-- One fiber along x with the given direction. -/
def longDir (t : ℚ) : Mat ℚ :=
  { fibers := [⟨10, 1, 1, 0, 0, 0, t, 0, 0, 1, ((2 : ℚ) : WithTop ℚ)⟩], attrs := { n := some 1, size := some 20 } }

/-- `C94_accepts`: a direction longer than one by 9.8 millionths. -/
example : matCheckR (binary 53) (sqrtDown 53) (longDir (1 + 98 / 10 ^ 7)).frame = .ok () := by
  refine C94_accepts doubles_rounds (sqrtDown_rounds 53) (by norm_num) ⟨rfl, 20, rfl, ?_⟩ ?_
  · intro f hf
    simp only [longDir, List.mem_singleton] at hf
    subst hf
    constructor <;> norm_num
  · rintro _ ⟨⟩
    exact binary_half (by norm_num) (by decide +kernel)

/-- `C94_only`: one longer by 10.2 millionths is refused. -/
example : matCheckR (binary 53) (sqrtDown 53) (longDir (1 + 102 / 10 ^ 7)).frame = .error .valueError ∧
    ¬ (Skipped (longDir (1 + 102 / 10 ^ 7)).attrs ∨ GoodMatUpTo (101 / 10 ^ 7) (longDir (1 + 102 / 10 ^ 7))) := by
  refine ⟨by decide +kernel, ?_⟩
  rintro (h | ⟨-, S, -, hf⟩)
  · simp [Skipped, longDir] at h
  · have := (hf _ List.mem_cons_self).dir2
    norm_num at this

/-- Hypotheses of `C94_near`: real numbers rounded to doubles, cosine and sine correctly rounded. -/
theorem cos_tracks : Tracks Real.cos (fun t => dbl (Real.cos t)) (1 / 2 ^ 53) ∧ Tracks Real.sin (fun t => dbl (Real.sin t)) (1 / 2 ^ 53) := by
  have key : ∀ c : ℝ → ℝ, (∀ x y, |c y - c x| ≤ |y - x|) → (∀ x, |c x| ≤ 1) → Tracks c (fun t => dbl (c t)) (1 / 2 ^ 53) := by
    intro c h1 h2
    refine ⟨fun x y => ?_, h2, fun x => ?_⟩
    · have h3 : |dbl (c y) - c y| ≤ 1 / 2 ^ 53 := (dbl_rounds.err (c y)).trans (by have := h2 y; linarith)
      have : dbl (c y) - c x = (c y - c x) + (dbl (c y) - c y) := by ring
      rw [this]
      exact (abs_add_le _ _).trans (add_le_add (h1 x y) h3)
    · have h3 := abs_le.1 (h2 x)
      have e1 := dbl_int 1 (by norm_num)
      have e2 := dbl_int (-1) (by norm_num)
      push_cast at e1 e2
      rw [abs_le]
      constructor
      · rw [← e2]; exact dbl_rounds.mono _ _ h3.1
      · conv_rhs => rw [← e1]
        exact dbl_rounds.mono _ _ h3.2
  refine ⟨key _ (fun x y => ?_) Real.abs_cos_le_one, key _ (fun x y => ?_) Real.abs_sin_le_one⟩
  · have := Real.abs_cos_sub_cos_le y x
    simpa using this
  · have := Real.abs_sin_sub_sin_le y x
    simpa using this

/-- C94: the mat of `main.py` computed with doubles: positions within `10^(-13)` and directions within `10^(-14)` of the exact ones. -/
theorem C94_main_mat {σ : Type} {g : Rng σ ℝ} (hg : UnitInterval g) {e s s1 s2 : σ} {m m' : Mat ℝ}
    (h : matInit g Real.cos Real.sin e mainArgs s = .ok (m, s1))
    (h' : matInitR dbl g (fun t => dbl (Real.cos t)) (fun t => dbl (Real.sin t)) e mainArgs s = .ok (m', s2)) :
    List.Forall₂ (NearFiber (1 / 10 ^ 13) (1 / 10 ^ 14)) m.fibers m'.fibers := by
  have h1 : dbl 1 = 1 := by simpa using dbl_int 1 (by norm_num)
  obtain ⟨-, -, hF⟩ := C94_near dbl_rounds h1 (binary_half (by norm_num) h1) hg cos_tracks.1 cos_tracks.2 (by simp [mainArgs]) h h'
  have hpi : |dbl Real.pi| ≤ 4 := by
    have h3 := Real.pi_le_four
    have h4 := Real.pi_pos
    have e4 := dbl_int 4 (by norm_num)
    push_cast at e4
    rw [abs_of_nonneg (dbl_rounds.nonneg h4.le), ← e4]
    exact dbl_rounds.mono _ _ h3
  refine hF.imp fun f f' hn => ?_
  have hd : 2 * (1 / 2 ^ 53) * (|mainArgs.theta| + |mainArgs.psi|) + 2 * (1 / 2 ^ 53) + 1 / 2 ^ 53 ≤ (1 / 10 ^ 14 : ℝ) := by
    simp only [mainArgs, abs_zero, add_zero]
    norm_num
    linarith
  have hp : 2 * (1 / 2 ^ 53) * mainArgs.size ≤ (1 / 10 ^ 13 : ℝ) := by
    simp only [mainArgs]
    norm_num
  exact ⟨hn.x.trans hp, hn.y.trans hp, hn.z.trans hp, hn.u.trans hd, hn.v.trans hd, hn.w.trans hd, hn.same⟩

end Fibermat
