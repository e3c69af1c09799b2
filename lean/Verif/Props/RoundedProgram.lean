import Verif.Props.RoundedMain
import Verif.Props.LapackExamples
import Mathlib.Analysis.SpecialFunctions.Trigonometric.Basic

/-! # C94: the program `main.py` with doubles -/

namespace Fibermat
open Spec

section
variable {σ K : Type} [Field K] [LinearOrder K] [IsStrictOrderedRing K]

theorem loopR_length (S : Sys K) (A : Floats K) (o : Opts K) (fuel : ℕ) (a : Rec K) : (S.loopR A o fuel a).1.length ≤ fuel := by
  induction fuel generalizing a with
  | zero => simp [Sys.loopR]
  | succ n ih =>
    unfold Sys.loopR
    split_ifs
    · split
      · simp
      · simp only [List.length_cons]
        exact Nat.succ_le_succ (ih _)
    · simp

/-- C94: the number of recorded states. -/
theorem C94_length {fl sq cos sin : K → K} {g : Rng σ K} {e : σ} {a : MatArgs K} {s s' : σ} {lp : Linprog K} {order : Sys K → List ℕ}
    {periodic : Bool} {threshold lmin lmax : Option K} {coupling : K} {o : Opts K} {R : MainResultR K}
    (h : mainProgramR fl sq g cos sin e lp order a periodic threshold lmin lmax coupling o s = .ok (R, s')) :
    0 < R.recs.length ∧ R.recs.length ≤ o.itermax + 1 := by
  obtain ⟨m, net, Km, cs, -, -, -, -, -, -, h7⟩ := mainR_parts h
  obtain ⟨Km', cs', -, -, -, e4⟩ := solveR_eq h7
  unfold Sys.runR at e4
  simp only [Prod.mk.injEq] at e4
  rw [e4.1]
  exact ⟨by simp, by simpa using loopR_length _ _ _ _ _⟩

end

/-- C94: cosine and sine correctly rounded. -/
theorem C94_circle {fl : ℝ → ℝ} {u : ℝ} (hr : Rounds fl u) (hu : u ≤ 1) :
    NearUnit (fun t => fl (Real.cos t)) (fun t => fl (Real.sin t)) (3 * u) ∧ fl (Real.sin 0) = 0 := by
  have hu0 := hr.u_nonneg
  refine ⟨fun t => ?_, by rw [Real.sin_zero]; exact hr.zero⟩
  have key : ∀ x : ℝ, |fl x ^ 2 - x ^ 2| ≤ 3 * u * x ^ 2 := by
    intro x
    have h1 := hr.err x
    have h2 : |fl x + x| ≤ 3 * |x| := by
      have : fl x + x = (fl x - x) + 2 * x := by ring
      rw [this]
      refine (abs_add_le _ _).trans ?_
      rw [abs_mul, abs_two]
      nlinarith [abs_nonneg x]
    rw [show fl x ^ 2 - x ^ 2 = (fl x - x) * (fl x + x) by ring, abs_mul]
    calc |fl x - x| * |fl x + x| ≤ (u * |x|) * (3 * |x|) := mul_le_mul h1 h2 (abs_nonneg _) (by positivity)
      _ = 3 * u * x ^ 2 := by rw [← sq_abs x]; ring
  have h3 := key (Real.cos t)
  have h4 := key (Real.sin t)
  have h5 := Real.cos_sq_add_sin_sq t
  have : fl (Real.cos t) ^ 2 + fl (Real.sin t) ^ 2 - 1 =
      (fl (Real.cos t) ^ 2 - Real.cos t ^ 2) + (fl (Real.sin t) ^ 2 - Real.sin t ^ 2) := by linarith
  rw [this]
  refine (abs_add_le _ _).trans ?_
  calc _ ≤ 3 * u * Real.cos t ^ 2 + 3 * u * Real.sin t ^ 2 := add_le_add h3 h4
    _ = 3 * u := by rw [← mul_add, h5, mul_one]

/-- Doubles as real numbers, without the bounds on exponents. -/
noncomputable def dbl (x : ℝ) : ℝ := binary 53 x

theorem dbl_rounds : Rounds dbl (1 / 2 ^ 53) := binary_rounds (by norm_num)

/-- `Mat(100, length=25, width=2, thickness=0.5, tensile=2500)` with the defaults of `Mat.init` (`main.py:72`, `mat.py:160-161`). -/
noncomputable def mainArgs : MatArgs ℝ :=
  { n := 100, length := 25, width := 2, thickness := 1 / 2, size := 50, theta := dbl Real.pi, psi := 0, shear := 1
    tensile := ((2500 : ℝ) : WithTop ℝ), seed := some 0 }

/-- `packing=4, itermax=1000` with the default tolerances (`main.py:93-97`, `solver.py:13-15`). -/
noncomputable def mainOpts (lin : LinSolver ℝ) : Opts ℝ :=
  { packing := .fin 4, itermax := 1000, tol := dbl (1 / 10 ^ 6), errtol := dbl (1 / 10 ^ 6), perm := [], lin := lin }

theorem dbl_int (n : ℤ) (hn : |n| ≤ 2 ^ 53) : dbl n = n := by
  have := binary_exact (K := ℝ) (p := 53) (by norm_num) n 0 hn
  simpa [dbl] using this

/-- C94: `main.py` with doubles, correctly rounded cosine, sine and square root, any random numbers of `[0, 1)`, any linear solver, any
permutation, and a linear programming solver with an error of at most `1/80` and doubles as answers: the program completes, and in each
recorded state the nodes overlap at most by the error of the linear programming solver and by `10^(-5)` times the height of the
stacked mat. -/
theorem C94_main_py {σ : Type} {g : Rng σ ℝ} (hg : UnitInterval g) {lp : Linprog ℝ} {δ : ℝ} (hlp : NearLinprog δ lp) (hans : Answers dbl lp)
    (hfmt : InFormat dbl lp) (hδ : 0 ≤ δ) (hδ' : δ ≤ 1 / 80) (lin : LinSolver ℝ) (order : Sys ℝ → List ℕ) (e s : σ) :
    ∃ R s' Z, mainProgramR dbl (fun x => dbl (Real.sqrt x)) g (fun t => dbl (Real.cos t)) (fun t => dbl (Real.sin t)) e lp order mainArgs true
        (some 10) (some (dbl (1 / 100))) none (dbl (99 / 100)) (mainOpts lin) s = .ok (R, s') ∧
      R.mat.fibers.length = 100 ∧ IsTop R.mat R.mesh.rows Z ∧ 0 < R.recs.length ∧ R.recs.length ≤ 1001 ∧
      (∀ b ∈ R.recs, ClearUpTo R.mat R.mesh.rows (δ + 1 / 10 ^ 5 * Z) b.Z b.x) ∧
      ∀ (k : ℕ) (b c : Rec ℝ), R.recs[k]? = some b → R.recs[k + 1]? = some c → c.Z ≤ b.Z := by
  have hr := dbl_rounds
  obtain ⟨hc, hs⟩ := C94_circle hr (by norm_num)
  have hl : |dbl (1 / 100) - 1 / 100| ≤ 1 / 2 ^ 53 * |1 / 100| := hr.err _
  have ht : |dbl (1 / 10 ^ 6) - 1 / 10 ^ 6| ≤ 1 / 2 ^ 53 * |1 / 10 ^ 6| := hr.err _
  rw [abs_of_nonneg (by positivity : (0 : ℝ) ≤ 1 / 100), abs_le] at hl
  rw [abs_of_nonneg (by positivity : (0 : ℝ) ≤ 1 / 10 ^ 6), abs_le] at ht
  norm_num at hl ht
  have hlen : ProgramLengths dbl (1 / 2 ^ 53) mainArgs (some (dbl (1 / 100))) none (dbl (1 / 100)) := by
    refine ⟨rfl, ?_, hr.idem _, by simp, fun _ => ?_⟩
    · norm_num; linarith [hl.1]
    · simp only [mainArgs]
      norm_num
      linarith [hl.2]
  have hsq := C93_sqrt hr (by norm_num)
  have hc' : NearUnit (fun t => dbl (Real.cos t)) (fun t => dbl (Real.sin t)) (1 / 10 ^ 9) :=
    fun t => (hc t).trans (by norm_num)
  have hsize : dbl mainArgs.size = mainArgs.size := by
    have := dbl_int 50 (by norm_num)
    simpa [mainArgs] using this
  obtain ⟨R, s', Z, hR, hT, hov, hpl⟩ := C94_doubles (e := e) (s := s) (order := order) (periodic := true) (threshold := some 10)
    (coupling := dbl (99 / 100)) (o := mainOpts lin) hsq hc' hsize hg rfl hs hlp hans hfmt hδ (by simp only [mainArgs]; linarith)
    (by simp [mainArgs, GoodSeed]) (by simp [mainArgs]) (by simp [mainArgs]) (by simp [mainArgs])
    (by refine ⟨?_, ?_, ?_, ?_, ?_⟩ <;> simp [mainArgs]) hlen
    (by simp only [mainOpts]; norm_num; linarith [ht.1]) (by simp only [mainOpts]; norm_num; linarith [ht.1])
    (by simp only [mainOpts]; norm_num; linarith [ht.2])
  obtain ⟨hl1, hl2⟩ := C94_length hR
  have hA : ProgramArith dbl (fun x => dbl (Real.sqrt x)) (1 / 2 ^ 53) (1 / 10 ^ 9) (fun t => dbl (Real.cos t)) (fun t => dbl (Real.sin t))
      mainArgs := C94_binary (by norm_num) hsq hc' (by norm_num) (by norm_num) hsize
  obtain ⟨m, net, -, -, h1, h2, h3, h4, -, -, -⟩ := mainR_parts hR
  obtain ⟨k1, -, k3, k4⟩ := C94_matNew_result hA.rounds hA.root hA.small hA.one hA.half hA.size hg hA.circle hA.eps h1
  obtain ⟨-, hN⟩ := safe_of hA hg h1
  have hpos : 0 < m.fibers.length := by simp only [mainArgs] at k1; omega
  have hmem : m.fibers[0] ∈ m.fibers := List.getElem_mem hpos
  have hne := List.length_pos_iff.1 hpos
  obtain ⟨-, -, -, -, -, -, hsame, -⟩ := stackR_cases k3 hne hN h2 h3
  have hZ := (C91_rests hlp k3 (fun f hf => (k4 f hf).2.2.2.2.2.2.2 rfl hs) hN h2 hfmt (by norm_num) hδ
    ⟨_, hmem, by rw [(k4 _ hmem).2.2.2.2.1]; simp only [mainArgs]; linarith⟩ h3 h4 hT).1
  refine ⟨R, s', Z, hR, ?_, hT, hl1, hl2, fun b hb => ?_, hpl⟩
  · have := same_length hsame
    simp only [mainArgs] at k1
    omega
  · obtain ⟨k, hk, rfl⟩ := List.mem_iff_getElem.1 hb
    have hk1 : k ≤ 1000 := by simp only [mainOpts] at hl2; omega
    have hk2 : (k : ℝ) ≤ 1000 := by exact_mod_cast hk1
    have h9 := hov k _ (List.getElem?_eq_getElem hk) (by omega)
    have hle : δ + (8 * (mainOpts lin).errtol + (400 * k + 21) / 2 ^ 53) * Z ≤ δ + 1 / 10 ^ 5 * Z := by
      have h10 : 8 * (mainOpts lin).errtol + (400 * (k : ℝ) + 21) / 2 ^ 53 ≤ 1 / 10 ^ 5 := by
        have h11 : (400 * (k : ℝ) + 21) / 2 ^ 53 ≤ (400 * 1000 + 21) / 2 ^ 53 := by
          apply div_le_div_of_nonneg_right _ (by positivity)
          linarith
        simp only [mainOpts]
        norm_num at h11 ⊢
        linarith [ht.2]
      have := mul_le_mul_of_nonneg_right h10 (show 0 ≤ Z by linarith)
      linarith
    intro i j hij
    obtain ⟨c1, c2, c3⟩ := h9 i j hij
    exact ⟨by linarith, fun hne => by have := c2 hne; linarith, by linarith⟩

end Fibermat
