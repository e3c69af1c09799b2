import Verif.Props.Greedy
import Verif.Props.NeighboursExamples

/-! # C122: the hypotheses are met -/

namespace Fibermat
open Spec MeasureTheory ProbabilityTheory Set

/-- In `crossMat` the fibers 0 and 2 form a pile of thickness 2 below fiber 2, whose top is then at least at 2. -/
example : ∃ (lp : Linprog ℚ) (net : Net ℚ) (m' : Mat ℚ) (st : Net ℚ), GoodLinprog lp ∧ GoodMat crossMat ∧ netNew crossMat true = .ok net ∧
    stackNew lp crossMat net none = .ok (m', st) ∧ PileOf net ([0] ++ [2]) ∧ pileThickness crossMat ([0] ++ [2]) = 2 ∧ 2 ≤ topOf m' 2 := by
  obtain ⟨lp, hlp⟩ := exists_goodLinprog (K := ℚ)
  obtain ⟨net, hn, -⟩ := C06_netNew_ok crossMat_good true
  obtain ⟨m', st, -, hst, -⟩ := C27_mesh_of_stack hlp crossMat_good hn none
  have hc := C11_crossing_is_row crossMat_good (S := 20) rfl crossMat_planar (by simp [crossMat]; norm_num) hn
    (a := 0) (b := 2) (i := 1) (j := 0) (s := 3) (t := 0) (by norm_num) rfl rfl
    (by norm_num [NotParallel]) (by norm_num [CrossAt, abs_lt])
  have hp : PileOf net ([0] ++ [2]) := by
    simp only [PileOf, List.cons_append, List.nil_append, List.isChain_cons_cons, List.IsChain.singleton, and_true]
    obtain ⟨r, hr, hA, hB⟩ := hc
    exact ⟨by norm_num, r, hr, hA, hB⟩
  have ht : pileThickness crossMat ([0] ++ [2]) = 2 := by decide +kernel
  exact ⟨lp, net, m', st, hlp, crossMat_good, hn, hst, hp, ht,
    (C122_pile hlp crossMat_good hn hst (i := 2) (by decide)).2 ⟨[0], hp, ht.symm⟩⟩

/-- With the default arguments the stack of a hundred fibers of thickness 1 is at least 42 high with a probability of at most one in a
thousand. -/
example : ∃ (lp : Linprog ℝ) (Ω : Type) (_ : MeasurableSpace Ω) (P : Measure Ω) (d : ℕ → Ω → ℝ), GoodLinprog lp ∧ UniformDraws P d ∧
    P {ω | ∃ m s' net m' st, matNew (stream (fun k => d k ω)) Real.cos Real.sin 0 standardArgs 0 = .ok (m, s') ∧ netNew m true = .ok net ∧
      stackNew lp m net none = .ok (m', st) ∧ ∃ i : ℕ, (i : ℤ) < standardArgs.n ∧ 42 ≤ topOf m' i} ≤ ENNReal.ofReal (1 / 1000) := by
  obtain ⟨g1, g2, g3, g4, g5, g6, g7, g8, g9⟩ := standardArgs_good
  have hd := uniformDraws_exist
  obtain ⟨lp, hlp⟩ := exists_goodLinprog (K := ℝ)
  refine ⟨lp, _, _, _, _, hlp, hd, ?_⟩
  have h := C122_tail (e := 0) (s := 0) hd g2 g4 g5 g6 rfl hlp none 41
  have e : ((41 : ℕ) + 1 : ℝ) * standardArgs.thickness = 42 := by norm_num [standardArgs]
  rw [e] at h
  refine h.trans (ENNReal.ofReal_le_ofReal ?_)
  rw [standardArgs_chance]
  have hp : (1 / (2 * Real.pi)) ^ 41 ≤ (1 / 6 : ℝ) ^ 41 := by
    have := Real.pi_gt_three
    refine pow_le_pow_left₀ (by positivity) (one_div_le_one_div_of_le (by norm_num) (by linarith)) _
  have hc : ((standardArgs.n.toNat.choose (41 + 1) : ℕ) : ℝ) * 1000 ≤ 6 ^ 41 := by
    have : Nat.choose 100 42 * 1000 ≤ 6 ^ 41 := by decide +kernel
    exact_mod_cast this
  calc _ ≤ (standardArgs.n.toNat.choose (41 + 1) : ℝ) * (1 / 6) ^ 41 := mul_le_mul_of_nonneg_left hp (by positivity)
    _ = (standardArgs.n.toNat.choose (41 + 1) : ℝ) * 1000 / 6 ^ 41 / 1000 := by
      rw [one_div, inv_pow]
      ring
    _ ≤ 1 / 1000 := by
      rw [div_le_div_iff_of_pos_right (by norm_num)]
      exact (div_le_one (by positivity)).2 hc

/-- The top of the last of these fibers is on average at least 16 high. -/
example : ∃ (lp : Linprog ℝ) (Ω : Type) (_ : MeasurableSpace Ω) (P : Measure Ω) (d : ℕ → Ω → ℝ) (T : Ω → ℝ), GoodLinprog lp ∧
    UniformDraws P d ∧ ((99 : ℕ) : ℤ) < standardArgs.n ∧
    (∀ ω, ∃ m s' net m' st, matNew (stream (fun k => d k ω)) Real.cos Real.sin 0 standardArgs 0 = .ok (m, s') ∧ netNew m true = .ok net ∧
      stackNew lp m net none = .ok (m', st) ∧ T ω = topOf m' 99) ∧
    ENNReal.ofReal 16 ≤ ∫⁻ ω, ENNReal.ofReal (T ω) ∂P := by
  obtain ⟨g1, g2, g3, g4, g5, g6, g7, g8, g9⟩ := standardArgs_good
  have hd := uniformDraws_exist
  obtain ⟨lp, hlp⟩ := exists_goodLinprog (K := ℝ)
  have hex : ∀ ω, ∃ T : ℝ, ∃ m s' net m' st, matNew (stream (fun k => (fun k (ω : ℕ → Ico (0 : ℝ) 1) => (ω k : ℝ)) k ω)) Real.cos Real.sin 0
      standardArgs 0 = .ok (m, s') ∧ netNew m true = .ok net ∧ stackNew lp m net none = .ok (m', st) ∧ T = topOf m' 99 := by
    intro ω
    obtain ⟨m, s', net, h1, h2⟩ := C118_exists (e := 0) (s := 0) hd g1 g3 g9.le g4 true ω
    obtain ⟨hgood, -⟩ := random_mat hd g2 g5 h1
    obtain ⟨m', st, mesh, h3, -⟩ := C27_mesh_of_stack hlp hgood h2 none
    exact ⟨_, m, s', net, m', st, h1, h2, h3, rfl⟩
  choose T hT using hex
  have h99 : ((99 : ℕ) : ℤ) < standardArgs.n := by simp [standardArgs]
  have h := C122_lower_mean (e := 0) (s := 0) hd g2 g4 g5 g6 rfl hlp none h99 hT
  refine ⟨lp, _, _, _, _, T, hlp, hd, h99, hT, le_trans (ENNReal.ofReal_le_ofReal ?_) h⟩
  rw [standardArgs_chance]
  have h1 : standardArgs.thickness = 1 := rfl
  have hπ := Real.pi_lt_d2
  have hπ0 := Real.pi_pos
  have : (5 : ℝ) / 33 ≤ 1 / (2 * Real.pi) := by
    rw [div_le_div_iff₀ (by norm_num) (by positivity)]
    linarith
  rw [h1]
  push_cast
  linarith

/-- The arguments of `scripts/square.py:76`, with the number π for the angle. -/
noncomputable def manyArgs : MatArgs ℝ := ⟨3000, 4, 1 / 5, 1 / 20, 40, Real.pi, 0, 1, 1600, some 0⟩

theorem manyArgs_good : GoodSeed manyArgs.seed ∧ manyArgs.seed ≠ none ∧ 0 < manyArgs.n ∧ PositiveArgs manyArgs ∧
    manyArgs.psi = 0 ∧ manyArgs.length ≤ manyArgs.size / 2 := by
  refine ⟨?_, by simp [manyArgs], by simp [manyArgs], ?_, rfl, by norm_num [manyArgs]⟩
  · intro k hk
    simp only [manyArgs, Option.some.injEq] at hk
    omega
  · simp [PositiveArgs, manyArgs]

theorem pow_small {q : ℝ} (h1 : q ≤ 1) (n : ℕ) (hq : 19 ≤ n * q) : (1 - q) ^ n ≤ (1 / 2) ^ 19 := by
  have h2 : (1 - q) ^ n ≤ Real.exp (-q) ^ n := pow_le_pow_left₀ (by linarith) (Real.one_sub_le_exp_neg _) _
  refine h2.trans ?_
  rw [← Real.exp_nat_mul]
  refine (Real.exp_le_exp.2 (by push_cast; linarith : n * -q ≤ (19 : ℕ) * (-1 : ℝ))).trans ?_
  rw [Real.exp_nat_mul]
  refine pow_le_pow_left₀ (Real.exp_pos _).le ?_ _
  rw [Real.exp_neg, ← one_div]
  exact one_div_le_one_div_of_le (by norm_num) (by linarith [Real.add_one_le_exp (1 : ℝ)])

/-- On average between 157 and 158 of them lie on the floor. -/
example : ∃ (lp : Linprog ℝ) (Ω : Type) (_ : MeasurableSpace Ω) (P : Measure Ω) (d : ℕ → Ω → ℝ) (M : Ω → Mat ℝ), GoodLinprog lp ∧
    UniformDraws P d ∧
    (∀ ω, ∃ m s' net st, matNew (stream (fun k => d k ω)) Real.cos Real.sin 0 manyArgs 0 = .ok (m, s') ∧ netNew m true = .ok net ∧
      stackNew lp m net none = .ok (M ω, st)) ∧
    157 < ∫ ω, (floorCount (M ω) : ℝ) ∂P ∧ ∫ ω, (floorCount (M ω) : ℝ) ∂P < 158 := by
  obtain ⟨g1, g2, g3, g4, g5, g6⟩ := manyArgs_good
  have hd := uniformDraws_exist
  obtain ⟨lp, hlp⟩ := exists_goodLinprog (K := ℝ)
  have hex : ∀ ω, ∃ m' m s' net st, matNew (stream (fun k => (fun k (ω : ℕ → Ico (0 : ℝ) 1) => (ω k : ℝ)) k ω)) Real.cos Real.sin 0
      manyArgs 0 = .ok (m, s') ∧ netNew m true = .ok net ∧ stackNew lp m net none = .ok (m', st) := by
    intro ω
    obtain ⟨m, s', net, h1, h2⟩ := C118_exists (e := 0) (s := 0) hd g1 g3 (by norm_num [manyArgs]) g4 true ω
    obtain ⟨hgood, -⟩ := random_mat hd g2 g5 h1
    obtain ⟨m', st, mesh, h3, -⟩ := C27_mesh_of_stack hlp hgood h2 none
    exact ⟨m', m, s', net, st, h1, h2, h3⟩
  choose M hM using hex
  have key := C122_floor_mean (e := 0) (s := 0) hd g2 g4 g5 g6 rfl hlp hM
  have hπ1 := Real.pi_gt_d4
  have hπ2 := Real.pi_lt_d2
  have hπ0 := Real.pi_pos
  have e : 2 * manyArgs.length ^ 2 / (Real.pi * manyArgs.size ^ 2) = 1 / (50 * Real.pi) := by
    simp only [manyArgs]
    field_simp
    norm_num
  have e3 : (manyArgs.n.toNat : ℝ) = 3000 := by
    have : manyArgs.n.toNat = 3000 := rfl
    rw [this]
    norm_num
  rw [e] at key
  generalize manyArgs.n.toNat = n at e3 key
  have hsmall : 1 / (50 * Real.pi) ≤ 1 := by
    rw [div_le_one (by positivity)]
    linarith
  have hpow0 : 0 ≤ (1 - 1 / (50 * Real.pi)) ^ n := pow_nonneg (by linarith) _
  have hpow : (1 - 1 / (50 * Real.pi)) ^ n ≤ (1 / 2) ^ 19 := by
    refine pow_small hsmall _ ?_
    rw [e3, mul_one_div, le_div_iff₀ (by positivity)]
    linarith
  refine ⟨lp, _, _, _, _, M, hlp, hd, hM, ?_⟩
  rw [key, div_div_eq_mul_div, div_one]
  have : (1 / 2 : ℝ) ^ 19 ≤ 1 / 100000 := by norm_num
  constructor <;> nlinarith

end Fibermat
