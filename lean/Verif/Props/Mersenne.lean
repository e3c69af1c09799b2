import Verif.Model.Mersenne
import Verif.Spec.Mersenne
import Verif.Props.Main
import Verif.Props.Notebook
import Verif.Props.RoundedResults

/-! # C101: numpy's generator

The loops of `numpy.random` compute the published recurrence of the Mersenne Twister; the numbers drawn are doubles of `[0, 1)`, and
drawing them uniformly in `[-0.5, 0.5)` makes no rounding error.  The programs are then known to run without a hypothesis on
the random numbers. -/

namespace Fibermat
open Fibermat.Spec

theorem twist_toNat (a b c : Word) :
    (c ^^^ (((a &&& 0x80000000) ||| (b &&& 0x7fffffff)) >>> 1) ^^^
      (-(((a &&& 0x80000000) ||| (b &&& 0x7fffffff)) &&& 1) &&& 0x9908b0df)).toNat =
    c.toNat ^^^ (a.toNat / 2 ^ 31 * 2 ^ 31 + b.toNat % 2 ^ 31) / 2 ^^^ (if b.toNat % 2 = 1 then 0x9908b0df else 0) := by
  have ha := a.isLt
  have hb := b.isLt
  have e1 : (a &&& 0x80000000).toNat = a.toNat / 2 ^ 31 * 2 ^ 31 := by
    rw [BitVec.toNat_and]
    show a.toNat &&& (2 ^ 31) = _
    apply Nat.eq_of_testBit_eq
    intro i
    rw [Nat.testBit_and, Nat.testBit_mul_two_pow, Nat.testBit_div_two_pow, Nat.testBit_two_pow]
    by_cases h : 31 = i
    · subst h; simp
    · by_cases h2 : 31 ≤ i
      · have : a.toNat.testBit (i - 31 + 31) = false := by
          apply Nat.testBit_lt_two_pow
          calc _ < 2 ^ 32 := ha
            _ ≤ 2 ^ (i - 31 + 31) := Nat.pow_le_pow_right (by norm_num) (by omega)
        rw [this]; simp [h]
      · simp [h, h2]
  have e2 : (b &&& 0x7fffffff).toNat = b.toNat % 2 ^ 31 := by
    rw [BitVec.toNat_and]
    show b.toNat &&& (2 ^ 31 - 1) = _
    exact Nat.and_two_pow_sub_one_eq_mod _ 31
  have e3 : ((a &&& 0x80000000) ||| (b &&& 0x7fffffff)).toNat = a.toNat / 2 ^ 31 * 2 ^ 31 + b.toNat % 2 ^ 31 := by
    rw [BitVec.toNat_or, e1, e2, mul_comm, Nat.two_pow_add_eq_or_of_lt (Nat.mod_lt _ (by norm_num))]
  generalize hy : (a &&& 0x80000000) ||| (b &&& 0x7fffffff) = y at *
  rw [BitVec.toNat_xor, BitVec.toNat_xor, BitVec.toNat_ushiftRight, Nat.shiftRight_eq_div_pow, pow_one, e3]
  congr 1
  have e4 : (y &&& 1).toNat = b.toNat % 2 := by
    rw [BitVec.toNat_and]
    show y.toNat &&& 1 = _
    rw [Nat.and_one_is_mod, e3]
    omega
  rcases Nat.mod_two_eq_zero_or_one b.toNat with h | h
  · have : y &&& 1 = 0#32 := by apply BitVec.eq_of_toNat_eq; rw [e4, h]; rfl
    rw [this, h]; decide
  · have : y &&& 1 = 1#32 := by apply BitVec.eq_of_toNat_eq; rw [e4, h]; rfl
    rw [this, h]; decide

theorem temper_toNat (y : Word) : (mtTemper y).toNat = temper y.toNat := by
  have h1 : ∀ (a : Word) (n : ℕ), (a ^^^ (a >>> n)).toNat = a.toNat ^^^ a.toNat / 2 ^ n := by
    intro a n
    rw [BitVec.toNat_xor, BitVec.toNat_ushiftRight, Nat.shiftRight_eq_div_pow]
  have h2 : ∀ (a m : Word) (n : ℕ), (a ^^^ ((a <<< n) &&& m)).toNat = a.toNat ^^^ (a.toNat * 2 ^ n &&& m.toNat) := by
    intro a m n
    rw [BitVec.toNat_xor, BitVec.toNat_and, BitVec.toNat_shiftLeft, Nat.shiftLeft_eq]
    congr 1
    apply Nat.eq_of_testBit_eq
    intro i
    rw [Nat.testBit_and, Nat.testBit_and, Nat.testBit_mod_two_pow]
    by_cases hi : i < 32
    · simp [hi]
    · have : m.toNat.testBit i = false :=
        Nat.testBit_lt_two_pow (m.isLt.trans_le (Nat.pow_le_pow_right (by norm_num) (by omega)))
      simp [this]
  unfold mtTemper temper
  simp only [h1, h2]
  rfl

theorem seedLoop_words {seed : ℕ} {x : ℕ → ℕ} (hx : Twister seed x) (k : ℕ) : ∀ (pos : ℕ) (w : Word), pos + k ≤ 624 →
    (0 < k → w.toNat = x pos) → (mtSeedLoop k pos w).length = k ∧ ∀ i, i < k → ((mtSeedLoop k pos w).getD i 0).toNat = x (pos + i) := by
  induction k with
  | zero => intro pos w _ _; exact ⟨rfl, fun i hi => absurd hi (Nat.not_lt_zero i)⟩
  | succ k ih =>
    intro pos w hk hw
    have hw := hw (Nat.succ_pos k)
    obtain ⟨h1, h2⟩ := ih (pos + 1) (1812433253 * (w ^^^ (w >>> 30)) + BitVec.ofNat 32 (pos + 1)) (by omega) (by
      intro hk0
      rw [hx.fill pos (by omega), BitVec.toNat_add, BitVec.toNat_mul, BitVec.toNat_xor, BitVec.toNat_ushiftRight,
        Nat.shiftRight_eq_div_pow, BitVec.toNat_ofNat, hw]
      simp only [Nat.mod_add_mod, Nat.add_mod_mod]
      rfl)
    refine ⟨by rw [mtSeedLoop, List.length_cons, h1], ?_⟩
    intro i hi
    cases i with
    | zero => simpa [mtSeedLoop] using hw
    | succ i =>
      rw [mtSeedLoop, List.getD_cons_succ, h2 i (by omega)]
      congr 1; omega

/-- The array holds the words `624 m, …, 624 m + 623` of the recurrence. -/
def Block (x : ℕ → ℕ) (m : ℕ) (key : List Word) : Prop :=
  key.length = 624 ∧ ∀ i, i < 624 → (key.getD i 0).toNat = x (624 * m + i)

theorem getD_set {α : Type} (l : List α) (i j : ℕ) (a d : α) (hi : i < l.length) :
    (l.set i a).getD j d = if i = j then a else l.getD j d := by
  rw [List.getD_eq_getElem?_getD, List.getElem?_set, List.getD_eq_getElem?_getD]
  split
  · simp [hi]
  · rfl

theorem gen_block {seed : ℕ} {x : ℕ → ℕ} (hx : Twister seed x) {m : ℕ} {key : List Word} (h : Block x m key) :
    Block x (m + 1) (mtGen key) := by
  have key_inv : ∀ j, j ≤ 624 → ((List.range j).foldl mtGenStep key).length = 624 ∧
      ∀ i, i < 624 → (((List.range j).foldl mtGenStep key).getD i 0).toNat = if i < j then x (624 * (m + 1) + i) else x (624 * m + i) := by
    intro j
    induction j with
    | zero => intro _; exact ⟨h.1, fun i hi => by simpa using h.2 i hi⟩
    | succ j ih =>
      intro hj
      obtain ⟨h1, h2⟩ := ih (by omega)
      rw [List.range_succ, List.foldl_append, List.foldl_cons, List.foldl_nil]
      generalize (List.range j).foldl mtGenStep key = k at h1 h2 ⊢
      refine ⟨by rw [mtGenStep, List.length_set, h1], ?_⟩
      intro i hi
      rw [mtGenStep, getD_set _ _ _ _ _ (by omega)]
      split
      · next e =>
        subst e
        rw [if_pos (by omega), twist_toNat]
        have c0 : (k.getD j 0).toNat = x (624 * m + j) := by rw [h2 j hi, if_neg (by omega)]
        have c1 : (k.getD ((j + 1) % 624) 0).toNat = x (624 * m + j + 1) := by
          rw [h2 _ (Nat.mod_lt _ (by norm_num))]
          split <;> congr 1 <;> omega
        have c2 : (k.getD ((j + 397) % 624) 0).toNat = x (624 * m + j + 397) := by
          rw [h2 _ (Nat.mod_lt _ (by norm_num))]
          split <;> congr 1 <;> omega
        rw [c0, c1, c2, show 624 * (m + 1) + j = 624 * m + j + 624 by ring, hx.twist]
      · next e =>
        rw [h2 i hi]
        split <;> split <;> first | rfl | (exfalso; omega)
  obtain ⟨h1, h2⟩ := key_inv 624 le_rfl
  exact ⟨h1, fun i hi => by rw [mtGen, h2 i hi, if_pos hi]⟩

/-- The state after `n` words. -/
def At (x : ℕ → ℕ) (n : ℕ) (s : MT) : Prop := ∃ m, Block x m s.key ∧ s.pos ≤ 624 ∧ 624 * m + s.pos = n + 624

theorem seed_at {seed : ℕ} {x : ℕ → ℕ} (hx : Twister seed x) {w : Word} (hw : w.toNat = seed) : At x 0 (mtSeed w) := by
  obtain ⟨h1, h2⟩ := seedLoop_words hx 624 0 w (by norm_num) (fun _ => by rw [hx.start, hw])
  exact ⟨0, ⟨h1, fun i hi => by rw [mul_zero]; exact h2 i hi⟩, le_rfl, rfl⟩

theorem next_at {seed : ℕ} {x : ℕ → ℕ} (hx : Twister seed x) {n : ℕ} {s : MT} (h : At x n s) :
    (mtNext s).1.toNat = temper (x (624 + n)) ∧ At x (n + 1) (mtNext s).2 := by
  obtain ⟨m, hb, hp, hn⟩ := h
  by_cases h624 : s.pos = 624
  · have hb' := gen_block hx hb
    have e : mtNext s = (mtTemper ((mtGen s.key).getD 0 0), { key := mtGen s.key, pos := 1 }) := by rw [mtNext, if_pos h624]
    rw [e]
    refine ⟨?_, m + 1, by dsimp only; exact hb', by norm_num, by dsimp only; omega⟩
    rw [temper_toNat, hb'.2 0 (by norm_num)]
    congr 2; omega
  · simp only [mtNext, if_neg h624, temper_toNat, hb.2 s.pos (by omega)]
    exact ⟨by congr 2; omega, m, hb, by simp only; omega, by simp only; omega⟩

section
variable {K : Type} [Field K]

theorem double_at {seed : ℕ} {x : ℕ → ℕ} (hx : Twister seed x) {k : ℕ} {s : MT} (h : At x (2 * k) s) :
    (mtDouble s : K × MT).1 = (numerator x k : K) / 2 ^ 53 ∧ At x (2 * (k + 1)) (mtDouble s : K × MT).2 := by
  obtain ⟨a1, a2⟩ := next_at hx h
  obtain ⟨b1, b2⟩ := next_at hx a2
  refine ⟨?_, b2⟩
  simp only [mtDouble, BitVec.toNat_ushiftRight, Nat.shiftRight_eq_div_pow, a1, b1, numerator, ← Nat.add_assoc]
  push_cast
  norm_num

theorem after_at {seed : ℕ} {x : ℕ → ℕ} (hx : Twister seed x) (k : ℕ) : ∀ {i : ℕ} {s : MT}, At x (2 * i) s →
    At x (2 * (i + k)) (stateAfter (numpyRng : Rng MT K) k s) := by
  induction k with
  | zero => intro i s h; exact h
  | succ k ih =>
    intro i s h
    have := ih (double_at (K := K) hx h).2
    rw [show i + (k + 1) = i + 1 + k by ring]
    exact this

/-- C101: after `np.random.seed(seed)` the numbers drawn are those of the recurrence of the Mersenne Twister, two words for each, and
the array of the generator always has its 624 words with a position inside it. -/
theorem C101_stream {seed : ℕ} (hs : seed < 2 ^ 32) {x : ℕ → ℕ} (hx : Twister seed x) (k : ℕ) :
    drawn (numpyRng : Rng MT K) ((numpyRng : Rng MT K).seed seed) k = (numerator x k : K) / 2 ^ 53 ∧
    (stateAfter (numpyRng : Rng MT K) k ((numpyRng : Rng MT K).seed seed)).key.length = 624 ∧
    (stateAfter (numpyRng : Rng MT K) k ((numpyRng : Rng MT K).seed seed)).pos ≤ 624 := by
  have h0 : At x (2 * 0) ((numpyRng : Rng MT K).seed seed) :=
    seed_at hx (by simpa using hs)
  have h1 := after_at (K := K) hx k h0
  rw [Nat.zero_add] at h1
  obtain ⟨m, hb, hp, -⟩ := id h1
  exact ⟨(double_at hx h1).1, hb.1, hp⟩

end

/-- The recurrence, computed. -/
def twisterWords (seed : ℕ) (n : ℕ) : ℕ :=
  if n = 0 then seed
  else if n < 624 then (1812433253 * (twisterWords seed (n - 1) ^^^ twisterWords seed (n - 1) / 2 ^ 30) + n) % 2 ^ 32
  else twisterWords seed (n - 227) ^^^ (twisterWords seed (n - 624) / 2 ^ 31 * 2 ^ 31 + twisterWords seed (n - 623) % 2 ^ 31) / 2 ^^^
    (if twisterWords seed (n - 623) % 2 = 1 then 0x9908b0df else 0)
termination_by n

/-- C101: the recurrence has exactly one solution for each seed. -/
theorem C101_unique (seed : ℕ) : ∃! x, Twister seed x := by
  refine ⟨twisterWords seed, ⟨?_, ?_, ?_⟩, ?_⟩
  · rw [twisterWords, if_pos rfl]
  · intro i hi
    rw [twisterWords, if_neg (by omega), if_pos (by omega), Nat.add_sub_cancel]
  · intro k
    rw [twisterWords, if_neg (by omega), if_neg (by omega), show k + 624 - 227 = k + 397 by omega, Nat.add_sub_cancel,
      show k + 624 - 623 = k + 1 by omega]
  · intro y hy
    funext n
    induction n using Nat.strong_induction_on with
    | _ n ih =>
      rw [twisterWords]
      split
      · next h => rw [h, hy.start]
      · split
        · obtain ⟨i, rfl⟩ : ∃ i, n = i + 1 := ⟨n - 1, by omega⟩
          rw [hy.fill i (by omega), Nat.add_sub_cancel, ih i (by omega)]
        · obtain ⟨k, rfl⟩ : ∃ k, n = k + 624 := ⟨n - 624, by omega⟩
          rw [hy.twist, show k + 624 - 227 = k + 397 by omega, Nat.add_sub_cancel, show k + 624 - 623 = k + 1 by omega,
            ih (k + 397) (by omega), ih k (by omega), ih (k + 1) (by omega)]

theorem double_numerator {K : Type} [Field K] (s : MT) : ∃ k : ℕ, k < 2 ^ 53 ∧ (mtDouble s : K × MT).1 = (k : K) / 2 ^ 53 := by
  refine ⟨((mtNext s).1 >>> 5).toNat * 67108864 + ((mtNext (mtNext s).2).1 >>> 6).toNat, ?_, ?_⟩
  · rw [BitVec.toNat_ushiftRight, BitVec.toNat_ushiftRight, Nat.shiftRight_eq_div_pow, Nat.shiftRight_eq_div_pow]
    have h1 := (mtNext s).1.isLt
    have h2 := (mtNext (mtNext s).2).1.isLt
    omega
  · simp only [mtDouble]
    push_cast
    norm_num

section
variable {K : Type} [Field K] [LinearOrder K] [IsStrictOrderedRing K]

/-- C101: every number drawn, from any state of the generator, is in `[0, 1)`. -/
theorem C101_unit : UnitInterval (numpyRng : Rng MT K) := by
  intro s
  obtain ⟨k, hk, e⟩ := double_numerator (K := K) s
  have e' : ((numpyRng : Rng MT K).next s).1 = (k : K) / 2 ^ 53 := e
  rw [e']
  exact ⟨by positivity, by rw [div_lt_one (by positivity)]; exact_mod_cast hk⟩

variable [FloorRing K]

/-- C101: numbers drawn in `[-0.5, 0.5)` are the same with doubles as with exact arithmetic. -/
theorem C101_exact (n : ℕ) (s : MT) :
    (numpyRng : Rng MT K).uniformR (binary 53) n s = (numpyRng : Rng MT K).uniform n s := by
  have hmem : ∀ (n : ℕ) (s : MT), ∀ a ∈ ((numpyRng : Rng MT K).draws n s).1, ∃ k : ℕ, k < 2 ^ 53 ∧ a = (k : K) / 2 ^ 53 := by
    intro n
    induction n with
    | zero => intro s a ha; simp [Rng.draws] at ha
    | succ n ih =>
      intro s a ha
      simp only [Rng.draws, List.mem_cons] at ha
      rcases ha with rfl | ha
      · exact double_numerator s
      · exact ih _ a ha
  have hex : ∀ k : ℤ, |k| ≤ 2 ^ 53 → binary 53 ((k : K) / 2 ^ 53) = (k : K) / 2 ^ 53 := by
    intro k hk
    have := binary_exact (K := K) (p := 53) (by norm_num) k (-53) hk
    rwa [zpow_neg, show ((2 : K) ^ (53 : ℤ)) = 2 ^ 53 by norm_cast, ← div_eq_mul_inv] at this
  simp only [Rng.uniformR, Rng.uniform, Prod.mk.injEq, and_true]
  apply List.map_congr_left
  intro a ha
  obtain ⟨k, hk, rfl⟩ := hmem n s a ha
  have h1 : binary 53 (1 / 2 - -(1 / 2) : K) = 1 := by
    have := hex (2 ^ 53) (by norm_num)
    norm_num at this ⊢
    exact this
  have h2 := hex k (by rw [abs_of_nonneg (by positivity)]; exact_mod_cast hk.le)
  have h3 := hex ((k : ℤ) - 2 ^ 52) (by rw [abs_le]; constructor <;> [skip; skip] <;> (push_cast; omega))
  push_cast at h2 h3
  rw [h1, one_mul, h2, show -(1 / 2) + (k : K) / 2 ^ 53 = (k - 2 ^ 52) / 2 ^ 53 by field_simp; ring, show (k : K) - 2 ^ 52 = k - 4503599627370496 by norm_num, h3]
  field_simp
  ring

end

/-- C101: the program of C87 with numpy's generator and exact cosine and sine runs to its end exactly for the arguments of C87. -/
theorem C101_runs {e s : MT} {lp : Linprog ℝ} (hlp : GoodLinprog lp) {order : Sys ℝ → List ℕ} {a : MatArgs ℝ} {periodic : Bool}
    {threshold lmin lmax : Option ℝ} {coupling : ℝ} {o : Opts ℝ} :
    (∃ r, mainProgram numpyRng Real.cos Real.sin e lp order a periodic threshold lmin lmax coupling o s = .ok r) ↔
      GoodSeed a.seed ∧ 0 < a.n ∧ 0 ≤ a.size ∧ PositiveArgs a :=
  (C87_runs C101_unit (ε := 0) (fun t => by rw [Real.cos_sq_add_sin_sq, sub_self, abs_zero]) (by norm_num) hlp).1

/-- C101: the tutorial (C100) with numpy's generator and exact arithmetic: one result, whatever the state of the generator before. -/
theorem C101_tutorial {lp : Linprog ℝ} (hlp : GoodLinprog lp) {lin : LinSolver ℝ} (hlin : GoodLin lin) :
    ∃ R s', (∀ e t, notebook Int.floor numpyRng Real.cos Real.sin e lp lin tutorialWrites t = .ok (R, s')) ∧ R.mat.fibers.length = 100 ∧
      ∃ H : ℝ, (H = 1 ∨ H = 2) ∧ ∀ b ∈ R.sol.recs, NonPenetrating R.mat R.mesh.rows b.Z b.x ∧ H ≤ b.Z := by
  obtain ⟨R, s', h1, -, h2, -, -, H, h3, -, h4, -⟩ := C100_tutorial (K := ℝ) (floor := Int.floor) (fun x => ⟨Int.floor_le x, Int.lt_floor_add_one x⟩)
    C101_unit (ε := 0) (fun t => by rw [Real.cos_sq_add_sin_sq, sub_self, abs_zero]) (by norm_num) hlp hlin Real.sin_zero (mtSeed 0) (mtSeed 0)
  exact ⟨R, s', h1, h2, H, h3, fun b hb => ⟨(h4 b hb).1, (h4 b hb).2.1⟩⟩

/-- C101: `main.py` with doubles (C94, C95) and numpy's generator. -/
theorem C101_main_py {lp : Linprog ℝ} {δ : ℝ} (hlp : NearLinprog δ lp) (hans : Answers dbl lp)
    (hfmt : InFormat dbl lp) (hδ : 0 ≤ δ) (hδ' : δ ≤ 1 / 80) (lin : LinSolver ℝ) (order : Sys ℝ → List ℕ) (e s : MT) :
    ∃ R s' Z, ∃ (x : ℕ → ℝ) (Z1 : ℝ),
      mainProgramR dbl (fun x => dbl (Real.sqrt x)) numpyRng (fun t => dbl (Real.cos t)) (fun t => dbl (Real.sin t)) e lp order mainArgs true
        (some 10) (some (dbl (1 / 100))) none (dbl (99 / 100)) (mainOpts lin) s = .ok (R, s') ∧ IsTop R.mat R.mesh.rows Z ∧
      (∀ c, resultX dbl R.recs (some 100) 1 c = .fin (x c)) ∧ resultZ dbl R.recs (some 100) 1 = .fin Z1 ∧
      ClearUpTo R.mat R.mesh.rows (δ + 1 / 10 ^ 5 * Z) Z1 x :=
  C95_main_py C101_unit hlp hans hfmt hδ hδ' lin order e s

/-! Examples -/

/-- There are words as in the hypothesis of `C101_stream`, for the seed of the examples of the package. -/
example : ∃ x, Twister 0 x ∧ x 1 = 1 ∧ x 2 = 1812433255 := by
  obtain ⟨x, hx, -⟩ := C101_unique 0
  have h0 := hx.start
  have h1 : x 1 = 1 := by rw [hx.fill 0 (by norm_num), h0]; rfl
  have h2 : x 2 = 1812433255 := by rw [hx.fill 1 (by norm_num), h1]; rfl
  exact ⟨x, hx, h1, h2⟩

set_option maxRecDepth 100000 in
/-- The first numbers after `np.random.seed(0)`, as documented by numpy: 0.5488135, 0.71518937, 0.60276338. -/
example : ((numpyRng : Rng MT ℚ).draws 3 ((numpyRng : Rng MT ℚ).seed 0)).1.map (fun t => ⌊t * 10 ^ 8⌋) = [54881350, 71518936, 60276337] := by
  decide +kernel

/-- A linear programming solver as in `C101_runs` and a linear solver as in `C101_tutorial`. -/
example : (∃ lp : Linprog ℝ, GoodLinprog lp) ∧ ∃ lin : LinSolver ℝ, GoodLin lin := by
  classical
  refine ⟨⟨fun p => if h : ∃ z, Optimal p z then some h.choose else none, fun p hp => ⟨hp.choose, by simp only [dif_pos hp], hp.choose_spec⟩⟩,
    fun A b => if h : ∃ x A', cells A' = A ∧ Solves A' b x then some h.choose else none, ?_, ?_⟩
  · intro A b x hsq h
    dsimp only at h
    split_ifs at h with hx
    cases h
    obtain ⟨A', h1, h2⟩ := hx.choose_spec
    have : A' = A := List.map_injective_iff.2 (List.map_injective_iff.2 (fun a b h => Cell.fin.inj h)) h1
    rwa [this] at h2
  · rintro A b hsq ⟨x, hx, -⟩
    dsimp only
    rw [dif_pos ⟨x, A, rfl, hx⟩]
    exact ⟨_, rfl⟩

end Fibermat
