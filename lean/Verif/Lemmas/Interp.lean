import Verif.Model.Interp
import Mathlib.Algebra.BigOperators.Group.Finset.Basic
import Mathlib.Algebra.BigOperators.Ring.Finset
import Mathlib.Algebra.Order.BigOperators.Group.Finset
import Mathlib.Algebra.Order.Field.Basic
import Mathlib.Tactic.Linarith
import Mathlib.Tactic.FieldSimp
import Mathlib.Tactic.Ring

/-! # Lemmas on `Interpolate` -/

set_option linter.unusedSectionVars false

namespace Fibermat
variable {K : Type} [Field K] [LinearOrder K] [IsStrictOrderedRing K]

/-- Counting a downward closed set of indices. -/
theorem countP_range_down {p : ℕ → Bool} {n : ℕ} (hp : ∀ a b, a ≤ b → b < n → p b = true → p a = true) :
    (List.range n).countP p ≤ n ∧ ∀ k, k < n → (p k = true ↔ k < (List.range n).countP p) := by
  induction n with
  | zero => simp
  | succ n ih =>
    obtain ⟨h1, h2⟩ := ih (fun a b hab hb => hp a b hab (by omega))
    rw [List.range_succ, List.countP_append]
    by_cases hn : p n = true
    · have hall : (List.range n).countP p = n := by
        have : (List.range n).countP p = (List.range n).length := by
          rw [List.countP_eq_length]
          intro a ha
          exact hp a n (by have := List.mem_range.1 ha; omega) (by omega) hn
        simpa using this
      simp only [hall, List.countP_cons, List.countP_nil, hn, if_true]
      refine ⟨by omega, fun k hk => ?_⟩
      have := hp k n (by omega) (by omega) hn
      simp only [this, true_iff]; omega
    · simp only [List.countP_cons, List.countP_nil, hn]
      refine ⟨by simp; omega, fun k hk => ?_⟩
      by_cases hkn : k = n
      · subst hkn; simp only [hn, false_iff]; simp; omega
      · simpa using h2 k (by omega)

theorem knot_lt {n : ℕ} (hn : 2 ≤ n) {a b : ℕ} : (knot n a : K) < knot n b ↔ a < b := by
  have h : (0 : K) < (n : K) - 1 := by
    have : (2 : K) ≤ n := by exact_mod_cast hn
    linarith
  unfold knot
  rw [div_lt_div_iff_of_pos_right h]
  exact Nat.cast_lt

theorem knot_le {n : ℕ} (hn : 2 ≤ n) {a b : ℕ} : (knot n a : K) ≤ knot n b ↔ a ≤ b := by
  rw [← not_lt, knot_lt hn, not_lt]

theorem knot_inj {n : ℕ} (hn : 2 ≤ n) {a b : ℕ} (h : (knot n a : K) = knot n b) : a = b :=
  le_antisymm ((knot_le hn).1 h.le) ((knot_le hn).1 h.ge)

theorem knot_zero (n : ℕ) : (knot n 0 : K) = 0 := by simp [knot]

theorem knot_last {n : ℕ} (hn : 2 ≤ n) : (knot n (n - 1) : K) = 1 := by
  have h : (0 : K) < (n : K) - 1 := by
    have : (2 : K) ≤ n := by exact_mod_cast hn
    linarith
  unfold knot
  rw [Nat.cast_sub (by omega)]
  simp [h.ne']

theorem knot_mem {n : ℕ} (hn : 2 ≤ n) {k : ℕ} (hk : k < n) : (0 : K) ≤ knot n k ∧ (knot n k : K) ≤ 1 := by
  rw [← knot_zero n, ← knot_last hn]
  exact ⟨(knot_le hn).2 (by omega), (knot_le hn).2 (by omega)⟩

theorem linspace_length (n : ℕ) : (linspace n : List K).length = n := by simp [linspace]

theorem linspace_getD {n k : ℕ} (hk : k < n) : (linspace n : List K).getD k 0 = knot n k := by
  simp [linspace, List.getD_eq_getElem?_getD, hk]

theorem linspace_head {n : ℕ} (hn : 2 ≤ n) : (linspace n : List K).headD 0 = 0 := by
  obtain ⟨m, rfl⟩ : ∃ m, n = m + 1 := ⟨n - 1, by omega⟩
  simp [linspace, List.range_succ_eq_map, knot_zero]

theorem linspace_last {n : ℕ} (hn : 2 ≤ n) : (linspace n : List K).getLastD 0 = 1 := by
  obtain ⟨m, rfl⟩ : ∃ m, n = m + 1 := ⟨n - 1, by omega⟩
  have := knot_last (K := K) hn
  simp only [Nat.add_sub_cancel] at this
  simp [linspace, List.range_succ, this]

/-- Number of knots before `t`. -/
theorem count_lt {n : ℕ} (hn : 2 ≤ n) (t : K) : (linspace n : List K).countP (· < t) ≤ n ∧
    ∀ k, k < n → (knot n k < t ↔ k < (linspace n : List K).countP (· < t)) := by
  have h := countP_range_down (p := fun k => decide (knot n k < t)) (n := n) (by
    intro a b hab _ hb
    simp only [decide_eq_true_eq] at hb ⊢
    exact lt_of_le_of_lt ((knot_le hn).2 hab) hb)
  unfold linspace
  rw [List.countP_map]
  simpa [Function.comp_def] using h

theorem count_le {n : ℕ} (hn : 2 ≤ n) (t : K) : (linspace n : List K).countP (· ≤ t) ≤ n ∧
    ∀ k, k < n → (knot n k ≤ t ↔ k < (linspace n : List K).countP (· ≤ t)) := by
  have h := countP_range_down (p := fun k => decide (knot n k ≤ t)) (n := n) (by
    intro a b hab _ hb
    simp only [decide_eq_true_eq] at hb ⊢
    exact le_trans ((knot_le hn).2 hab) hb)
  unfold linspace
  rw [List.countP_map]
  simpa [Function.comp_def] using h

/-- The segment of a time. -/
theorem interp_linear {n : ℕ} (hn : 2 ≤ n) {t : K} (h0 : 0 ≤ t) (h1 : t ≤ 1) :
    ∃ i, i + 1 < n ∧ knot n i ≤ t ∧ t ≤ knot n (i + 1) ∧ ∀ (y : List K) (fill : K), y.length = n →
      interp1d .linear (linspace n) y fill t =
        (1 - (t - knot n i) / (knot n (i + 1) - knot n i)) * y.getD i 0 +
          (t - knot n i) / (knot n (i + 1) - knot n i) * y.getD (i + 1) 0 := by
  obtain ⟨hc1, hc2⟩ := count_lt hn t
  set c := (linspace n : List K).countP (· < t) with hc
  refine ⟨max 1 (min c (n - 1)) - 1, by omega, ?_, ?_, ?_⟩
  · by_cases h : c = 0
    · simp [h, knot_zero, h0]
    · by_cases h' : c = n
      · have := (hc2 (n - 1) (by omega)).2 (by omega)
        rw [knot_last hn] at this
        linarith
      · have e : max 1 (min c (n - 1)) - 1 = c - 1 := by omega
        rw [e]
        exact ((hc2 (c - 1) (by omega)).2 (by omega)).le
  · have e : max 1 (min c (n - 1)) - 1 + 1 = max 1 (min c (n - 1)) := by omega
    rw [e]
    have hle : c ≤ max 1 (min c (n - 1)) ∨ max 1 (min c (n - 1)) = n - 1 := by omega
    rcases hle with h | h
    · by_contra hcon
      have := (hc2 (max 1 (min c (n - 1))) (by omega)).1 (not_le.1 hcon)
      omega
    · rw [h, knot_last hn]; exact h1
  · intro y fill hy
    have hin : ¬ (t < (linspace n : List K).headD 0 ∨ (linspace n : List K).getLastD 0 < t) := by
      rw [linspace_head hn, linspace_last hn]; push Not; exact ⟨h0, h1⟩
    unfold interp1d
    rw [if_neg hin]
    simp only [linspace_length, ← hc]
    rw [linspace_getD (by omega), linspace_getD (by omega)]
    have e : max 1 (min c (n - 1)) - 1 + 1 = max 1 (min c (n - 1)) := by omega
    rw [e]
    ring

theorem interp_previous {n : ℕ} (hn : 2 ≤ n) {t : K} (h0 : 0 ≤ t) (h1 : t ≤ 1) :
    ∃ i, i < n ∧ knot n i ≤ t ∧ (∀ k, k < n → knot n k ≤ t → k ≤ i) ∧ ∀ (y : List K) (fill : K),
      interp1d .previous (linspace n) y fill t = y.getD i 0 := by
  obtain ⟨hc1, hc2⟩ := count_le hn t
  set c := (linspace n : List K).countP (· ≤ t) with hc
  have hpos : 0 < c := (hc2 0 (by omega)).1 (by rw [knot_zero]; exact h0)
  refine ⟨max 1 c - 1, by omega, ?_, ?_, ?_⟩
  · exact (hc2 _ (by omega)).2 (by omega)
  · intro k hk hkt
    have := (hc2 k hk).1 hkt
    omega
  · intro y fill
    have hin : ¬ (t < (linspace n : List K).headD 0 ∨ (linspace n : List K).getLastD 0 < t) := by
      rw [linspace_head hn, linspace_last hn]; push Not; exact ⟨h0, h1⟩
    unfold interp1d
    rw [if_neg hin]

theorem knot_ratio {n : ℕ} (hn : 2 ≤ n) {t : K} {i : ℕ} (h1 : knot n i ≤ t) (h2 : t ≤ knot n (i + 1)) :
    0 ≤ (t - knot n i) / (knot n (i + 1) - knot n i) ∧ (t - knot n i) / (knot n (i + 1) - knot n i) ≤ 1 := by
  have h : (knot n i : K) < knot n (i + 1) := (knot_lt hn).2 (by omega)
  constructor
  · apply div_nonneg <;> linarith
  · rw [div_le_one (by linarith)]; linarith

/-- Data at a knot. -/
theorem interp_knot (kind : Kind) {n : ℕ} (hn : 2 ≤ n) {k : ℕ} (hk : k < n) (y : List K) (fill : K) (hy : y.length = n) :
    interp1d kind (linspace n) y fill (knot n k) = y.getD k 0 := by
  obtain ⟨h0, h1⟩ := knot_mem (K := K) hn hk
  cases kind with
  | linear =>
    obtain ⟨i, hi, ha, hb, he⟩ := interp_linear hn h0 h1
    rw [he y fill hy]
    rw [knot_le hn] at ha hb
    have hne : (knot n (i + 1) : K) - knot n i ≠ 0 := by
      have : (knot n i : K) < knot n (i + 1) := (knot_lt hn).2 (by omega)
      exact (sub_pos.2 this).ne'
    rcases (by omega : k = i ∨ k = i + 1) with rfl | rfl
    · simp
    · rw [div_self hne]; simp
  | previous =>
    obtain ⟨i, hi, ha, hb, he⟩ := interp_previous hn h0 h1
    rw [he y fill]
    rw [knot_le hn] at ha
    have := hb k hk le_rfl
    rw [show i = k by omega]

/-- Weights of one interpolation. -/
theorem interp_weights (kind : Kind) {n : ℕ} (hn : 2 ≤ n) {t : K} (h0 : 0 ≤ t) (h1 : t ≤ 1) :
    ∃ w : ℕ → K, (∀ k, 0 ≤ w k) ∧ ∑ k ∈ Finset.range n, w k = 1 ∧ ∀ (y : List K) (fill : K), y.length = n →
      interp1d kind (linspace n) y fill t = ∑ k ∈ Finset.range n, w k * y.getD k 0 := by
  cases kind with
  | linear =>
    obtain ⟨i, hi, ha, hb, he⟩ := interp_linear hn h0 h1
    obtain ⟨hr0, hr1⟩ := knot_ratio hn ha hb
    set r := (t - knot n i) / (knot n (i + 1) - knot n i) with hr
    refine ⟨fun k => (if k = i then 1 - r else 0) + (if k = i + 1 then r else 0), ?_, ?_, ?_⟩
    · intro k
      apply add_nonneg <;> split_ifs <;> linarith
    · rw [Finset.sum_add_distrib, Finset.sum_ite_eq', Finset.sum_ite_eq']
      rw [if_pos (Finset.mem_range.2 (by omega)), if_pos (Finset.mem_range.2 hi)]
      ring
    · intro y fill hy
      rw [he y fill hy]
      simp only [add_mul, ite_mul, zero_mul]
      rw [Finset.sum_add_distrib, Finset.sum_ite_eq', Finset.sum_ite_eq']
      rw [if_pos (Finset.mem_range.2 (by omega)), if_pos (Finset.mem_range.2 hi)]
  | previous =>
    obtain ⟨i, hi, ha, hb, he⟩ := interp_previous hn h0 h1
    refine ⟨fun k => if k = i then 1 else 0, ?_, ?_, ?_⟩
    · intro k
      dsimp only
      split_ifs <;> linarith
    · rw [Finset.sum_ite_eq', if_pos (Finset.mem_range.2 hi)]
    · intro y fill hy
      rw [he y fill]
      simp only [ite_mul, zero_mul, one_mul]
      rw [Finset.sum_ite_eq', if_pos (Finset.mem_range.2 hi)]

/-- Interpolation of non-decreasing data. -/
theorem interp_mono (kind : Kind) {n : ℕ} (hn : 2 ≤ n) (y : List K) (fill : K) (hy : y.length = n)
    (hm : ∀ a b, a ≤ b → b < n → y.getD a 0 ≤ y.getD b 0) {t t' : K} (h0 : 0 ≤ t) (htt : t ≤ t') (h1 : t' ≤ 1) :
    interp1d kind (linspace n) y fill t ≤ interp1d kind (linspace n) y fill t' := by
  rcases eq_or_lt_of_le htt with rfl | hlt'
  · exact le_rfl
  cases kind with
  | linear =>
    obtain ⟨i, hi, ha, hb, he⟩ := interp_linear hn h0 (htt.trans h1)
    obtain ⟨j, hj, ha', hb', he'⟩ := interp_linear hn (h0.trans htt) h1
    rw [he y fill hy, he' y fill hy]
    obtain ⟨hr0, hr1⟩ := knot_ratio hn ha hb
    obtain ⟨hr0', hr1'⟩ := knot_ratio hn ha' hb'
    have hi' := hm i (i + 1) (by omega) hi
    have hj' := hm j (j + 1) (by omega) hj
    by_cases hij : i = j
    · subst hij
      have hd : (0 : K) < knot n (i + 1) - knot n i := sub_pos.2 ((knot_lt hn).2 (by omega))
      have hrr : (t - knot n i) / (knot n (i + 1) - knot n i) ≤ (t' - knot n i) / (knot n (i + 1) - knot n i) :=
        div_le_div_of_nonneg_right (by linarith) hd.le
      nlinarith
    · have hlt : i < j := by
        by_contra hcon
        have hji : j + 1 ≤ i := by omega
        have h2 : (knot n (j + 1) : K) ≤ knot n i := (knot_le hn).2 hji
        linarith
      have h2 := hm (i + 1) j (by omega) (by omega)
      nlinarith
  | previous =>
    obtain ⟨i, hi, ha, hb, he⟩ := interp_previous hn h0 (htt.trans h1)
    obtain ⟨j, hj, ha', hb', he'⟩ := interp_previous hn (h0.trans htt) h1
    rw [he y fill, he' y fill]
    exact hm i j (hb' i hi (ha.trans htt)) hj

end Fibermat
