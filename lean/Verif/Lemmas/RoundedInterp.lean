import Verif.Model.RoundedInterp
import Verif.Lemmas.Interp
import Verif.Lemmas.RoundedAssembly
import Mathlib.Tactic.Positivity
import Mathlib.Tactic.NormNum

/-! # Lemmas on `Interpolate` with rounded arithmetic -/

set_option linter.unusedSectionVars false

namespace Fibermat
open Spec
variable {K : Type} [Field K] [LinearOrder K] [IsStrictOrderedRing K]

/-- Abscissae from 0 to 1. -/
structure Knots (n : ℕ) (kn : ℕ → K) : Prop where
  two : 2 ≤ n
  mono : ∀ a b, a < b → b < n → kn a < kn b
  zero : kn 0 = 0
  last : kn (n - 1) = 1

namespace Knots
variable {n : ℕ} {kn : ℕ → K}

theorem le (h : Knots n kn) {a b : ℕ} (hab : a ≤ b) (hb : b < n) : kn a ≤ kn b := by
  rcases hab.eq_or_lt with rfl | h'
  · exact le_rfl
  · exact (h.mono a b h' hb).le

theorem mem (h : Knots n kn) {k : ℕ} (hk : k < n) : 0 ≤ kn k ∧ kn k ≤ 1 :=
  ⟨h.zero ▸ h.le (Nat.zero_le k) hk, h.last ▸ h.le (by omega) (by have := h.two; omega)⟩

theorem inj (h : Knots n kn) {a b : ℕ} (ha : a < n) (hb : b < n) (e : kn a = kn b) : a = b := by
  rcases lt_trichotomy a b with h' | h' | h'
  · exact absurd e (h.mono a b h' hb).ne
  · exact h'
  · exact absurd e (h.mono b a h' ha).ne'

theorem lt_iff (h : Knots n kn) {a b : ℕ} (ha : a < n) (hb : b < n) : kn a < kn b ↔ a < b := by
  constructor
  · intro h'
    by_contra hc
    exact absurd (h.le (not_lt.1 hc) ha) (not_le.2 h')
  · intro h'; exact h.mono a b h' hb

theorem headD (h : Knots n kn) : ((List.range n).map kn).headD 0 = 0 := by
  obtain ⟨m, rfl⟩ : ∃ m, n = m + 1 := ⟨n - 1, by have := h.two; omega⟩
  simp [List.range_succ_eq_map, h.zero]

theorem getLastD (h : Knots n kn) : ((List.range n).map kn).getLastD 0 = 1 := by
  have h2 := h.two
  have h3 := h.last
  obtain ⟨m, rfl⟩ : ∃ m, n = m + 1 := ⟨n - 1, by omega⟩
  simp only [Nat.add_sub_cancel] at h3
  simp [List.range_succ, h3]

theorem getD {k : ℕ} (hk : k < n) : ((List.range n).map kn).getD k 0 = kn k := by
  simp [List.getD_eq_getElem?_getD, hk]

theorem count_lt (h : Knots n kn) (t : K) : ((List.range n).map kn).countP (· < t) ≤ n ∧
    ∀ k, k < n → (kn k < t ↔ k < ((List.range n).map kn).countP (· < t)) := by
  have h' := countP_range_down (p := fun k => decide (kn k < t)) (n := n) (by
    intro a b hab hbn hb
    simp only [decide_eq_true_eq] at hb ⊢
    exact lt_of_le_of_lt (h.le hab hbn) hb)
  rw [List.countP_map]
  simpa [Function.comp_def] using h'

theorem count_le (h : Knots n kn) (t : K) : ((List.range n).map kn).countP (· ≤ t) ≤ n ∧
    ∀ k, k < n → (kn k ≤ t ↔ k < ((List.range n).map kn).countP (· ≤ t)) := by
  have h' := countP_range_down (p := fun k => decide (kn k ≤ t)) (n := n) (by
    intro a b hab hbn hb
    simp only [decide_eq_true_eq] at hb ⊢
    exact le_trans (h.le hab hbn) hb)
  rw [List.countP_map]
  simpa [Function.comp_def] using h'

theorem count_le_eq (h : Knots n kn) {t : K} {j : ℕ} (hj : j < n) (h1 : kn j ≤ t) (h2 : j + 1 < n → t < kn (j + 1)) :
    ((List.range n).map kn).countP (· ≤ t) = j + 1 := by
  obtain ⟨c1, c2⟩ := h.count_le t
  have h3 := (c2 j hj).1 h1
  by_contra hne
  have hlt : j + 1 < ((List.range n).map kn).countP (· ≤ t) := by omega
  have hj1 : j + 1 < n := by omega
  exact absurd ((c2 (j + 1) hj1).2 hlt) (not_le.2 (h2 hj1))

/-- The formula of `np.interp` strictly between two abscissae. -/
def between (fl : K → K) (xl xh : K) (yl yh : Cell K) (t : K) : Cell K :=
  match segmentR fl xl xh yl yh t xl yl with
    | .nan => match segmentR fl xl xh yl yh t xh yh with
      | .nan => if yl = yh then yl else .nan
      | c => c
    | c => c

/-- The segment of a time. -/
theorem segment (h : Knots n kn) (fl : K → K) {t : K} (h0 : 0 ≤ t) (h1 : t ≤ 1) :
    ∃ i, i + 1 < n ∧ kn i ≤ t ∧ t ≤ kn (i + 1) ∧ (kn i < t ∨ t = 0 ∧ i = 0) ∧ ∀ y : List (Cell K),
      callLinearR fl ((List.range n).map kn) y t = segmentR fl (kn i) (kn (i + 1)) (y.getD i .nan) (y.getD (i + 1) .nan) t (kn i) (y.getD i .nan) ∧
      (t = kn i → npInterpR fl ((List.range n).map kn) y t = y.getD i .nan) ∧
      (t = kn (i + 1) → npInterpR fl ((List.range n).map kn) y t = y.getD (i + 1) .nan) ∧
      (kn i < t → t < kn (i + 1) → npInterpR fl ((List.range n).map kn) y t =
        between fl (kn i) (kn (i + 1)) (y.getD i .nan) (y.getD (i + 1) .nan) t) := by
  have h2 := h.two
  obtain ⟨hc1, hc2⟩ := h.count_lt t
  set c := ((List.range n).map kn).countP (· < t) with hc
  have hcn : c ≤ n - 1 := by
    by_contra hcon
    have := (hc2 (n - 1) (by omega)).2 (by omega)
    rw [h.last] at this
    exact absurd h1 (not_le.2 this)
  obtain ⟨i, hi⟩ : ∃ i, min (max c 1) (n - 1) = i + 1 := ⟨min (max c 1) (n - 1) - 1, by omega⟩
  have hin : i + 1 < n := by omega
  have hlow : kn i < t ∨ t = 0 ∧ i = 0 := by
    by_cases h' : c = 0
    · right
      refine ⟨le_antisymm ?_ h0, by omega⟩
      by_contra hcon
      have := (hc2 0 (by omega)).1 (by rw [h.zero]; exact not_le.1 hcon)
      omega
    · left
      exact (hc2 i (by omega)).2 (by omega)
  have hle : kn i ≤ t := by
    rcases hlow with h' | ⟨h', h''⟩
    · exact h'.le
    · rw [h'', h.zero, h']
  have hhi : t ≤ kn (i + 1) := by
    by_contra hcon
    have := (hc2 (i + 1) hin).1 (not_le.1 hcon)
    omega
  have hnp : ∀ (j : ℕ) (y : List (Cell K)), j < n → kn j ≤ t → (j + 1 < n → t < kn (j + 1)) →
      npInterpR fl ((List.range n).map kn) y t = if j + 1 = n ∨ kn j = t then y.getD j .nan else
        between fl (kn j) (((List.range n).map kn).getD (j + 1) 0) (y.getD j .nan) (y.getD (j + 1) .nan) t := by
    intro j y hj a b
    unfold npInterpR
    simp only [h.count_le_eq hj a b, List.length_map, List.length_range, Nat.add_sub_cancel, getD hj]
    rfl
  refine ⟨i, hin, hle, hhi, hlow, fun y => ⟨?_, ?_, ?_, ?_⟩⟩
  · unfold callLinearR
    simp only [List.length_map, List.length_range, ← hc, hi, Nat.add_one_ne_zero, if_false, Nat.add_sub_cancel]
    rw [getD hin, getD (by omega : i < n)]
  · intro e
    rw [hnp i y (by omega) hle (fun _ => e ▸ h.mono i (i + 1) (by omega) hin), if_pos (Or.inr e.symm)]
  · intro e
    rw [hnp (i + 1) y hin e.ge (fun h' => e ▸ h.mono (i + 1) (i + 2) (by omega) h'), if_pos (Or.inr e.symm)]
  · intro a b
    rw [hnp i y (by omega) a.le (fun _ => b), if_neg (by push Not; exact ⟨by omega, a.ne⟩), getD hin]

end Knots

/-- The abscissae as computed. -/
theorem linspaceR_knots {fl : K → K} {u : K} (hr : Rounds fl u) {n : ℕ} (hn : 2 ≤ n) (hu : 4 * n * u ≤ 1) :
    ∃ kn : ℕ → K, Knots n kn ∧ linspaceR fl n = (List.range n).map kn := by
  have hu0 := hr.u_nonneg
  have hn' : (2 : K) ≤ n := by exact_mod_cast hn
  have hu8 : u ≤ 1 / 8 := by nlinarith
  have hN : (0 : K) < (n : K) - 1 := by linarith
  set s := fl (1 / ((n : K) - 1)) with hs
  have e1 := abs_le.1 (hr.err (1 / ((n : K) - 1)))
  have hp : 0 < 1 / ((n : K) - 1) := by positivity
  rw [abs_of_pos hp, ← hs] at e1
  have hs0 : 0 < s := by nlinarith [e1.1]
  have hs1 : s * ((n : K) - 1) ≤ 1 + u := by
    have h : s ≤ (1 + u) * (1 / ((n : K) - 1)) := by linarith [e1.2]
    calc s * ((n : K) - 1) ≤ (1 + u) * (1 / ((n : K) - 1)) * ((n : K) - 1) := mul_le_mul_of_nonneg_right h hN.le
      _ = 1 + u := by field_simp
  have key : ∀ k : ℕ, (k : K) * s * (1 - u) ≤ fl ((k : K) * s) ∧ fl ((k : K) * s) ≤ (k : K) * s * (1 + u) := by
    intro k
    have hk : (0 : K) ≤ (k : K) * s := by positivity
    have := abs_le.1 (hr.err ((k : K) * s))
    rw [abs_of_nonneg hk] at this
    constructor <;> linarith [this.1, this.2]
  refine ⟨fun k => if k + 1 = n then 1 else fl ((k : K) * s), ⟨hn, ?_, ?_, ?_⟩, ?_⟩
  · intro a b hab hb
    have ha : a + 1 ≠ n := by omega
    simp only [if_neg ha]
    have hab' : (a : K) + 1 ≤ b := by exact_mod_cast hab
    have hb' : (b : K) + 1 ≤ n := by exact_mod_cast hb
    have ha0 : (0 : K) ≤ a := by positivity
    have h4 : 4 * (a : K) * u + 8 * u ≤ 1 := by
      have : (a : K) + 2 ≤ n := by linarith
      nlinarith
    split_ifs with hbn
    · refine (key a).2.trans_lt ?_
      have h5 : (a : K) * s ≤ 1 + u - s := by nlinarith
      have h6 : (a : K) * s * (1 + u) ≤ (1 + u - s) * (1 + u) := mul_le_mul_of_nonneg_right h5 (by linarith)
      refine h6.trans_lt ?_
      have h7 : (1 - u) ≤ s * ((n : K) - 1) := by
        have h : (1 - u) * (1 / ((n : K) - 1)) ≤ s := by linarith [e1.1]
        calc 1 - u = (1 - u) * (1 / ((n : K) - 1)) * ((n : K) - 1) := by field_simp
          _ ≤ s * ((n : K) - 1) := mul_le_mul_of_nonneg_right h hN.le
      have h8 : 3 * u < s := by
        have : 4 * n * u * s ≤ s := by nlinarith
        have h9 : (1 - u) * u ≤ s * ((n : K) - 1) * u := mul_le_mul_of_nonneg_right h7 hu0
        by_cases hz : u = 0
        · rw [hz]; linarith
        · have hupos : 0 < u := lt_of_le_of_ne hu0 (Ne.symm hz)
          nlinarith [mul_pos hs0 hupos]
      nlinarith
    · refine (key a).2.trans_lt (lt_of_lt_of_le ?_ (key b).1)
      have h5 : ((a : K) + 1) * s * (1 - u) ≤ (b : K) * s * (1 - u) :=
        mul_le_mul_of_nonneg_right (mul_le_mul_of_nonneg_right hab' hs0.le) (by linarith)
      refine lt_of_lt_of_le ?_ h5
      have h6 : (a : K) * (1 + u) < ((a : K) + 1) * (1 - u) := by nlinarith
      calc (a : K) * s * (1 + u) = s * ((a : K) * (1 + u)) := by ring
        _ < s * (((a : K) + 1) * (1 - u)) := mul_lt_mul_of_pos_left h6 hs0
        _ = _ := by ring
  · have : (0 : ℕ) + 1 ≠ n := by omega
    simp only [if_neg this]
    rw [Nat.cast_zero, zero_mul, hr.zero]
  · rw [if_pos (by omega)]
  · unfold linspaceR
    apply List.map_congr_left
    intro k _
    rw [if_neg (by omega)]

/-- Product of numbers close to one. -/
theorem near_one_mul {a b A B : K} (ha : |A - 1| ≤ a) (hb : |B - 1| ≤ b) : |A * B - 1| ≤ a + b + a * b := by
  have e : A * B - 1 = (A - 1) + (B - 1) + (A - 1) * (B - 1) := by ring
  rw [e]
  refine (abs_add_le _ _).trans (add_le_add ((abs_add_le _ _).trans (add_le_add ha hb)) ?_)
  rw [abs_mul]
  exact mul_le_mul ha hb (abs_nonneg _) ((abs_nonneg _).trans ha)

theorem Spec.Rounds.factor {fl : K → K} {u : K} (hr : Rounds fl u) (x : K) : ∃ c, |c - 1| ≤ u ∧ fl x = x * c := by
  by_cases hx : x = 0
  · exact ⟨1, by simpa using hr.u_nonneg, by rw [hx, hr.zero, zero_mul]⟩
  · refine ⟨fl x / x, ?_, by field_simp⟩
    rw [show fl x / x - 1 = (fl x - x) / x by field_simp, abs_div, div_le_iff₀ (abs_pos.2 hx)]
    exact hr.err x

theorem seg_factor {a d e c1 c2 c3 c4 c5 : K} (hd : d ≠ 0) (hc : c2 ≠ 0) :
    a * c1 / (d * c2) * c4 * (e * c3) * c5 = e / d * a * (c1 * c3 * c4 * c5 * (1 / c2)) := by
  field_simp

theorem seg_factors {u c1 c2 c3 c4 c5 : K} (hu0 : 0 ≤ u) (hu : u ≤ 1 / 100) (k1 : |c1 - 1| ≤ u) (k2 : |c2 - 1| ≤ u) (k3 : |c3 - 1| ≤ u)
    (k4 : |c4 - 1| ≤ u) (k5 : |c5 - 1| ≤ u) : |c1 * c3 * c4 * c5 * (1 / c2) - 1| ≤ 6 * u := by
  have hc2 : 0 < c2 := by have := (abs_le.1 k2).1; linarith
  have hinv : |1 / c2 - 1| ≤ 102 / 100 * u := by
    rw [show 1 / c2 - 1 = (1 - c2) / c2 by field_simp, abs_div, abs_of_pos hc2, div_le_iff₀ hc2, abs_sub_comm]
    have := (abs_le.1 k2).1
    nlinarith
  have hb1 : u * u ≤ u / 100 := by nlinarith
  have n2 : |c1 * c3 - 1| ≤ 201 / 100 * u := (near_one_mul k1 k3).trans (by linarith)
  have n3 : |c1 * c3 * c4 - 1| ≤ 304 / 100 * u := (near_one_mul n2 k4).trans (by nlinarith)
  have n4 : |c1 * c3 * c4 * c5 - 1| ≤ 409 / 100 * u := (near_one_mul n3 k5).trans (by nlinarith)
  have hF : |c1 * c3 * c4 * c5 * (1 / c2) - 1| ≤ 6 * u := (near_one_mul n4 hinv).trans (by nlinarith)
  exact hF

theorem seg_bound {p lam a F u M : K} (hu0 : 0 ≤ u) (hM : 0 ≤ M) (hl0 : 0 ≤ lam) (hl1 : lam ≤ 1) (hdy : |a| ≤ 2 * M) (hF : |F - 1| ≤ 6 * u)
    (hp : p = lam * a * F) : |p - lam * a| ≤ 12 * u * M := by
  rw [hp, show lam * a * F - lam * a = lam * (a * (F - 1)) by ring, abs_mul, abs_of_nonneg hl0, abs_mul]
  have h2 : |a| * |F - 1| ≤ 2 * M * (6 * u) := mul_le_mul hdy hF (abs_nonneg _) (by positivity)
  have h3 := mul_le_mul hl1 h2 (by positivity) zero_le_one
  linarith

/-- Accuracy of a segment. -/
theorem segmentR_near {fl : K → K} {u : K} (hr : Rounds fl u) (hu : u ≤ 1 / 100) {xl xh t : K} (hx : xl < xh) (h0 : xl ≤ t) (h1 : t ≤ xh)
    {yl yh M : K} (hl : |yl| ≤ M) (hh : |yh| ≤ M) :
    ∃ r, segmentR fl xl xh (.fin yl) (.fin yh) t xl (.fin yl) = .fin r ∧
      |r - ((1 - (t - xl) / (xh - xl)) * yl + (t - xl) / (xh - xl) * yh)| ≤ 14 * u * M := by
  have hu0 := hr.u_nonneg
  obtain ⟨c1, k1, e1⟩ := hr.factor (yh - yl)
  obtain ⟨c2, k2, e2⟩ := hr.factor (xh - xl)
  obtain ⟨c3, k3, e3⟩ := hr.factor (t - xl)
  have hD : 0 < xh - xl := by linarith
  have hc2 : 0 < c2 := by have := (abs_le.1 k2).1; linarith
  have hd : fl (xh - xl) ≠ 0 := by rw [e2]; positivity
  obtain ⟨c4, k4, e4⟩ := hr.factor (fl (yh - yl) / fl (xh - xl))
  obtain ⟨c5, k5, e5⟩ := hr.factor (fl (fl (yh - yl) / fl (xh - xl)) * fl (t - xl))
  set p := fl (fl (fl (yh - yl) / fl (xh - xl)) * fl (t - xl)) with hp
  refine ⟨fl (p + yl), ?_, ?_⟩
  · have e6 : (Cell.fin (fl (yh - yl)) / Cell.fin (fl (xh - xl)) : Cell K) = .fin (fl (yh - yl) / fl (xh - xl)) := by
      show (if fl (xh - xl) = 0 then _ else _) = _
      rw [if_neg hd]
    have e7 : ((Cell.fin yh - Cell.fin yl : Cell K)).round fl = .fin (fl (yh - yl)) := by
      show Cell.fin (fl (yh + -yl)) = _
      rw [sub_eq_add_neg]
    unfold segmentR
    simp only [e7, e6]
    rfl
  · have hM : 0 ≤ M := (abs_nonneg _).trans hl
    set lam := (t - xl) / (xh - xl) with hlam
    have hl0 : 0 ≤ lam := div_nonneg (by linarith) hD.le
    have hl1 : lam ≤ 1 := by rw [hlam, div_le_one hD]; linarith
    have hF := seg_factors hu0 hu k1 k2 k3 k4 k5
    have hdy : |yh - yl| ≤ 2 * M := by
      rw [abs_le] at hl hh ⊢
      constructor <;> linarith [hl.1, hl.2, hh.1, hh.2]
    have hp1 : |p - lam * (yh - yl)| ≤ 12 * u * M := by
      refine seg_bound hu0 hM hl0 hl1 hdy hF ?_
      rw [e5, e4, e1, e2, e3]
      exact seg_factor hD.ne' hc2.ne'
    have hv : |(1 - lam) * yl + lam * yh| ≤ M := by
      rw [abs_le] at hl hh ⊢
      constructor <;> nlinarith [hl.1, hl.2, hh.1, hh.2]
    have hq : |p + yl| ≤ 112 / 100 * M := by
      have : p + yl = (p - lam * (yh - yl)) + ((1 - lam) * yl + lam * yh) := by ring
      rw [this]
      refine (abs_add_le _ _).trans ?_
      nlinarith
    have h4 := hr.err (p + yl)
    have : fl (p + yl) - ((1 - lam) * yl + lam * yh) = (fl (p + yl) - (p + yl)) + (p - lam * (yh - yl)) := by ring
    rw [this]
    refine (abs_add_le _ _).trans ?_
    nlinarith

end Fibermat
