import Verif.Model.InterpTypes
import Verif.Props.Interp
import Verif.Spec.Widgets
import Mathlib.Data.Rat.Floor
import Mathlib.Algebra.Order.Floor.Ring

/-! # C106: interpolation of integers and booleans -/

set_option linter.unusedSectionVars false

namespace Fibermat
variable {K : Type} [Field K] [LinearOrder K] [IsStrictOrderedRing K]
open Spec

theorem isFloor_int {floor : K → ℤ} (hf : IsFloor floor) (k : ℤ) : floor (k : K) = k := by
  obtain ⟨h1, h2⟩ := hf (k : K)
  have h1 : floor (k : K) ≤ k := by exact_mod_cast h1
  have h2 : k < floor (k : K) + 1 := by exact_mod_cast h2
  omega

theorem isFloor_mono {floor : K → ℤ} (hf : IsFloor floor) {a b : K} (h : a ≤ b) : floor a ≤ floor b := by
  have h1 := (hf a).1
  have h2 := (hf b).2
  have : (floor a : K) < ((floor b + 1 : ℤ) : K) := by push_cast; linarith
  have : floor a < floor b + 1 := by exact_mod_cast this
  omega

theorem truncate_int {floor : K → ℤ} (hf : IsFloor floor) (k : ℤ) : truncate floor (k : K) = k := by
  unfold truncate
  split
  · have := isFloor_int hf (-k)
    push_cast at this
    rw [this]; omega
  · exact isFloor_int hf k

theorem truncate_mono {floor : K → ℤ} (hf : IsFloor floor) {a b : K} (h : a ≤ b) : truncate floor a ≤ truncate floor b := by
  have hz : floor (0 : K) = 0 := by simpa using isFloor_int hf 0
  unfold truncate
  split <;> split
  · have := isFloor_mono hf (neg_le_neg h); omega
  · rename_i h1 h2
    have := isFloor_mono hf (show (0 : K) ≤ -a by linarith)
    have := isFloor_mono hf (not_lt.1 h2)
    omega
  · linarith
  · exact isFloor_mono hf h

/-- Conversion to an integer moves a number towards zero by less than one. -/
theorem truncate_near {floor : K → ℤ} (hf : IsFloor floor) (a : K) :
    |(truncate floor a : K)| ≤ |a| ∧ |a - truncate floor a| < 1 ∧ 0 ≤ a * truncate floor a := by
  have hz : floor (0 : K) = 0 := by simpa using isFloor_int hf 0
  unfold truncate
  split
  · rename_i h
    obtain ⟨h1, h2⟩ := hf (-a)
    have h0 : 0 ≤ floor (-a) := by have := isFloor_mono hf (show (0 : K) ≤ -a by linarith); omega
    have h0 : (0 : K) ≤ floor (-a) := by exact_mod_cast h0
    push_cast
    refine ⟨?_, ?_, ?_⟩
    · rw [abs_neg, abs_of_nonneg h0, abs_of_neg h]; exact h1
    · rw [abs_lt]; constructor <;> linarith
    · rw [mul_neg, ← neg_mul]; exact mul_nonneg (by linarith) h0
  · rename_i h
    push Not at h
    obtain ⟨h1, h2⟩ := hf a
    have h0 : 0 ≤ floor a := by have := isFloor_mono hf h; omega
    have h0 : (0 : K) ≤ floor a := by exact_mod_cast h0
    refine ⟨?_, ?_, mul_nonneg h h0⟩
    · rw [abs_of_nonneg h0, abs_of_nonneg h]; exact h1
    · rw [abs_lt]; constructor <;> linarith

/-- C106: integers are reproduced at their own times. -/
theorem C106_data {floor : K → ℤ} (hf : IsFloor floor) (kind : Kind) (y : List ℤ) (hy : 2 ≤ y.length) {k : ℕ} (hk : k < y.length) :
    interpolateInt floor kind y none ((k : K) / ((y.length : K) - 1)) = y[k] := by
  have h := C51_data (K := K) kind (y.map (fun k : ℤ => (k : K))) (by simpa using hy) (k := k) (by simpa using hk)
  simp only [List.length_map, List.getElem_map] at h
  rw [interpolateInt, h, truncate_int hf]

/-- C106: the first and last integers are kept, whatever the number of samples. -/
theorem C106_ends {floor : K → ℤ} (hf : IsFloor floor) (kind : Kind) (y : List ℤ) (hy : 2 ≤ y.length) (size : Option ℕ)
    (hs : ∀ n, size = some n → 2 ≤ n) :
    interpolateInt floor kind y size 0 = y[0] ∧ interpolateInt floor kind y size 1 = y[y.length - 1] := by
  obtain ⟨h0, h1⟩ := C51_ends (K := K) kind (y.map (fun k : ℤ => (k : K))) (by simpa using hy) size hs
  simp only [List.length_map, List.getElem_map] at h0 h1
  rw [interpolateInt, interpolateInt, h0, h1, truncate_int hf, truncate_int hf]
  exact ⟨rfl, rfl⟩

/-- C106: interpolated integers are the interpolated numbers moved towards zero by less than one; they stay between bounds of the
data. -/
theorem C106_range {floor : K → ℤ} (hf : IsFloor floor) (kind : Kind) (y : List ℤ) (hy : 2 ≤ y.length) (size : Option ℕ)
    (hs : ∀ n, size = some n → 2 ≤ n) {t : K} (h0 : 0 ≤ t) (h1 : t ≤ 1) :
    (let a := interpolate kind (y.map (fun k : ℤ => (k : K))) size t
     let k : K := interpolateInt floor kind y size t
     |k| ≤ |a| ∧ |a - k| < 1 ∧ 0 ≤ a * k) ∧
    ∀ lo hi : ℤ, (∀ k ∈ y, lo ≤ k ∧ k ≤ hi) → lo ≤ interpolateInt floor kind y size t ∧ interpolateInt floor kind y size t ≤ hi := by
  refine ⟨truncate_near hf _, ?_⟩
  intro lo hi hb
  obtain ⟨w, hw0, hw1, hw⟩ := C52_weights kind hy size hs h0 h1
  have hd : ∀ k, k < y.length → (lo : K) ≤ (y.map (fun k : ℤ => (k : K))).getD k 0 ∧
      (y.map (fun k : ℤ => (k : K))).getD k 0 ≤ hi := by
    intro k hk
    obtain ⟨g1, g2⟩ := hb y[k] (List.getElem_mem hk)
    simp only [List.getD_eq_getElem?_getD, List.getElem?_map, List.getElem?_eq_getElem hk, Option.map_some, Option.getD_some]
    exact ⟨by exact_mod_cast g1, by exact_mod_cast g2⟩
  have hlo : (lo : K) ≤ interpolate kind (y.map (fun k : ℤ => (k : K))) size t := by
    rw [hw _ (by simp)]
    calc (lo : K) = ∑ k ∈ Finset.range y.length, w k * lo := by rw [← Finset.sum_mul, hw1, one_mul]
      _ ≤ _ := Finset.sum_le_sum (fun k hk => mul_le_mul_of_nonneg_left (hd k (Finset.mem_range.1 hk)).1 (hw0 k))
  have hhi : interpolate kind (y.map (fun k : ℤ => (k : K))) size t ≤ hi := by
    rw [hw _ (by simp)]
    calc _ ≤ ∑ k ∈ Finset.range y.length, w k * (hi : K) :=
          Finset.sum_le_sum (fun k hk => mul_le_mul_of_nonneg_left (hd k (Finset.mem_range.1 hk)).2 (hw0 k))
      _ = hi := by rw [← Finset.sum_mul, hw1, one_mul]
  have g1 := truncate_mono hf hlo
  have g2 := truncate_mono hf hhi
  rw [truncate_int hf] at g1 g2
  exact ⟨g1, g2⟩

/-- C106: interpolated non-decreasing integers are non-decreasing. -/
theorem C106_monotone {floor : K → ℤ} (hf : IsFloor floor) (kind : Kind) (y : List ℤ) (hy : 2 ≤ y.length) (size : Option ℕ)
    (hs : ∀ n, size = some n → 2 ≤ n) (hm : y.Pairwise (· ≤ ·)) {t t' : K} (h0 : 0 ≤ t) (htt : t ≤ t') (h1 : t' ≤ 1) :
    interpolateInt floor kind y size t ≤ interpolateInt floor kind y size t' := by
  refine truncate_mono hf (C53_monotone kind _ (by simpa using hy) size hs ?_ h0 htt h1)
  rw [List.pairwise_map]
  exact hm.imp (fun h => by exact_mod_cast h)

/-- C106: with `kind='previous'` nothing is lost: the value is the integer (the boolean) of the last step not after `t`. -/
theorem C106_previous {floor : K → ℤ} (hf : IsFloor floor) (y : List ℤ) (m : List Bool) (hm : m.length = y.length)
    (hy : 2 ≤ y.length) {t : K} (h0 : 0 ≤ t) (h1 : t ≤ 1) :
    ∃ (k : ℕ) (hk : k < y.length), (k : K) / (y.length - 1) ≤ t ∧ (∀ i : ℕ, i < y.length → (i : K) / (y.length - 1) ≤ t → i ≤ k) ∧
      interpolateInt floor .previous y none t = y[k] ∧ interpolateBool .previous m none t = m[k] := by
  obtain ⟨k, hk, g1, g2, g3⟩ := C55_last_step (y.map (fun k : ℤ => (k : K))) (by simpa using hy) h0 h1
  obtain ⟨k', hk', g1', g2', g3'⟩ := C55_last_step (m.map (fun b => if b then (1 : K) else 0)) (by simpa [hm] using hy) h0 h1
  simp only [List.length_map, hm] at hk g1 g2 hk' g1' g2'
  obtain rfl : k' = k := le_antisymm (g2 k' hk' g1') (g2' k hk g1)
  refine ⟨k', hk, g1, g2, ?_, ?_⟩
  · rw [interpolateInt, g3, List.getElem_map, truncate_int hf]
  · rw [interpolateBool, g3', List.getElem_map]
    cases m[k'] <;> simp

/-- C106: linear interpolation of booleans is true where one of the neighbouring data is true: all around a true datum, up to the
next ones. -/
theorem C106_bool (m : List Bool) (hm : 2 ≤ m.length) {t : K} (h0 : 0 ≤ t) (h1 : t ≤ 1) :
    interpolateBool .linear m none t = true ↔
      ∃ (k : ℕ) (hk : k < m.length), m[k] = true ∧ (k : K) - 1 < t * (m.length - 1) ∧ t * (m.length - 1) < k + 1 := by
  obtain ⟨i, hi, ha, hb, he⟩ := interp_linear hm h0 h1
  set n := m.length with hn
  have hn2 : (2 : K) ≤ (n : K) := by exact_mod_cast hm
  have hn1 : (0 : K) < (n : K) - 1 := by linarith
  have hkn : ∀ k : ℕ, (knot n k : K) = (k : K) / ((n : K) - 1) := fun k => rfl
  have hval : interpolate .linear (m.map (fun b => if b then (1 : K) else 0)) none t =
      interp1d .linear (linspace n) (m.map (fun b => if b then (1 : K) else 0)) ((m.map (fun b => if b then (1 : K) else 0)).getLastD 0) t := by
    rw [interpolate_eq]
    have hs : samples (m.map (fun b => if b then (1 : K) else 0)) none = n := by simp [samples, hn]
    rw [hs]
    have hm2 : (linspace n : List K).map (interp1d .linear (linspace (m.map (fun b => if b then (1 : K) else 0)).length)
        (m.map (fun b => if b then (1 : K) else 0)) ((m.map (fun b => if b then (1 : K) else 0)).getLastD 0)) =
        m.map (fun b => if b then (1 : K) else 0) := by
      apply List.ext_getElem
      · simp [linspace, hn]
      · intro k hk hk'
        simp only [linspace, List.length_map, List.length_range] at hk
        have := interp_knot (K := K) .linear hm (k := k) hk (m.map (fun b => if b then (1 : K) else 0))
          ((m.map (fun b => if b then (1 : K) else 0)).getLastD 0) (List.length_map _)
        rw [List.getD_eq_getElem?_getD, List.getElem?_eq_getElem hk', Option.getD_some] at this
        rw [← this]
        simp [linspace, ← hn]
    rw [hm2]
  rw [interpolateBool, hval, he _ _ (by simp [hn]), decide_eq_true_eq]
  have hi0 : i < m.length := by omega
  rw [hkn] at ha hb
  rw [div_le_iff₀ hn1] at ha
  rw [le_div_iff₀ hn1] at hb
  set τ := t * ((n : K) - 1) with hτ
  have hr : (t - (knot n i : K)) / (knot n (i + 1) - knot n i) = τ - i := by
    rw [hkn, hkn]
    push_cast
    field_simp
    rw [hτ]
    ring
  rw [hr]
  simp only [List.getD_eq_getElem?_getD, List.getElem?_map, List.getElem?_eq_getElem hi0, List.getElem?_eq_getElem hi, Option.map_some,
    Option.getD_some]
  push_cast at hb
  constructor
  · intro hne
    by_cases c1 : m[i] = true ∧ τ < i + 1
    · exact ⟨i, hi0, c1.1, by linarith, c1.2⟩
    · by_cases c2 : m[i + 1] = true ∧ (i : K) < τ
      · exact ⟨i + 1, hi, c2.1, by push_cast; linarith [c2.2], by push_cast; linarith⟩
      · exfalso
        apply hne
        have z1 : (1 - (τ - i)) * (if m[i] = true then (1 : K) else 0) = 0 := by
          by_cases h : m[i] = true
          · have : τ = i + 1 := le_antisymm hb (not_lt.1 (fun h' => c1 ⟨h, h'⟩))
            rw [this]; ring
          · simp [h]
        have z2 : (τ - i) * (if m[i + 1] = true then (1 : K) else 0) = 0 := by
          by_cases h : m[i + 1] = true
          · have : τ = i := le_antisymm (not_lt.1 (fun h' => c2 ⟨h, h'⟩)) ha
            rw [this]; ring
          · simp [h]
        rw [z1, z2, add_zero]
  · rintro ⟨k, hk, hmk, g1, g2⟩
    have n1 : (0 : K) ≤ (1 - (τ - i)) * (if m[i] = true then (1 : K) else 0) := by
      apply mul_nonneg
      · linarith
      · split <;> norm_num
    have n2 : (0 : K) ≤ (τ - i) * (if m[i + 1] = true then (1 : K) else 0) := by
      apply mul_nonneg
      · linarith
      · split <;> norm_num
    have hk1 : (k : K) < i + 2 := by linarith
    have hk2 : (i : K) < k + 1 := by linarith
    have hk1 : k < i + 2 := by exact_mod_cast hk1
    have hk2 : i < k + 1 := by exact_mod_cast hk2
    apply ne_of_gt
    rcases (by omega : k = i ∨ k = i + 1) with rfl | rfl
    · refine add_pos_of_pos_of_nonneg ?_ n2
      rw [if_pos hmk, mul_one]; linarith
    · refine add_pos_of_nonneg_of_pos n1 ?_
      rw [if_pos hmk, mul_one]
      push_cast at g1
      linarith

/-! ### Concrete cases -/

example : interpolateInt (fun a : ℚ => ⌊a⌋) .linear [0, 3, -3] none (1 / 4) = 1 := by decide +kernel
example : interpolateInt (fun a : ℚ => ⌊a⌋) .linear [0, 3, -3] none (9 / 10) = -1 := by decide +kernel
example : interpolateInt (fun a : ℚ => ⌊a⌋) .linear [0, 3, -3] (some 3) 1 = -3 := by decide +kernel
example : interpolateBool .linear [false, true, false, false] none (1 / 10 : ℚ) = true := by decide +kernel
example : interpolateBool .linear [false, true, false, false] none (2 / 3 : ℚ) = false := by decide +kernel
example : interpolateBool .previous [false, true, false, false] none (1 / 10 : ℚ) = false := by decide +kernel
example : IsFloor (fun a : ℚ => ⌊a⌋) := fun a => ⟨Int.floor_le a, Int.lt_floor_add_one a⟩

end Fibermat
