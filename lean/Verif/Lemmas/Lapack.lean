import Verif.Lemmas.Binary

/-! Products of a number with its rounded reciprocal. -/

namespace Fibermat
open Spec
set_option linter.unusedSectionVars false
variable {K : Type} [Field K] [LinearOrder K] [IsStrictOrderedRing K] [FloorRing K]

theorem rint_near {y : K} {n : ℤ} (h : |y - n| < 1 / 2) : rint y = n := by
  have h1 := abs_le.1 (rint_err y)
  have h2 := abs_lt.1 h
  have h3 : ((rint y : ℤ) : K) < ((n + 1 : ℤ) : K) := by push_cast; linarith [h1.2, h2.2]
  have h4 : ((n - 1 : ℤ) : K) < ((rint y : ℤ) : K) := by push_cast; linarith [h1.1, h2.1]
  rw [Int.cast_lt] at h3 h4
  omega

theorem bin_low (n : ℕ) {x : K} (h1 : 1 / 2 ≤ x) (h2 : x < 1) : binary (n + 1) x = rint (x * (2 * 2 ^ n)) / (2 * 2 ^ n) := by
  have hx : 0 < x := by linarith [show (0 : K) < 1 / 2 by norm_num]
  have e : (2 : K) ^ ((-1 : ℤ) + 1 - ((n + 1 : ℕ) : ℤ)) = (2 * 2 ^ n)⁻¹ := by
    rw [show (-1 : ℤ) + 1 - ((n + 1 : ℕ) : ℤ) = -((n + 1 : ℕ) : ℤ) by ring, zpow_neg, zpow_natCast, pow_succ, mul_comm]
  rw [binary_eq (n + 1) hx.ne' (e := -1) (by rw [abs_of_pos hx, zpow_neg, zpow_one]; linarith) (by rw [abs_of_pos hx]; simpa using h2), e,
    div_eq_mul_inv x, inv_inv, ← div_eq_mul_inv]

theorem bin_high (n : ℕ) {x : K} (h1 : 1 ≤ x) (h2 : x < 2) : binary (n + 1) x = rint (x * 2 ^ n) / 2 ^ n := by
  have hx : 0 < x := by linarith
  have e : (2 : K) ^ ((0 : ℤ) + 1 - ((n + 1 : ℕ) : ℤ)) = (2 ^ n)⁻¹ := by
    rw [show (0 : ℤ) + 1 - ((n + 1 : ℕ) : ℤ) = -(n : ℤ) by push_cast; ring, zpow_neg, zpow_natCast]
  rw [binary_eq (n + 1) hx.ne' (e := 0) (by rw [abs_of_pos hx]; simpa using h1) (by rw [abs_of_pos hx]; simpa using h2), e,
    div_eq_mul_inv x, inv_inv, ← div_eq_mul_inv]

theorem cast_two_pow (n : ℕ) : (((2 : ℤ) ^ n : ℤ) : K) = 2 ^ n := by push_cast; rfl

/-- Numbers that round to one. -/
theorem bin_one {n : ℕ} (hn : 1 ≤ n) {x : K} (h1 : 1 - 1 / (4 * 2 ^ n) ≤ x) (h2 : x ≤ 1 + 1 / (2 * 2 ^ n)) : binary (n + 1) x = 1 := by
  have hN : (2 : K) ≤ 2 ^ n := by
    calc (2 : K) = 2 ^ 1 := (pow_one _).symm
      _ ≤ 2 ^ n := pow_le_pow_right₀ (by norm_num) hn
  set N : K := 2 ^ n with hNd
  have hN0 : 0 < N := by linarith
  have hpar : ∀ k : ℕ, 1 ≤ k → (2 : ℤ) ^ k % 2 = 0 := by
    intro k hk
    obtain ⟨j, rfl⟩ : ∃ j, k = j + 1 := ⟨k - 1, by omega⟩
    rw [pow_succ]; omega
  rcases lt_or_ge x 1 with hx | hx
  · have q : 1 / (4 * N) ≤ 1 / 8 := by
      apply one_div_le_one_div_of_le (by norm_num); linarith
    rw [bin_low n (by linarith) hx]
    have hl : 2 * N - 1 / 2 ≤ x * (2 * N) := by
      have := mul_le_mul_of_nonneg_right h1 (show 0 ≤ 2 * N by linarith)
      have e : (1 - 1 / (4 * N)) * (2 * N) = 2 * N - 1 / 2 := by field_simp; ring
      linarith
    have hu : x * (2 * N) < 2 * N := by
      have := mul_lt_mul_of_pos_right hx (show 0 < 2 * N by linarith)
      linarith
    have c : (((2 : ℤ) ^ (n + 1) : ℤ) : K) = 2 * N := by rw [cast_two_pow, pow_succ, mul_comm]
    have hfl : ⌊x * (2 * N)⌋ = 2 ^ (n + 1) - 1 := by
      rw [Int.floor_eq_iff]
      push_cast
      rw [pow_succ, mul_comm (2 ^ n) (2 : K)]
      constructor <;> linarith
    have hr : rint (x * (2 * N)) = 2 ^ (n + 1) := by
      unfold rint
      have hfr : 1 / 2 ≤ Int.fract (x * (2 * N)) := by
        unfold Int.fract
        rw [hfl, Int.cast_sub, c, Int.cast_one]; linarith
      rw [if_neg (not_lt.2 hfr), hfl]
      split_ifs with g1 g2
      · ring
      · have := hpar (n + 1) (by omega); omega
      · ring
    rw [hr, c, div_self (by linarith)]
  · have q : 1 / (2 * N) ≤ 1 / 4 := by
      apply one_div_le_one_div_of_le (by norm_num); linarith
    rw [bin_high n hx (by linarith)]
    have hl : N ≤ x * N := by
      have := mul_le_mul_of_nonneg_right hx hN0.le
      linarith
    have hu : x * N ≤ N + 1 / 2 := by
      have := mul_le_mul_of_nonneg_right h2 hN0.le
      have e : (1 + 1 / (2 * N)) * N = N + 1 / 2 := by field_simp
      linarith
    have c : (((2 : ℤ) ^ n : ℤ) : K) = N := cast_two_pow n
    have hfl : ⌊x * N⌋ = 2 ^ n := by
      rw [Int.floor_eq_iff, c]
      constructor <;> linarith
    have hr : rint (x * N) = 2 ^ n := by
      unfold rint
      have hfr : Int.fract (x * N) ≤ 1 / 2 := by
        unfold Int.fract
        rw [hfl, c]; linarith
      rw [if_neg (not_lt.2 hfr), hfl, if_pos (hpar n hn)]
      simp
    rw [hr, c, div_self (by linarith)]

theorem recip_low {n : ℕ} (hn : 3 ≤ n) {d : K} (hf : binary (n + 1) d = d) (hd : (d - 1) ^ 2 ≤ 1 / (4 * 2 ^ n)) (hlt : d < 1) :
    binary (n + 1) (d * binary (n + 1) (1 / d)) = 1 := by
  have hN : (8 : K) ≤ 2 ^ n := by
    calc (8 : K) = 2 ^ 3 := by norm_num
      _ ≤ 2 ^ n := pow_le_pow_right₀ (by norm_num) hn
  set N : K := 2 ^ n with hNd
  have hN0 : 0 < N := by linarith
  have cN : (((2 : ℤ) ^ n : ℤ) : K) = N := cast_two_pow n
  have hsm : 1 / (4 * N) ≤ 1 / 32 := by apply one_div_le_one_div_of_le (by norm_num); linarith
  have hd1 : |d - 1| ≤ 1 / 5 := by
    apply abs_le_of_sq_le_sq _ (by norm_num)
    have : (1 / 32 : K) ≤ (1 / 5) ^ 2 := by norm_num
    linarith
  obtain ⟨l1, l2⟩ := abs_le.1 hd1
  have hd0 : 0 < d := by linarith
  have hsq : (d - 1) ^ 2 * (4 * N) ≤ 1 := by
    have := mul_le_mul_of_nonneg_right hd (show 0 ≤ 4 * N by linarith)
    rwa [div_mul_cancel₀ _ (by linarith)] at this
  -- d = 1 - k / (2 N)
  rw [bin_low n (by linarith) hlt] at hf
  set M := rint (d * (2 * N)) with hM
  have hdM : d * (2 * N) = M := by
    rw [eq_comm, ← div_eq_iff (by linarith)]; exact hf
  obtain ⟨k, hk⟩ : ∃ k : ℤ, M = 2 ^ (n + 1) - k := ⟨2 ^ (n + 1) - M, by ring⟩
  have c2 : (((2 : ℤ) ^ (n + 1) : ℤ) : K) = 2 * N := by rw [cast_two_pow, pow_succ, mul_comm]
  have hMk : (M : K) = 2 * N - k := by rw [hk, Int.cast_sub, c2]
  have hkd : (k : K) = 2 * N * (1 - d) := by rw [hMk] at hdM; linarith
  have hkpos : 0 < (k : K) := by
    rw [hkd]; exact mul_pos (by linarith) (by linarith)
  have hk1 : (1 : K) ≤ k := by
    have : 0 < k := by exact_mod_cast hkpos
    exact_mod_cast this
  have hk2 : (k : K) ^ 2 ≤ N := by
    have : (k : K) ^ 2 = ((d - 1) ^ 2 * (4 * N)) * N := by rw [hkd]; ring
    rw [this]
    calc _ ≤ 1 * N := mul_le_mul_of_nonneg_right hsq hN0.le
      _ = N := one_mul _
  -- the reciprocal
  have hr1 : 1 ≤ 1 / d := by rw [le_div_iff₀ hd0]; linarith
  have hr2 : 1 / d < 2 := by rw [div_lt_iff₀ hd0]; linarith
  have hrec : 1 / d * N - (N + (k : K) / 2) = (k : K) ^ 2 / (4 * N * d) := by
    have : d = 1 - (k : K) / (2 * N) := by rw [hkd]; field_simp; ring
    have hd' : (k : K) = 2 * N * (1 - d) := hkd
    rw [hd']
    field_simp
    ring
  have hrem0 : 0 < (k : K) ^ 2 / (4 * N * d) := by positivity
  have hrem1 : (k : K) ^ 2 / (4 * N * d) < 1 / 2 := by
    rw [div_lt_iff₀ (by positivity)]
    have : N * (4 / 5) ≤ N * d := mul_le_mul_of_nonneg_left (by linarith) hN0.le
    linarith
  rcases Int.even_or_odd' k with ⟨j, hj | hj⟩
  · have hjk : (k : K) = 2 * j := by rw [hj]; push_cast; ring
    have hr : rint (1 / d * N) = 2 ^ n + j := by
      apply rint_near
      rw [Int.cast_add, cN, show 1 / d * N - (N + (j : K)) = (k : K) ^ 2 / (4 * N * d) by rw [← hrec, hjk]; ring, abs_of_pos hrem0]
      exact hrem1
    rw [bin_high n hr1 hr2, hr, Int.cast_add, cN]
    have e : d * ((N + (j : K)) / N) = 1 - (1 - d) ^ 2 := by
      have : (j : K) = N * (1 - d) := by rw [hjk] at hkd; linarith
      rw [this]; field_simp; ring
    rw [e]
    apply bin_one (by omega)
    · have : (1 - d) ^ 2 = (d - 1) ^ 2 := by ring
      rw [this]; linarith
    · have : 0 ≤ 1 / (2 * N) := by positivity
      nlinarith [sq_nonneg (1 - d)]
  · have hjk : (k : K) = 2 * j + 1 := by rw [hj]; push_cast; ring
    have hr : rint (1 / d * N) = 2 ^ n + (j + 1) := by
      apply rint_near
      rw [Int.cast_add, cN, Int.cast_add, Int.cast_one,
        show 1 / d * N - (N + ((j : K) + 1)) = (k : K) ^ 2 / (4 * N * d) - 1 / 2 by rw [← hrec, hjk]; ring, abs_lt]
      constructor <;> linarith
    rw [bin_high n hr1 hr2, hr, Int.cast_add, cN, Int.cast_add, Int.cast_one]
    have e : d * ((N + ((j : K) + 1)) / N) = 1 + (2 * N - k * (k + 1)) / (4 * N ^ 2) := by
      have h1 : (j : K) + 1 = (k + 1) / 2 := by rw [hjk]; ring
      have h2 : d = (2 * N - k) / (2 * N) := by rw [hkd]; field_simp; ring
      rw [h1, h2]; field_simp; ring
    have hkk : (k : K) * (k + 1) ≤ 2 * N := by nlinarith
    have hnn : 0 ≤ (2 * N - (k : K) * (k + 1)) / (4 * N ^ 2) := div_nonneg (by linarith) (by positivity)
    rw [e]
    apply bin_one (by omega)
    · have : 0 ≤ 1 / (4 * N) := by positivity
      linarith
    · have : (2 * N - (k : K) * (k + 1)) / (4 * N ^ 2) ≤ 1 / (2 * N) := by
        rw [div_le_div_iff₀ (by positivity) (by positivity)]
        have : 0 ≤ (k : K) * (k + 1) * (2 * N) := by positivity
        nlinarith
      linarith

theorem recip_high {n : ℕ} (hn : 3 ≤ n) {d : K} (hf : binary (n + 1) d = d) (hd : (d - 1) ^ 2 ≤ 1 / (4 * 2 ^ n)) (hgt : 1 < d) :
    binary (n + 1) (d * binary (n + 1) (1 / d)) = 1 := by
  have hN : (8 : K) ≤ 2 ^ n := by
    calc (8 : K) = 2 ^ 3 := by norm_num
      _ ≤ 2 ^ n := pow_le_pow_right₀ (by norm_num) hn
  set N : K := 2 ^ n with hNd
  have hN0 : 0 < N := by linarith
  have cN : (((2 : ℤ) ^ n : ℤ) : K) = N := cast_two_pow n
  have hsm : 1 / (4 * N) ≤ 1 / 32 := by apply one_div_le_one_div_of_le (by norm_num); linarith
  have hd1 : |d - 1| ≤ 1 / 5 := by
    apply abs_le_of_sq_le_sq _ (by norm_num)
    have : (1 / 32 : K) ≤ (1 / 5) ^ 2 := by norm_num
    linarith
  obtain ⟨l1, l2⟩ := abs_le.1 hd1
  have hd0 : 0 < d := by linarith
  have hsq : (d - 1) ^ 2 * (4 * N) ≤ 1 := by
    have := mul_le_mul_of_nonneg_right hd (show 0 ≤ 4 * N by linarith)
    rwa [div_mul_cancel₀ _ (by linarith)] at this
  -- d = 1 + j / N
  rw [bin_high n hgt.le (by linarith)] at hf
  set M := rint (d * N) with hM
  have hdM : d * N = M := by
    rw [eq_comm, ← div_eq_iff (by linarith)]; exact hf
  obtain ⟨j, hj⟩ : ∃ j : ℤ, M = 2 ^ n + j := ⟨M - 2 ^ n, by ring⟩
  have hMj : (M : K) = N + j := by rw [hj, Int.cast_add, cN]
  have hjd : (j : K) = N * (d - 1) := by rw [hMj] at hdM; linarith
  have c2 : (((2 : ℤ) ^ (n + 1) : ℤ) : K) = 2 * N := by rw [cast_two_pow, pow_succ, mul_comm]
  have hr1 : 1 / 2 ≤ 1 / d := by rw [le_div_iff₀ hd0]; linarith
  have hr2 : 1 / d < 1 := by rw [div_lt_iff₀ hd0]; linarith
  have hr : rint (1 / d * (2 * N)) = 2 ^ (n + 1) - 2 * j := by
    apply rint_near
    rw [Int.cast_sub, c2, Int.cast_mul, Int.cast_ofNat, hjd]
    have e : 1 / d * (2 * N) - (2 * N - 2 * (N * (d - 1))) = ((d - 1) ^ 2 * (4 * N)) / (2 * d) := by field_simp; ring
    rw [e, abs_of_nonneg (by positivity), div_lt_iff₀ (by linarith)]
    linarith
  rw [bin_low n hr1 hr2, hr, Int.cast_sub, c2, Int.cast_mul, Int.cast_ofNat, hjd]
  have e : d * ((2 * N - 2 * (N * (d - 1))) / (2 * N)) = 1 - (d - 1) ^ 2 := by field_simp; ring
  rw [e]
  apply bin_one (by omega)
  · linarith
  · have : 0 ≤ 1 / (2 * N) := by positivity
    nlinarith [sq_nonneg (d - 1)]

/-- A number of the format close to one gives one when it is multiplied by its rounded reciprocal. -/
theorem recip_one {n : ℕ} (hn : 3 ≤ n) {d : K} (hf : binary (n + 1) d = d) (hd : (d - 1) ^ 2 ≤ 1 / (4 * 2 ^ n)) :
    binary (n + 1) (d * binary (n + 1) (1 / d)) = 1 := by
  rcases lt_trichotomy d 1 with hlt | rfl | hgt
  · exact recip_low hn hf hd hlt
  · rw [div_one, hf, mul_one, hf]
  · exact recip_high hn hf hd hgt

end Fibermat
