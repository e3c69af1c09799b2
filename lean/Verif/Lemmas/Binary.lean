import Verif.Spec.Rounded
import Mathlib.Data.Int.Log
import Mathlib.Algebra.Order.Floor.Ring
import Mathlib.Tactic.Linarith
import Mathlib.Tactic.FieldSimp
import Mathlib.Tactic.Ring

/-! # Binary floating-point numbers with a given number of significant bits -/

namespace Fibermat
open Spec
variable {K : Type} [Field K] [LinearOrder K] [IsStrictOrderedRing K] [FloorRing K]

theorem rint_bounds (x : K) : (Spec.rint x = ⌊x⌋ ∧ Int.fract x ≤ 1 / 2) ∨ (Spec.rint x = ⌊x⌋ + 1 ∧ 1 / 2 ≤ Int.fract x) := by
  unfold Spec.rint
  split_ifs with h1 h2 h3
  · exact Or.inl ⟨rfl, h1.le⟩
  · exact Or.inr ⟨rfl, h2.le⟩
  · exact Or.inl ⟨rfl, not_lt.1 h2⟩
  · exact Or.inr ⟨rfl, not_lt.1 h1⟩

theorem rint_err (x : K) : |(Spec.rint x : K) - x| ≤ 1 / 2 := by
  have hf := Int.floor_add_fract x
  have h0 := Int.fract_nonneg x
  have h1 := (Int.fract_lt_one x).le
  rcases rint_bounds x with ⟨e, h⟩ | ⟨e, h⟩
  · rw [e, abs_le]; constructor <;> linarith
  · rw [e, abs_le]; push_cast; constructor <;> linarith

theorem rint_int (n : ℤ) : Spec.rint (n : K) = n := by
  unfold Spec.rint
  rw [if_pos (by rw [Int.fract_intCast]; norm_num), Int.floor_intCast]

theorem rint_mono {x y : K} (h : x ≤ y) : Spec.rint x ≤ Spec.rint y := by
  have hx := Int.floor_add_fract x
  have hy := Int.floor_add_fract y
  have hfl := Int.floor_mono h
  rcases hfl.lt_or_eq with hlt | heq
  · have h1 : Spec.rint x ≤ ⌊x⌋ + 1 := by rcases rint_bounds x with ⟨e, -⟩ | ⟨e, -⟩ <;> omega
    have h2 : ⌊y⌋ ≤ Spec.rint y := by rcases rint_bounds y with ⟨e, -⟩ | ⟨e, -⟩ <;> omega
    omega
  · have hfr : Int.fract x ≤ Int.fract y := by
      have : (⌊x⌋ : K) = ⌊y⌋ := by rw [heq]
      linarith
    unfold Spec.rint
    rw [heq]
    split_ifs <;> first | omega | (exfalso; linarith)

theorem rint_nonneg {x : K} (h : 0 ≤ x) : 0 ≤ Spec.rint x := by
  have := rint_mono h
  rwa [show (0 : K) = ((0 : ℤ) : K) by simp, rint_int] at this

theorem rint_nonpos {x : K} (h : x ≤ 0) : Spec.rint x ≤ 0 := by
  have := rint_mono h
  rwa [show (0 : K) = ((0 : ℤ) : K) by simp, rint_int] at this

/-! ## Scaling -/

theorem two_zpow_pos (e : ℤ) : (0 : K) < 2 ^ e := zpow_pos (by norm_num) e

theorem binary_zero (p : ℕ) : Spec.binary p (0 : K) = 0 := by simp [Spec.binary]

theorem binary_eq (p : ℕ) {x : K} (hx : x ≠ 0) {e : ℤ} (h1 : (2 : K) ^ e ≤ |x|) (h2 : |x| < 2 ^ (e + 1)) :
    Spec.binary p x = Spec.rint (x / 2 ^ (e + 1 - p)) * 2 ^ (e + 1 - p) := by
  have hl : Int.log 2 |x| = e := by
    apply le_antisymm
    · have := (Int.lt_zpow_iff_log_lt (b := 2) (by norm_num) (abs_pos.2 hx) (x := e + 1)).1 (by exact_mod_cast h2)
      omega
    · exact (Int.zpow_le_iff_le_log (b := 2) (by norm_num) (abs_pos.2 hx)).1 (by exact_mod_cast h1)
  unfold Spec.binary
  rw [if_neg hx, hl]

theorem exponent {x : K} (hx : x ≠ 0) : ∃ e : ℤ, (2 : K) ^ e ≤ |x| ∧ |x| < 2 ^ (e + 1) := by
  refine ⟨Int.log 2 |x|, ?_, ?_⟩
  · have := Int.zpow_log_le_self (b := 2) (by norm_num) (abs_pos.2 hx)
    exact_mod_cast this
  · have := Int.lt_zpow_succ_log_self (b := 2) (by norm_num) |x|
    exact_mod_cast this


theorem zpow_split (p : ℕ) (e : ℤ) : (2 : K) ^ (e + 1) = 2 ^ p * 2 ^ (e + 1 - p) := by
  rw [← zpow_natCast, ← zpow_add₀ (by norm_num)]
  congr 1; ring

theorem zpow_half {p : ℕ} (hp : 1 ≤ p) (e : ℤ) : (2 : K) ^ e = 2 ^ (p - 1) * 2 ^ (e + 1 - p) := by
  rw [← zpow_natCast, ← zpow_add₀ (by norm_num)]
  congr 1; push_cast [hp]; ring

theorem rint_le_pow {w : K} {n : ℕ} (h : w ≤ 2 ^ n) : (Spec.rint w : K) ≤ 2 ^ n := by
  have e : (2 : K) ^ n = ((2 ^ n : ℤ) : K) := by push_cast; rfl
  have := rint_mono h
  rw [e, rint_int] at this
  rw [e]; exact_mod_cast this

theorem pow_le_rint {w : K} {n : ℕ} (h : 2 ^ n ≤ w) : (2 : K) ^ n ≤ (Spec.rint w : K) := by
  have e : (2 : K) ^ n = ((2 ^ n : ℤ) : K) := by push_cast; rfl
  have := rint_mono h
  rw [e, rint_int] at this
  rw [e]; exact_mod_cast this

theorem rint_le_neg {w : K} {n : ℕ} (h : w ≤ -2 ^ n) : (Spec.rint w : K) ≤ -2 ^ n := by
  have e : -(2 : K) ^ n = ((-2 ^ n : ℤ) : K) := by push_cast; rfl
  have := rint_mono h
  rw [e, rint_int] at this
  rw [e]; exact_mod_cast this

theorem neg_le_rint {w : K} {n : ℕ} (h : -2 ^ n ≤ w) : -(2 : K) ^ n ≤ (Spec.rint w : K) := by
  have e : -(2 : K) ^ n = ((-2 ^ n : ℤ) : K) := by push_cast; rfl
  have := rint_mono h
  rw [e, rint_int] at this
  rw [e]; exact_mod_cast this

theorem binary_pos {p : ℕ} (hp : 1 ≤ p) {x : K} (hx : 0 < x) {e : ℤ} (h1 : (2 : K) ^ e ≤ |x|) (h2 : |x| < 2 ^ (e + 1)) :
    2 ^ e ≤ Spec.binary p x ∧ Spec.binary p x ≤ 2 ^ (e + 1) := by
  have s0 := two_zpow_pos (K := K) (e + 1 - p)
  rw [binary_eq p hx.ne' h1 h2]
  rw [abs_of_pos hx] at h1 h2
  rw [zpow_split p e] at h2 ⊢
  rw [zpow_half hp e] at h1 ⊢
  exact ⟨mul_le_mul_of_nonneg_right (pow_le_rint ((le_div_iff₀ s0).2 h1)) s0.le,
    mul_le_mul_of_nonneg_right (rint_le_pow ((div_le_iff₀ s0).2 h2.le)) s0.le⟩

theorem binary_neg {p : ℕ} (hp : 1 ≤ p) {x : K} (hx : x < 0) {e : ℤ} (h1 : (2 : K) ^ e ≤ |x|) (h2 : |x| < 2 ^ (e + 1)) :
    -2 ^ (e + 1) ≤ Spec.binary p x ∧ Spec.binary p x ≤ -2 ^ e := by
  have s0 := two_zpow_pos (K := K) (e + 1 - p)
  rw [binary_eq p hx.ne h1 h2]
  rw [abs_of_neg hx] at h1 h2
  rw [zpow_split p e] at h2 ⊢
  rw [zpow_half hp e] at h1 ⊢
  rw [← neg_mul, ← neg_mul]
  exact ⟨mul_le_mul_of_nonneg_right (neg_le_rint ((le_div_iff₀ s0).2 (by linarith))) s0.le,
    mul_le_mul_of_nonneg_right (rint_le_neg ((div_le_iff₀ s0).2 (by linarith))) s0.le⟩

/-- Numbers with at most `p` bits are kept. -/
theorem binary_exact {p : ℕ} (hp : 1 ≤ p) (n f : ℤ) (hn : |n| ≤ 2 ^ p) : Spec.binary p ((n : K) * 2 ^ f) = n * 2 ^ f := by
  by_cases h0 : n = 0
  · subst h0; simp [binary_zero]
  have f0 := two_zpow_pos (K := K) f
  have hx : (n : K) * 2 ^ f ≠ 0 := mul_ne_zero (by exact_mod_cast h0) f0.ne'
  obtain ⟨e, h1, h2⟩ := exponent hx
  have s0 := two_zpow_pos (K := K) (e + 1 - p)
  rw [binary_eq p hx h1 h2]
  obtain ⟨m, hm⟩ : ∃ m : ℤ, (n : K) * 2 ^ f / 2 ^ (e + 1 - p) = m := by
    by_cases hf : e + 1 - p ≤ f
    · obtain ⟨k, hk⟩ := Int.le.dest hf
      refine ⟨n * 2 ^ k, ?_⟩
      rw [div_eq_iff s0.ne', ← hk, zpow_add₀ (by norm_num), zpow_natCast]
      push_cast; ring
    · have ha : |(n : K) * 2 ^ f| = |(n : K)| * 2 ^ f := by rw [abs_mul, abs_of_pos f0]
      have hn' : |(n : K)| ≤ 2 ^ p := by exact_mod_cast hn
      have h3 : (2 : K) ^ e ≤ 2 ^ (p + f) := by
        rw [ha] at h1
        rw [zpow_add₀ (by norm_num), zpow_natCast]
        exact h1.trans (mul_le_mul_of_nonneg_right hn' f0.le)
      have h4 : e ≤ p + f := (zpow_le_zpow_iff_right₀ (by norm_num : (1 : K) < 2)).1 h3
      have h5 : e = p + f := by omega
      have h6 : |(n : K)| = 2 ^ p := by
        apply le_antisymm hn'
        rw [ha, h5, zpow_add₀ (by norm_num), zpow_natCast] at h1
        exact le_of_mul_le_mul_right h1 f0
      have h7 : |n| = 2 ^ p := by exact_mod_cast h6
      have e1 : (2 : ℤ) ^ p = 2 ^ (p - 1) * 2 := by rw [← pow_succ]; congr 1; omega
      have e2 : (2 : K) ^ (e + 1 - p) = 2 ^ f * 2 := by
        rw [h5, ← zpow_add_one₀ (by norm_num)]; congr 1; ring
      rcases abs_choice n with h8 | h8
      · refine ⟨2 ^ (p - 1), ?_⟩
        rw [div_eq_iff s0.ne', e2, ← h8, h7, e1]
        push_cast; ring
      · refine ⟨-2 ^ (p - 1), ?_⟩
        have h9 : n = -(2 ^ (p - 1) * 2) := by rw [← e1, ← h7, h8]; ring
        rw [div_eq_iff s0.ne', e2, h9]
        push_cast; ring
  rw [hm, rint_int, ← hm, div_mul_cancel₀ _ s0.ne']

/-- Rounding to `p` significant bits follows the standard model with `u = 2 ^ -p`. -/
theorem binary_rounds {p : ℕ} (hp : 1 ≤ p) : Rounds (Spec.binary p : K → K) (1 / 2 ^ p) where
  mono := by
    intro x y hxy
    rcases lt_trichotomy x 0 with hx | hx | hx
    · obtain ⟨e, h1, h2⟩ := exponent hx.ne
      have bx := binary_neg hp hx h1 h2
      have ex := two_zpow_pos (K := K) e
      rcases lt_trichotomy y 0 with hy | hy | hy
      · obtain ⟨e', h1', h2'⟩ := exponent hy.ne
        have by' := binary_neg hp hy h1' h2'
        have hle : |y| ≤ |x| := by rw [abs_of_neg hx, abs_of_neg hy]; linarith
        have hee : e' < e + 1 := (zpow_lt_zpow_iff_right₀ (by norm_num : (1 : K) < 2)).1 (by linarith)
        rcases (by omega : e' < e ∨ e' = e) with h | h
        · have : (2 : K) ^ (e' + 1) ≤ 2 ^ e := (zpow_le_zpow_iff_right₀ (by norm_num : (1 : K) < 2)).2 (by omega)
          linarith
        · subst h
          rw [binary_eq p hx.ne h1 h2, binary_eq p hy.ne h1' h2']
          have s0 := two_zpow_pos (K := K) (e' + 1 - p)
          apply mul_le_mul_of_nonneg_right _ s0.le
          exact_mod_cast rint_mono (div_le_div_of_nonneg_right hxy s0.le)
      · subst hy; rw [binary_zero]; linarith
      · obtain ⟨e', h1', h2'⟩ := exponent hy.ne'
        have by' := binary_pos hp hy h1' h2'
        have := two_zpow_pos (K := K) e'
        linarith
    · subst hx
      rw [binary_zero]
      rcases hxy.lt_or_eq with hy | hy
      · obtain ⟨e', h1', h2'⟩ := exponent hy.ne'
        have by' := binary_pos hp hy h1' h2'
        have := two_zpow_pos (K := K) e'
        linarith
      · rw [← hy, binary_zero]
    · have hy : 0 < y := hx.trans_le hxy
      obtain ⟨e, h1, h2⟩ := exponent hx.ne'
      have bx := binary_pos hp hx h1 h2
      obtain ⟨e', h1', h2'⟩ := exponent hy.ne'
      have by' := binary_pos hp hy h1' h2'
      have hle : |x| ≤ |y| := by rw [abs_of_pos hx, abs_of_pos hy]; linarith
      have hee : e < e' + 1 := (zpow_lt_zpow_iff_right₀ (by norm_num : (1 : K) < 2)).1 (by linarith)
      rcases (by omega : e < e' ∨ e = e') with h | h
      · have : (2 : K) ^ (e + 1) ≤ 2 ^ e' := (zpow_le_zpow_iff_right₀ (by norm_num : (1 : K) < 2)).2 (by omega)
        linarith
      · subst h
        rw [binary_eq p hx.ne' h1 h2, binary_eq p hy.ne' h1' h2']
        have s0 := two_zpow_pos (K := K) (e + 1 - p)
        apply mul_le_mul_of_nonneg_right _ s0.le
        exact_mod_cast rint_mono (div_le_div_of_nonneg_right hxy s0.le)
  idem := by
    intro x
    by_cases hx : x = 0
    · subst hx; rw [binary_zero, binary_zero]
    obtain ⟨e, h1, h2⟩ := exponent hx
    rw [binary_eq p hx h1 h2]
    apply binary_exact hp
    have s0 := two_zpow_pos (K := K) (e + 1 - p)
    rw [zpow_split p e] at h2
    obtain ⟨h3, h4⟩ := abs_lt.1 h2
    rw [abs_le]
    constructor
    · have := neg_le_rint (w := x / 2 ^ (e + 1 - (p : ℤ))) (n := p) ((le_div_iff₀ s0).2 (by linarith))
      exact_mod_cast this
    · have := rint_le_pow (w := x / 2 ^ (e + 1 - (p : ℤ))) (n := p) ((div_le_iff₀ s0).2 h4.le)
      exact_mod_cast this
  err := by
    intro x
    by_cases hx : x = 0
    · subst hx; rw [binary_zero]; simp
    obtain ⟨e, h1, h2⟩ := exponent hx
    have s0 := two_zpow_pos (K := K) (e + 1 - p)
    rw [binary_eq p hx h1 h2]
    have e1 : (Spec.rint (x / 2 ^ (e + 1 - (p : ℤ))) : K) * 2 ^ (e + 1 - (p : ℤ)) - x =
        (Spec.rint (x / 2 ^ (e + 1 - (p : ℤ))) - x / 2 ^ (e + 1 - (p : ℤ))) * 2 ^ (e + 1 - (p : ℤ)) := by
      rw [sub_mul, div_mul_cancel₀ _ s0.ne']
    rw [e1, abs_mul, abs_of_pos s0]
    have h3 := mul_le_mul_of_nonneg_right (rint_err (x / 2 ^ (e + 1 - (p : ℤ)))) s0.le
    have h4 : 1 / 2 * (2 : K) ^ (e + 1 - (p : ℤ)) = 1 / 2 ^ p * 2 ^ e := by
      have e2 := zpow_split (K := K) p e
      rw [zpow_add_one₀ (by norm_num)] at e2
      have hp0 : (2 : K) ^ p ≠ 0 := by positivity
      field_simp
      linarith
    rw [h4] at h3
    exact h3.trans (mul_le_mul_of_nonneg_left h1 (by positivity))

end Fibermat
