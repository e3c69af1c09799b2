import Verif.Model.Cubic
import Verif.Spec.Cubic
import Verif.Lemmas.Interp
import Mathlib.Algebra.Polynomial.Degree.Lemmas
import Mathlib.Algebra.Polynomial.Eval.Degree
import Mathlib.Tactic.LinearCombination
import Mathlib.Tactic.ComputeDegree

/-! # Lemmas on the spline of third order -/

set_option linter.unusedSectionVars false

namespace Fibermat
variable {K : Type} [Field K] [LinearOrder K] [IsStrictOrderedRing K]
open Polynomial

/-! ## Pieces -/

theorem cubic_eq {p : K[X]} (h : p.natDegree ≤ 3) :
    p = C (p.coeff 0) + C (p.coeff 1) * X + C (p.coeff 2) * X ^ 2 + C (p.coeff 3) * X ^ 3 := by
  conv_lhs => rw [p.as_sum_range_C_mul_X_pow' (n := 4) (by omega)]
  simp [Finset.sum_range_succ]

theorem cubic_eval {p : K[X]} (h : p.natDegree ≤ 3) (x : K) :
    p.eval x = p.coeff 0 + p.coeff 1 * x + p.coeff 2 * x ^ 2 + p.coeff 3 * x ^ 3 := by
  conv_lhs => rw [cubic_eq h]
  simp

theorem cubic_eval_deriv {p : K[X]} (h : p.natDegree ≤ 3) (x : K) :
    p.derivative.eval x = p.coeff 1 + 2 * p.coeff 2 * x + 3 * p.coeff 3 * x ^ 2 := by
  conv_lhs => rw [cubic_eq h]
  simp [derivative_X_pow]
  ring

theorem cubic_eval_deriv2 {p : K[X]} (h : p.natDegree ≤ 3) (x : K) :
    p.derivative.derivative.eval x = 2 * p.coeff 2 + 6 * p.coeff 3 * x := by
  conv_lhs => rw [cubic_eq h]
  simp [derivative_X_pow]
  ring

/-- Slopes of a piece at its ends, from its values and curvatures. -/
theorem cubic_slopes {p : K[X]} (hp : p.natDegree ≤ 3) (u h : K) :
    6 * h * p.derivative.eval u = 6 * (p.eval (u + h) - p.eval u) -
      h ^ 2 * (2 * p.derivative.derivative.eval u + p.derivative.derivative.eval (u + h)) ∧
    6 * h * p.derivative.eval (u + h) = 6 * (p.eval (u + h) - p.eval u) +
      h ^ 2 * (p.derivative.derivative.eval u + 2 * p.derivative.derivative.eval (u + h)) := by
  simp only [cubic_eval hp, cubic_eval_deriv hp, cubic_eval_deriv2 hp]
  constructor <;> ring

/-- A piece vanishing with its curvature at both ends is zero. -/
theorem cubic_zero {p : K[X]} (hp : p.natDegree ≤ 3) {u h : K} (hh : h ≠ 0) (h1 : p.eval u = 0) (h2 : p.eval (u + h) = 0)
    (h3 : p.derivative.derivative.eval u = 0) (h4 : p.derivative.derivative.eval (u + h) = 0) : p = 0 := by
  rw [cubic_eval hp] at h1 h2
  rw [cubic_eval_deriv2 hp] at h3 h4
  have c3 : p.coeff 3 = 0 := by
    have : 6 * h * p.coeff 3 = 0 := by linear_combination h4 - h3
    rcases mul_eq_zero.1 this with h | h
    · exact absurd (by simpa using h) hh
    · exact h
  have c2 : p.coeff 2 = 0 := by
    rw [c3] at h3
    have : 2 * p.coeff 2 = 0 := by linear_combination h3
    simpa using this
  have c1 : p.coeff 1 = 0 := by
    rw [c3, c2] at h1 h2
    have : h * p.coeff 1 = 0 := by linear_combination h2 - h1
    exact (mul_eq_zero.1 this).resolve_left hh
  have c0 : p.coeff 0 = 0 := by
    rw [c3, c2, c1] at h1
    linear_combination h1
  rw [cubic_eq hp, c0, c1, c2, c3]
  simp

/-! ## Uniqueness -/

/-- A sequence with `e (i - 1) + 4 e i + e (i + 1) = 0` which vanishes at both ends vanishes. -/
theorem tridiagonal_zero {e : ℕ → K} {a b : ℕ} (hab : a ≤ b) (ha : e a = 0) (hb : e b = 0)
    (h : ∀ i, a ≤ i → i + 2 ≤ b → e i + 4 * e (i + 1) + e (i + 2) = 0) : ∀ i, a ≤ i → i ≤ b → e i = 0 := by
  have hup : ∀ k, a + k + 1 ≤ b → |e (a + k)| ≤ |e (a + k + 1)| := by
    intro k
    induction k with
    | zero => intro _; rw [Nat.add_zero, ha, abs_zero]; exact abs_nonneg _
    | succ k ih =>
      intro hk
      have ih := ih (by omega)
      have hrec := h (a + k) (by omega) (by omega)
      have e1 : a + (k + 1) = a + k + 1 := by omega
      rw [e1]
      have e2 : e (a + k + 1 + 1) = -(4 * e (a + k + 1)) - e (a + k) := by linear_combination hrec
      rw [e2]
      have h3 := abs_sub_abs_le_abs_sub (-(4 * e (a + k + 1))) (e (a + k))
      rw [abs_neg, abs_mul, abs_of_pos (by norm_num : (0 : K) < 4)] at h3
      have := abs_nonneg (e (a + k + 1))
      linarith
  have hall : ∀ k, k ≤ b - a → |e (b - k)| ≤ 0 := by
    intro k
    induction k with
    | zero => intro _; simp [hb]
    | succ k ih =>
      intro hk
      have h1 := hup (b - (k + 1) - a) (by omega)
      have e1 : a + (b - (k + 1) - a) = b - (k + 1) := by omega
      have e2 : b - (k + 1) + 1 = b - k := by omega
      rw [e1, e2] at h1
      exact h1.trans (ih (by omega))
  intro i hi hib
  have := hall (b - i) (by omega)
  rw [(by omega : b - (b - i) = i)] at this
  exact abs_nonpos_iff.1 this

section
variable {n : ℕ} {y : ℕ → K} {P : ℕ → K[X]}

theorem spline_step (hn : 3 ≤ n) (i : ℕ) : ((i + 1 : ℕ) : K) / n = (i : K) / n + 1 / n := by
  push_cast; ring

/-- Curvature at the points. -/
noncomputable def splineCurve (n : ℕ) (P : ℕ → K[X]) (i : ℕ) : K :=
  if i < n then (P i).derivative.derivative.eval ((i : K) / n) else (P (n - 1)).derivative.derivative.eval 1

theorem curve_right (hn : 3 ≤ n) (h : Spec.CubicSpline n y P) {i : ℕ} (hi : i < n) :
    (P i).derivative.derivative.eval (((i + 1 : ℕ) : K) / n) = splineCurve n P (i + 1) := by
  unfold splineCurve
  split_ifs with h1
  · exact h.curve i h1
  · have e : n - 1 = i := by omega
    have e2 : ((i + 1 : ℕ) : K) / n = 1 := by
      have : i + 1 = n := by omega
      rw [this]
      exact div_self (by exact_mod_cast (by omega : n ≠ 0))
    rw [e, e2]

theorem curve_left {i : ℕ} (hi : i < n) :
    (P i).derivative.derivative.eval ((i : K) / n) = splineCurve n P i := by
  unfold splineCurve; rw [if_pos hi]

/-- Equations of the curvatures. -/
theorem curve_eq (hn : 3 ≤ n) (h : Spec.CubicSpline n y P) {i : ℕ} (hi : i + 1 < n) :
    splineCurve n P i + 4 * splineCurve n P (i + 1) + splineCurve n P (i + 2) =
      6 * (n : K) ^ 2 * (y i - 2 * y (i + 1) + y (i + 2)) := by
  have hn0 : (n : K) ≠ 0 := by exact_mod_cast (by omega : n ≠ 0)
  obtain ⟨-, h1⟩ := cubic_slopes (h.degree i (by omega)) ((i : K) / n) (1 / n)
  obtain ⟨h2, -⟩ := cubic_slopes (h.degree (i + 1) hi) (((i + 1 : ℕ) : K) / n) (1 / n)
  rw [← spline_step hn, h.left i (by omega), h.right i (by omega), curve_left (by omega), curve_right hn h (by omega)] at h1
  rw [← spline_step hn, h.left (i + 1) hi, h.right (i + 1) hi, curve_left hi, curve_right hn h hi] at h2
  rw [h.slope i hi, h2] at h1
  field_simp at h1
  linear_combination -h1

theorem curve_first (hn : 3 ≤ n) (h : Spec.CubicSpline n y P) :
    splineCurve n P 0 = 2 * splineCurve n P 1 - splineCurve n P 2 := by
  have d0 := h.degree 0 (by omega)
  have e0 : splineCurve n P 0 = (P 0).derivative.derivative.eval (((0 : ℕ) : K) / n) := (curve_left (by omega)).symm
  have e1 : splineCurve n P 1 = (P 0).derivative.derivative.eval (((0 + 1 : ℕ) : K) / n) :=
    (curve_right hn h (by omega)).symm
  have e2 : splineCurve n P 2 = (P 0).derivative.derivative.eval (((1 + 1 : ℕ) : K) / n) := by
    rw [h.first]; exact (curve_right hn h (by omega)).symm
  rw [e0, e1, e2, cubic_eval_deriv2 d0, cubic_eval_deriv2 d0, cubic_eval_deriv2 d0]
  push_cast; ring

theorem curve_last (hn : 3 ≤ n) (h : Spec.CubicSpline n y P) :
    splineCurve n P n = 2 * splineCurve n P (n - 1) - splineCurve n P (n - 2) := by
  have d0 := h.degree (n - 1) (by omega)
  have e0 : splineCurve n P n = (P (n - 1)).derivative.derivative.eval (((n - 1 + 1 : ℕ) : K) / n) := by
    rw [curve_right hn h (by omega)]; congr 1; omega
  have e1 : splineCurve n P (n - 1) = (P (n - 1)).derivative.derivative.eval (((n - 1 : ℕ) : K) / n) :=
    (curve_left (by omega)).symm
  have e2 : splineCurve n P (n - 2) = (P (n - 1)).derivative.derivative.eval (((n - 2 : ℕ) : K) / n) := by
    rw [← h.last]; exact (curve_left (by omega)).symm
  rw [e0, e1, e2, cubic_eval_deriv2 d0, cubic_eval_deriv2 d0, cubic_eval_deriv2 d0]
  obtain ⟨m, rfl⟩ : ∃ m, n = m + 2 := ⟨n - 2, by omega⟩
  simp only [(by omega : m + 2 - 1 = m + 1), (by omega : m + 2 - 2 = m)]
  push_cast; ring

/-- The difference of two splines is a spline. -/
theorem spline_sub {z : ℕ → K} {Q : ℕ → K[X]} (h : Spec.CubicSpline n y P) (h' : Spec.CubicSpline n z Q) (a b : K) :
    Spec.CubicSpline n (fun i => a * y i + b * z i) (fun i => C a * P i + C b * Q i) where
  degree i hi := by
    refine (natDegree_add_le _ _).trans (max_le ?_ ?_)
    · exact (natDegree_C_mul_le _ _).trans (h.degree i hi)
    · exact (natDegree_C_mul_le _ _).trans (h'.degree i hi)
  left i hi := by simp only [eval_add, eval_mul, eval_C]; rw [h.left i hi, h'.left i hi]
  right i hi := by simp only [eval_add, eval_mul, eval_C]; rw [h.right i hi, h'.right i hi]
  slope i hi := by
    simp only [derivative_add, derivative_C_mul, eval_add, eval_mul, eval_C]; rw [h.slope i hi, h'.slope i hi]
  curve i hi := by
    simp only [derivative_add, derivative_C_mul, eval_add, eval_mul, eval_C]; rw [h.curve i hi, h'.curve i hi]
  first := by simp only [h.first, h'.first]
  last := by simp only [h.last, h'.last]

/-- The spline of zero data is zero. -/
theorem spline_zero (hn : 3 ≤ n) (hy : ∀ i, i ≤ n → y i = 0) (h : Spec.CubicSpline n y P) : ∀ i, i < n → P i = 0 := by
  have hn0 : (n : K) ≠ 0 := by exact_mod_cast (by omega : n ≠ 0)
  have heq : ∀ i, i + 1 < n → splineCurve n P i + 4 * splineCurve n P (i + 1) + splineCurve n P (i + 2) = 0 := by
    intro i hi
    rw [curve_eq hn h hi, hy i (by omega), hy (i + 1) (by omega), hy (i + 2) (by omega)]; ring
  have h1 : splineCurve n P 1 = 0 := by
    have := heq 0 (by omega)
    rw [curve_first hn h] at this
    simp only [Nat.zero_add] at this
    linarith
  have h2 : splineCurve n P (n - 1) = 0 := by
    have := heq (n - 2) (by omega)
    rw [(by omega : n - 2 + 1 = n - 1), (by omega : n - 2 + 2 = n), curve_last hn h] at this
    linarith
  have hmid := tridiagonal_zero (e := splineCurve n P) (by omega) h1 h2 (fun i _ hi => heq i (by omega))
  have hall : ∀ i, i ≤ n → splineCurve n P i = 0 := by
    intro i hi
    by_cases h0 : i = 0
    · subst h0; rw [curve_first hn h, hmid 1 (by omega) (by omega), hmid 2 (by omega) (by omega)]; ring
    · by_cases h3 : i = n
      · subst h3
        rw [curve_last hn h, hmid (i - 1) (by omega) (by omega), hmid (i - 2) (by omega) (by omega)]; ring
      · exact hmid i (by omega) (by omega)
  intro i hi
  have hh : (1 : K) / n ≠ 0 := one_div_ne_zero hn0
  refine cubic_zero (h.degree i hi) hh (u := (i : K) / n) ?_ ?_ ?_ ?_
  · rw [h.left i hi, hy i (by omega)]
  · rw [← spline_step hn, h.right i hi, hy (i + 1) (by omega)]
  · rw [curve_left hi, hall i (by omega)]
  · rw [← spline_step hn, curve_right hn h hi, hall (i + 1) (by omega)]

theorem spline_unique {Q : ℕ → K[X]} (hn : 3 ≤ n) (h : Spec.CubicSpline n y P) (h' : Spec.CubicSpline n y Q) :
    ∀ i, i < n → P i = Q i := by
  intro i hi
  have := spline_zero hn (fun i _ => by ring) (spline_sub h h' 1 (-1)) i hi
  simp only [map_one, one_mul, map_neg, neg_mul] at this
  exact sub_eq_zero.1 (by rw [sub_eq_add_neg]; exact this)

end

/-! ## Elimination -/

theorem sweep_range (y : List K) (k : ℕ) : 0 ≤ (sweep y k).2 ∧ (sweep y k).2 < 1 := by
  induction k with
  | zero => simp [sweep]
  | succ k ih =>
    have h : (1 : K) < 4 - (sweep y k).2 := by linarith [ih.2]
    simp only [sweep]
    exact ⟨(div_pos one_pos (by linarith)).le, (div_lt_one (by linarith)).2 h⟩

section
variable {n : ℕ} {y : List K}

theorem curvature_mid (hn : 3 ≤ n) (hy : y.length = n + 1) {i : ℕ} (h1 : 1 ≤ i) (h2 : i + 1 ≤ n) :
    curvature y i = backward y (n - 1 - i) := by
  unfold curvature
  rw [if_neg (by omega), if_neg (by omega), hy]
  rfl

theorem curvature_step (hn : 3 ≤ n) (hy : y.length = n + 1) {i : ℕ} (h1 : 1 ≤ i) (h2 : i + 2 ≤ n) :
    curvature y i = (sweep y (i - 1)).1 - (sweep y (i - 1)).2 * curvature y (i + 1) := by
  rw [curvature_mid hn hy h1 (by omega), curvature_mid hn hy (by omega) (by omega)]
  obtain ⟨k, hk⟩ : ∃ k, n - 1 - i = k + 1 := ⟨n - 1 - i - 1, by omega⟩
  rw [hk, (by omega : n - 1 - (i + 1) = k), backward, hy, (by omega : n + 1 - 2 - (k + 1) - 1 = i - 1)]

theorem curvature_one (hn : 3 ≤ n) (hy : y.length = n + 1) : curvature y 1 = secondDiff y 1 := by
  rw [curvature_step hn hy le_rfl (by omega)]
  simp [sweep]

theorem curvature_penult (hn : 3 ≤ n) (hy : y.length = n + 1) : curvature y (n - 1) = secondDiff y (n - 1) := by
  rw [curvature_mid hn hy (by omega) (by omega), Nat.sub_self, backward, hy]
  rfl

theorem curvature_zero (hn : 3 ≤ n) (hy : y.length = n + 1) : curvature y 0 = 2 * curvature y 1 - curvature y 2 := by
  rw [curvature_mid hn hy (i := 1) le_rfl (by omega), curvature_mid hn hy (i := 2) (by omega) (by omega)]
  unfold curvature
  rw [if_pos rfl, hy]
  rfl

theorem curvature_end (hn : 3 ≤ n) (hy : y.length = n + 1) :
    curvature y n = 2 * curvature y (n - 1) - curvature y (n - 2) := by
  rw [curvature_mid hn hy (i := n - 1) (by omega) (by omega), curvature_mid hn hy (i := n - 2) (by omega) (by omega)]
  unfold curvature
  rw [if_neg (by omega), if_pos (by omega), Nat.sub_self, (by omega : n - 1 - (n - 2) = 1)]

/-- The curvatures found by elimination solve the equations of the spline. -/
theorem curvature_eq (hn : 3 ≤ n) (hy : y.length = n + 1) {i : ℕ} (hi : i + 1 < n) :
    curvature y i + 4 * curvature y (i + 1) + curvature y (i + 2) = 6 * secondDiff y (i + 1) := by
  by_cases h0 : i = 0
  · subst h0
    have := curvature_zero hn hy
    have h1 := curvature_one hn hy
    simp only [Nat.zero_add]
    linear_combination this + 6 * h1
  · by_cases h1 : i + 2 = n
    · have e := curvature_end hn hy
      have e1 := curvature_penult hn hy
      rw [(by omega : n - 1 = i + 1), (by omega : n - 2 = i), ← h1] at e
      rw [(by omega : n - 1 = i + 1)] at e1
      linear_combination e + 6 * e1
    · have e1 := curvature_step hn hy (i := i) (by omega) (by omega)
      have e2 := curvature_step hn hy (i := i + 1) (by omega) (by omega)
      obtain ⟨k, rfl⟩ : ∃ k, i = k + 1 := ⟨i - 1, by omega⟩
      simp only [Nat.add_sub_cancel] at e1 e2
      have hq : (4 : K) - (sweep y k).2 ≠ 0 := by linarith [(sweep_range y k).2]
      simp only [sweep] at e2
      field_simp at e2
      linear_combination e1 + e2

/-- The pieces of the spline. -/
noncomputable def piece (y : List K) (n i : ℕ) : K[X] :=
  let θ : K[X] := C (n : K) * X - C (i : K)
  (1 - θ) * C (y.getD i 0) + θ * C (y.getD (i + 1) 0) +
    ((1 - θ) ^ 3 - (1 - θ)) * C (curvature y i / 6) + (θ ^ 3 - θ) * C (curvature y (i + 1) / 6)

theorem piece_degree (y : List K) (n i : ℕ) : (piece y n i).natDegree ≤ 3 := by
  have h1 : (C (n : K) * X - C (i : K)).natDegree ≤ 1 :=
    (natDegree_sub_le _ _).trans (max_le ((natDegree_C_mul_le _ _).trans natDegree_X_le) (by rw [natDegree_C]; omega))
  have h2 : (1 - (C (n : K) * X - C (i : K))).natDegree ≤ 1 :=
    (natDegree_sub_le _ _).trans (max_le (by rw [natDegree_one]; omega) h1)
  have h3 : ∀ {p : K[X]}, p.natDegree ≤ 1 → (p ^ 3 - p).natDegree ≤ 3 := fun hp =>
    (natDegree_sub_le _ _).trans (max_le (natDegree_pow_le.trans (by omega)) (by omega))
  unfold piece
  refine (natDegree_add_le _ _).trans (max_le ((natDegree_add_le _ _).trans (max_le
    ((natDegree_add_le _ _).trans (max_le ?_ ?_)) ?_)) ?_)
  · exact (natDegree_mul_C_le _ _).trans (by omega)
  · exact (natDegree_mul_C_le _ _).trans (by omega)
  · exact (natDegree_mul_C_le _ _).trans (h3 h2)
  · exact (natDegree_mul_C_le _ _).trans (h3 h1)

theorem piece_eval (y : List K) (n i : ℕ) (t : K) : (piece y n i).eval t = segmentValue y i (n * t - i) := by
  simp only [piece, segmentValue, eval_add, eval_sub, eval_mul, eval_pow, eval_C, eval_X, eval_one]
  ring

theorem piece_deriv (y : List K) (n i : ℕ) (t : K) : (piece y n i).derivative.eval t =
    n * (y.getD (i + 1) 0 - y.getD i 0 + (1 - 3 * (1 - (n * t - i)) ^ 2) / 6 * curvature y i +
      (3 * (n * t - i) ^ 2 - 1) / 6 * curvature y (i + 1)) := by
  simp [piece, derivative_pow]
  ring

theorem piece_deriv2 (y : List K) (n i : ℕ) (t : K) : (piece y n i).derivative.derivative.eval t =
    n ^ 2 * ((1 - (n * t - i)) * curvature y i + (n * t - i) * curvature y (i + 1)) := by
  simp [piece, derivative_pow]
  ring

theorem piece_spline (hn : 3 ≤ n) (hy : y.length = n + 1) :
    Spec.CubicSpline n (fun i => y.getD i 0) (piece y n) := by
  have hn0 : (n : K) ≠ 0 := by exact_mod_cast (by omega : n ≠ 0)
  have e1 : ∀ i : ℕ, (n : K) * ((i : K) / n) = i := fun i => mul_div_cancel₀ _ hn0
  refine ⟨fun i _ => piece_degree y n i, ?_, ?_, ?_, ?_, ?_, ?_⟩
  · intro i hi
    rw [piece_eval, e1]
    simp only [segmentValue]; ring
  · intro i hi
    rw [piece_eval, e1]
    push_cast
    simp only [segmentValue]; ring
  · intro i hi
    rw [piece_deriv, piece_deriv, e1]
    have := curvature_eq hn hy hi
    simp only [secondDiff, Nat.add_sub_cancel] at this
    push_cast
    linear_combination (n : K) / 6 * this
  · intro i hi
    rw [piece_deriv2, piece_deriv2, e1]
    push_cast; ring
  · have h0 := curvature_zero hn hy
    have h1 := curvature_one hn hy
    simp only [secondDiff] at h1
    refine sub_eq_zero.1 (cubic_zero (u := ((1 : ℕ) : K) / n) (h := 1 / n)
      ((natDegree_sub_le _ _).trans (max_le (piece_degree y n 0) (piece_degree y n 1))) (one_div_ne_zero hn0) ?_ ?_ ?_ ?_)
    · rw [eval_sub, piece_eval, piece_eval, e1]
      simp only [segmentValue]; push_cast; ring
    · rw [← spline_step hn, eval_sub, piece_eval, piece_eval, e1]
      simp only [segmentValue]; push_cast
      linear_combination h1
    · rw [derivative_sub, derivative_sub, eval_sub, piece_deriv2, piece_deriv2, e1]
      push_cast; ring
    · rw [← spline_step hn, derivative_sub, derivative_sub, eval_sub, piece_deriv2, piece_deriv2, e1]
      push_cast
      linear_combination -(n : K) ^ 2 * h0
  · have h0 := curvature_end hn hy
    have h1 := curvature_penult hn hy
    obtain ⟨m, rfl⟩ : ∃ m, n = m + 2 := ⟨n - 2, by omega⟩
    simp only [secondDiff, (by omega : m + 2 - 1 = m + 1), (by omega : m + 2 - 2 = m), Nat.add_sub_cancel] at h0 h1 ⊢
    refine sub_eq_zero.1 (cubic_zero (u := (m : K) / (m + 2 : ℕ)) (h := 1 / (m + 2 : ℕ))
      ((natDegree_sub_le _ _).trans (max_le (piece_degree y (m + 2) m) (piece_degree y (m + 2) (m + 1))))
      (one_div_ne_zero hn0) ?_ ?_ ?_ ?_)
    · rw [eval_sub, piece_eval, piece_eval, e1]
      simp only [segmentValue]; push_cast
      linear_combination -h1
    · rw [← spline_step hn, eval_sub, piece_eval, piece_eval, e1]
      simp only [segmentValue]; push_cast; ring
    · rw [derivative_sub, derivative_sub, eval_sub, piece_deriv2, piece_deriv2, e1]
      push_cast
      linear_combination ((m : K) + 2) ^ 2 * h0
    · rw [← spline_step hn, derivative_sub, derivative_sub, eval_sub, piece_deriv2, piece_deriv2, e1]
      push_cast; ring

end

end Fibermat
