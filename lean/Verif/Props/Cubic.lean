import Verif.Lemmas.Cubic
import Verif.Props.Interp
import Mathlib.Algebra.Polynomial.Eval.Coeff
import Mathlib.Data.Rat.Floor
import Mathlib.Tactic.IntervalCases

/-! # C110: interpolation by splines of third order -/

set_option linter.unusedSectionVars false

namespace Fibermat
variable {K : Type} [Field K] [LinearOrder K] [IsStrictOrderedRing K]
open Polynomial

theorem knot_succ (n k : ℕ) : (knot (n + 1) k : K) = (k : K) / n := by
  unfold knot; push_cast; congr 1; ring

/-- The value on one segment at least. -/
theorem cubic1d_some {n : ℕ} {y : List K} (hn : 3 ≤ n) (hy : y.length = n + 1) (fill : K) {t : K} (h0 : 0 ≤ t)
    (h1 : t ≤ 1) : ∃ i, i < n ∧ (i : K) / n ≤ t ∧ t ≤ ((i + 1 : ℕ) : K) / n ∧
      cubic1d y fill t = (piece y n i).eval t := by
  have hn0 : (n : K) ≠ 0 := by exact_mod_cast (by omega : n ≠ 0)
  have h2 : 2 ≤ n + 1 := by omega
  obtain ⟨hc1, hc2⟩ := count_lt (K := K) h2 t
  set c := (linspace (n + 1) : List K).countP (· < t) with hc
  refine ⟨max 1 (min c n) - 1, by omega, ?_, ?_, ?_⟩
  · rw [← knot_succ]
    by_cases h : c = 0
    · simp [h, knot_zero, h0]
    · by_cases h' : c = n + 1
      · have := (hc2 n (by omega)).2 (by omega)
        have e := knot_last (K := K) h2
        rw [Nat.add_sub_cancel] at e
        rw [e] at this
        linarith
      · have e : max 1 (min c n) - 1 = c - 1 := by omega
        rw [e]
        exact ((hc2 (c - 1) (by omega)).2 (by omega)).le
  · rw [← knot_succ]
    have e : max 1 (min c n) - 1 + 1 = max 1 (min c n) := by omega
    rw [e]
    have hle : c ≤ max 1 (min c n) ∨ max 1 (min c n) = n := by omega
    rcases hle with h | h
    · by_contra hcon
      have := (hc2 (max 1 (min c n)) (by omega)).1 (not_le.1 hcon)
      omega
    · have e := knot_last (K := K) h2
      rw [Nat.add_sub_cancel] at e
      rw [h, e]; exact h1
  · unfold cubic1d
    rw [if_neg (by push Not; exact ⟨h0, h1⟩), hy]
    simp only [← hc, Nat.add_sub_cancel]
    rw [linspace_getD (by omega), linspace_getD (by omega), piece_eval, knot_succ, knot_succ]
    congr 1
    push_cast
    field_simp
    ring

/-- The value is the one of the spline, whatever the way the spline was found. -/
theorem cubic1d_eq {n : ℕ} {y : List K} (hn : 3 ≤ n) (hy : y.length = n + 1) {P : ℕ → K[X]}
    (hP : Spec.CubicSpline n (fun i => y.getD i 0) P) (fill : K) {i : ℕ} (hi : i < n) {t : K} (h0 : (i : K) / n ≤ t)
    (h1 : t ≤ ((i + 1 : ℕ) : K) / n) : cubic1d y fill t = (P i).eval t := by
  have hn0 : (0 : K) < n := by exact_mod_cast (by omega : 0 < n)
  have ht0 : 0 ≤ t := (div_nonneg (Nat.cast_nonneg _) hn0.le).trans h0
  have ht1 : t ≤ 1 := h1.trans ((div_le_one hn0).2 (by exact_mod_cast hi))
  obtain ⟨j, hj, hj0, hj1, he⟩ := cubic1d_some hn hy fill ht0 ht1
  rw [he, spline_unique hn (piece_spline hn hy) hP j hj]
  have hlt : ∀ a b : ℕ, (a : K) / n ≤ (b : K) / n → a ≤ b := by
    intro a b h
    exact_mod_cast (div_le_div_iff_of_pos_right hn0).1 h
  have h2 := hlt _ _ (hj0.trans h1)
  have h3 := hlt _ _ (h0.trans hj1)
  rcases lt_trichotomy i j with h | h | h
  · obtain rfl : j = i + 1 := by omega
    obtain rfl : t = ((i + 1 : ℕ) : K) / n := le_antisymm h1 hj0
    rw [hP.left _ hj, hP.right _ hi]
  · rw [h]
  · obtain rfl : i = j + 1 := by omega
    obtain rfl : t = ((j + 1 : ℕ) : K) / n := le_antisymm hj1 h0
    rw [hP.left _ hi, hP.right _ hj]

theorem exists_segment {n : ℕ} (hn : 0 < n) {t : K} (h0 : 0 ≤ t) (h1 : t ≤ 1) :
    ∃ i, i < n ∧ (i : K) / n ≤ t ∧ t ≤ ((i + 1 : ℕ) : K) / n := by
  obtain ⟨i, hi, ha, hb, -⟩ := interp_linear (K := K) (n := n + 1) (by omega) h0 h1
  rw [knot_succ] at ha hb
  exact ⟨i, by omega, ha, hb⟩

theorem interpolateCubic_eq {y : List K} (hy : 4 ≤ y.length) {size : Option ℕ} (hs : ∀ n, size = some n → 4 ≤ n) (t : K) :
    interpolateCubic y size t = .ok (cubic1d ((linspace (samples y size)).map (cubic1d y (y.getLastD 0))) (y.getLastD 0) t) := by
  have e : size.getD y.length = samples y size := by cases size <;> rfl
  have hn : 4 ≤ samples y size := by
    cases size with
    | none => exact hy
    | some n => exact hs n rfl
  unfold interpolateCubic
  rw [if_neg (by rintro rfl; simp at hy), e]
  simp only
  rw [if_neg (by omega), if_neg (by omega)]

theorem samples_ge {y : List K} (hy : 4 ≤ y.length) {size : Option ℕ} (hs : ∀ n, size = some n → 4 ≤ n) :
    4 ≤ samples y size := by
  cases size with
  | none => exact hy
  | some n => exact hs n rfl

theorem map_linspace_getD (f : K → K) {n k : ℕ} (hk : k < n) : ((linspace n : List K).map f).getD k 0 = f (knot n k) := by
  simp [linspace, List.getD_eq_getElem?_getD, hk]

/-- C110: there is one spline of third order only through given data, so the value does not depend on the way its
coefficients are found. -/
theorem C110_unique {n : ℕ} (hn : 3 ≤ n) {y : ℕ → K} {P Q : ℕ → K[X]} (hP : Spec.CubicSpline n y P)
    (hQ : Spec.CubicSpline n y Q) : ∀ i, i < n → P i = Q i :=
  spline_unique hn hP hQ

theorem spline_congr {n : ℕ} {y z : ℕ → K} {P : ℕ → K[X]} (h : ∀ i, i ≤ n → y i = z i) (hP : Spec.CubicSpline n y P) :
    Spec.CubicSpline n z P :=
  ⟨hP.degree, fun i hi => (hP.left i hi).trans (h i (by omega)), fun i hi => (hP.right i hi).trans (h (i + 1) (by omega)),
    hP.slope, hP.curve, hP.first, hP.last⟩

/-- C110: without resampling the interpolation is the spline of third order through the data: four data or more always
have one. -/
theorem C110_spline (y : List K) (hy : 4 ≤ y.length) : ∃ P : ℕ → K[X],
    Spec.CubicSpline (y.length - 1) (fun i => y.getD i 0) P ∧
    ∀ i, i < y.length - 1 → ∀ t : K, (i : K) / (y.length - 1 : ℕ) ≤ t → t ≤ ((i + 1 : ℕ) : K) / (y.length - 1 : ℕ) →
      interpolateCubic y none t = .ok ((P i).eval t) := by
  have hn : 3 ≤ y.length - 1 := by omega
  have hl : y.length = y.length - 1 + 1 := by omega
  refine ⟨_, piece_spline hn hl, ?_⟩
  intro i hi t h0 h1
  rw [interpolateCubic_eq hy (by simp)]
  congr 1
  refine cubic1d_eq hn (by rw [List.length_map, linspace_length]; exact hl) (spline_congr ?_ (piece_spline hn hl)) _ hi h0 h1
  intro k hk
  simp only [samples]
  have ek : (knot y.length k : K) = (k : K) / (y.length - 1 : ℕ) := by
    conv_lhs => rw [hl]
    exact knot_succ _ _
  rw [map_linspace_getD _ (by omega), ek]
  by_cases hk1 : k < y.length - 1
  · have hle : (k : K) / (y.length - 1 : ℕ) ≤ ((k + 1 : ℕ) : K) / (y.length - 1 : ℕ) := by
      push_cast; gcongr; linarith
    rw [cubic1d_eq hn hl (piece_spline hn hl) _ hk1 le_rfl hle, (piece_spline hn hl).left k hk1]
  · obtain ⟨m, rfl⟩ : ∃ m, k = m + 1 := ⟨k - 1, by omega⟩
    have hle : (m : K) / (y.length - 1 : ℕ) ≤ ((m + 1 : ℕ) : K) / (y.length - 1 : ℕ) := by
      push_cast; gcongr; linarith
    rw [cubic1d_eq hn hl (piece_spline hn hl) _ (by omega) hle le_rfl, (piece_spline hn hl).right m (by omega)]

/-- The samples of a resampled interpolation. -/
theorem sampled {y : List K} (hy : 4 ≤ y.length) {size : Option ℕ} (hs : ∀ n, size = some n → 4 ≤ n) {P Q : ℕ → K[X]}
    (hP : Spec.CubicSpline (y.length - 1) (fun i => y.getD i 0) P) {z : ℕ → K}
    (hQ : Spec.CubicSpline (samples y size - 1) z Q)
    (hz : ∀ k, k < samples y size → ∀ i, i < y.length - 1 →
      (i : K) / (y.length - 1 : ℕ) ≤ (k : K) / (samples y size - 1 : ℕ) →
      (k : K) / (samples y size - 1 : ℕ) ≤ ((i + 1 : ℕ) : K) / (y.length - 1 : ℕ) →
      z k = (P i).eval ((k : K) / (samples y size - 1 : ℕ)))
    {j : ℕ} (hj : j < samples y size - 1) {t : K} (h0 : (j : K) / (samples y size - 1 : ℕ) ≤ t)
    (h1 : t ≤ ((j + 1 : ℕ) : K) / (samples y size - 1 : ℕ)) : interpolateCubic y size t = .ok ((Q j).eval t) := by
  have hm := samples_ge hy hs
  have hml : samples y size = samples y size - 1 + 1 := by omega
  have hl : y.length = y.length - 1 + 1 := by omega
  rw [interpolateCubic_eq hy hs]
  congr 1
  refine cubic1d_eq (by omega) (by rw [List.length_map, linspace_length]; exact hml) (spline_congr ?_ hQ) _ hj h0 h1
  intro k hk
  rw [map_linspace_getD _ (by omega)]
  have hm0 : (0 : K) < (samples y size - 1 : ℕ) := by exact_mod_cast (by omega : 0 < samples y size - 1)
  have ek : (knot (samples y size) k : K) = (k : K) / (samples y size - 1 : ℕ) := by
    conv_lhs => rw [hml]
    exact knot_succ _ _
  obtain ⟨i, hi, ha, hb⟩ := exists_segment (K := K) (n := y.length - 1) (by omega)
    (t := (k : K) / (samples y size - 1 : ℕ)) (div_nonneg (Nat.cast_nonneg _) hm0.le)
    ((div_le_one hm0).2 (by exact_mod_cast hk))
  rw [ek, cubic1d_eq (by omega) hl hP _ hi ha hb]
  exact hz k (by omega) i hi ha hb

/-- C110: with `size` samples, the interpolation is the spline through the samples of the spline through the data. -/
theorem C110_resampled (y : List K) (hy : 4 ≤ y.length) (n : ℕ) (hn : 4 ≤ n) : ∃ (P Q : ℕ → K[X]) (z : ℕ → K),
    Spec.CubicSpline (y.length - 1) (fun i => y.getD i 0) P ∧ Spec.CubicSpline (n - 1) z Q ∧
    (∀ k, k < n → ∀ i, i < y.length - 1 → (i : K) / (y.length - 1 : ℕ) ≤ (k : K) / (n - 1 : ℕ) →
      (k : K) / (n - 1 : ℕ) ≤ ((i + 1 : ℕ) : K) / (y.length - 1 : ℕ) → z k = (P i).eval ((k : K) / (n - 1 : ℕ))) ∧
    ∀ j, j < n - 1 → ∀ t : K, (j : K) / (n - 1 : ℕ) ≤ t → t ≤ ((j + 1 : ℕ) : K) / (n - 1 : ℕ) →
      interpolateCubic y (some n) t = .ok ((Q j).eval t) := by
  have hl : y.length = y.length - 1 + 1 := by omega
  have hnl : n = n - 1 + 1 := by omega
  have hP := piece_spline (y := y) (by omega) hl
  let w : List K := (linspace n).map (cubic1d y (y.getLastD 0))
  have hw : w.length = n - 1 + 1 := by rw [List.length_map, linspace_length]; exact hnl
  have hQ := piece_spline (y := w) (by omega) hw
  have hz : ∀ k, k < n → ∀ i, i < y.length - 1 → (i : K) / (y.length - 1 : ℕ) ≤ (k : K) / (n - 1 : ℕ) →
      (k : K) / (n - 1 : ℕ) ≤ ((i + 1 : ℕ) : K) / (y.length - 1 : ℕ) →
      w.getD k 0 = (piece y (y.length - 1) i).eval ((k : K) / (n - 1 : ℕ)) := by
    intro k hk i hi ha hb
    have ek : (knot n k : K) = (k : K) / (n - 1 : ℕ) := by
      conv_lhs => rw [hnl]
      exact knot_succ _ _
    rw [map_linspace_getD _ hk, ek]
    exact cubic1d_eq (by omega) hl hP _ hi ha hb
  exact ⟨_, _, _, hP, hQ, hz, fun j hj t h0 h1 =>
    sampled hy (size := some n) (by simpa using hn) hP hQ hz hj h0 h1⟩

/-- C110: polynomials of the third degree are reproduced exactly, whatever the number of samples. -/
theorem C110_polynomial (p : K[X]) (hp : p.natDegree ≤ 3) (y : List K) (hy : 4 ≤ y.length)
    (hd : ∀ i, i < y.length → y.getD i 0 = p.eval ((i : K) / (y.length - 1 : ℕ))) (size : Option ℕ)
    (hs : ∀ n, size = some n → 4 ≤ n) {t : K} (h0 : 0 ≤ t) (h1 : t ≤ 1) :
    interpolateCubic y size t = .ok (p.eval t) := by
  have hm := samples_ge hy hs
  have hsp : ∀ n : ℕ, Spec.CubicSpline n (fun i => p.eval ((i : K) / n)) (fun _ => p) := fun n =>
    ⟨fun _ _ => hp, fun _ _ => rfl, fun _ _ => rfl, fun _ _ => rfl, fun _ _ => rfl, rfl, rfl⟩
  obtain ⟨j, hj, ha, hb⟩ := exists_segment (K := K) (n := samples y size - 1) (by omega) h0 h1
  exact sampled hy hs (spline_congr (fun i hi => (hd i (by omega)).symm) (hsp (y.length - 1))) (hsp (samples y size - 1))
    (fun k hk i hi _ _ => rfl) hj ha hb

/-- C110: the data are reproduced at their own times when these are among the samples (in particular without
resampling). -/
theorem C110_data (y : List K) (hy : 4 ≤ y.length) (size : Option ℕ) (hs : ∀ n, size = some n → 4 ≤ n)
    (hd : ∀ n, size = some n → (y.length - 1) ∣ (n - 1)) {k : ℕ} (hk : k < y.length) :
    interpolateCubic y size ((k : K) / (y.length - 1 : ℕ)) = .ok y[k] := by
  have hl : y.length = y.length - 1 + 1 := by omega
  have hP := piece_spline (y := y) (by omega) hl
  have hyk : y.getD k 0 = y[k] := by simp [List.getD_eq_getElem?_getD, hk]
  have hn0 : (0 : K) < (y.length - 1 : ℕ) := by exact_mod_cast (by omega : 0 < y.length - 1)
  -- value of any spline of the data at a datum
  have hval : ∀ {P : ℕ → K[X]}, Spec.CubicSpline (y.length - 1) (fun i => y.getD i 0) P → ∀ i, i < y.length - 1 →
      (i : K) / (y.length - 1 : ℕ) ≤ (k : K) / (y.length - 1 : ℕ) →
      (k : K) / (y.length - 1 : ℕ) ≤ ((i + 1 : ℕ) : K) / (y.length - 1 : ℕ) →
      (P i).eval ((k : K) / (y.length - 1 : ℕ)) = y[k] := by
    intro P hP i hi ha hb
    have h1 : i ≤ k := by exact_mod_cast (div_le_div_iff_of_pos_right hn0).1 ha
    have h2 : k ≤ i + 1 := by exact_mod_cast (div_le_div_iff_of_pos_right hn0).1 hb
    rcases (by omega : k = i ∨ k = i + 1) with rfl | rfl
    · rw [hP.left _ hi, hyk]
    · rw [hP.right _ hi, hyk]
  have hk1 : (k : K) / (y.length - 1 : ℕ) ≤ 1 := (div_le_one hn0).2 (by exact_mod_cast (by omega : k ≤ y.length - 1))
  have hk0 : (0 : K) ≤ (k : K) / (y.length - 1 : ℕ) := div_nonneg (Nat.cast_nonneg _) hn0.le
  cases size with
  | none =>
    obtain ⟨P, hP, h⟩ := C110_spline y hy
    obtain ⟨i, hi, ha, hb⟩ := exists_segment (K := K) (n := y.length - 1) (by omega) hk0 hk1
    rw [h i hi _ ha hb, hval hP i hi ha hb]
  | some n =>
    have hn := hs n rfl
    obtain ⟨c, hc⟩ := hd n rfl
    obtain ⟨P, Q, z, hP, hQ, hz, h⟩ := C110_resampled y hy n hn
    have hc0 : 0 < c := by
      rcases Nat.eq_zero_or_pos c with rfl | h
      · omega
      · exact h
    have hm0 : (0 : K) < (n - 1 : ℕ) := by exact_mod_cast (by omega : 0 < n - 1)
    have hkc : k * c ≤ n - 1 := by
      rw [hc]; exact Nat.mul_le_mul_right _ (by omega)
    have et : (k : K) / (y.length - 1 : ℕ) = ((k * c : ℕ) : K) / (n - 1 : ℕ) := by
      have hcK : (c : K) ≠ 0 := by exact_mod_cast hc0.ne'
      rw [hc, Nat.cast_mul, Nat.cast_mul, mul_div_mul_right _ _ hcK]
    obtain ⟨i, hi, ha, hb⟩ := exists_segment (K := K) (n := y.length - 1) (by omega) hk0 hk1
    have hzk : z (k * c) = y[k] := by
      rw [hz (k * c) (by omega) i hi (by rw [← et]; exact ha) (by rw [← et]; exact hb), ← et]
      exact hval hP i hi ha hb
    rw [et]
    by_cases hlast : k * c < n - 1
    · have hle : ((k * c : ℕ) : K) / (n - 1 : ℕ) ≤ ((k * c + 1 : ℕ) : K) / (n - 1 : ℕ) := by
        gcongr; omega
      rw [h (k * c) hlast _ le_rfl hle, hQ.left _ hlast, hzk]
    · obtain ⟨m, hm⟩ : ∃ m, k * c = m + 1 := ⟨k * c - 1, by omega⟩
      rw [hm] at hzk ⊢
      have hle : (m : K) / (n - 1 : ℕ) ≤ ((m + 1 : ℕ) : K) / (n - 1 : ℕ) := by
        gcongr; omega
      rw [h m (by omega) _ hle le_rfl, hQ.right _ (by omega), hzk]

/-- C110: outside [0, 1] the value is the last datum. -/
theorem C110_outside (y : List K) (hy : 4 ≤ y.length) (size : Option ℕ) (hs : ∀ n, size = some n → 4 ≤ n) {t : K}
    (ht : t < 0 ∨ 1 < t) : interpolateCubic y size t = .ok y[y.length - 1] := by
  rw [interpolateCubic_eq hy hs]
  unfold cubic1d
  rw [if_pos ht, List.getLastD_eq_getLast?, List.getLast?_eq_getElem?]
  simp [(by omega : y.length - 1 < y.length)]

/-- C110: fewer than four data or four samples are refused, and an empty list has no last datum. -/
theorem C110_few (y : List K) (size : Option ℕ) (t : K) : (∃ e, interpolateCubic y size t = .error e) ↔
    y.length < 4 ∨ ∃ n, size = some n ∧ n < 4 := by
  constructor
  · rintro ⟨e, he⟩
    by_contra hcon
    push Not at hcon
    rw [interpolateCubic_eq hcon.1 (fun n hn => hcon.2 n hn)] at he
    cases he
  · intro h
    unfold interpolateCubic
    by_cases h0 : y = []
    · rw [if_pos h0]; exact ⟨_, rfl⟩
    · rw [if_neg h0]
      simp only
      by_cases h1 : y.length < 4
      · rw [if_pos h1]; exact ⟨_, rfl⟩
      · rw [if_neg h1]
        rcases h with h | ⟨n, rfl, hn⟩
        · exact absurd h h1
        · rw [if_pos (by simpa using hn)]; exact ⟨_, rfl⟩

/-- C110: the interpolation of a combination of two histories is the combination of the interpolations. -/
theorem C110_combination (y z : List K) (hy : 4 ≤ y.length) (hz : z.length = y.length) (a b : K) (size : Option ℕ)
    (hs : ∀ n, size = some n → 4 ≤ n) {t : K} (h0 : 0 ≤ t) (h1 : t ≤ 1) :
    ∃ u v, interpolateCubic y size t = .ok u ∧ interpolateCubic z size t = .ok v ∧
      interpolateCubic (List.zipWith (fun p q => a * p + b * q) y z) size t = .ok (a * u + b * v) := by
  have hm := samples_ge hy hs
  have hl : y.length = y.length - 1 + 1 := by omega
  have hlz : z.length = y.length - 1 + 1 := by omega
  set x := List.zipWith (fun p q => a * p + b * q) y z with hx
  have hxl : x.length = y.length := by rw [hx, List.length_zipWith, hz, min_self]
  have hsm : samples z size = samples y size ∧ samples x size = samples y size := by
    cases size <;> simp [samples, hz, hxl]
  -- one interpolation is linear
  have hone : ∀ {n : ℕ} (y z x : List K), 3 ≤ n → y.length = n + 1 → z.length = n + 1 → x.length = n + 1 →
      (∀ i, i ≤ n → x.getD i 0 = a * y.getD i 0 + b * z.getD i 0) → ∀ (f g h s : K), 0 ≤ s → s ≤ 1 →
      cubic1d x f s = a * cubic1d y g s + b * cubic1d z h s := by
    intro n y z x hn hy hz hx hxx f g h s hs0 hs1
    obtain ⟨i, hi, ha, hb⟩ := exists_segment (K := K) (n := n) (by omega) hs0 hs1
    have hP := piece_spline hn hy
    have hQ := piece_spline hn hz
    rw [cubic1d_eq hn hy hP g hi ha hb, cubic1d_eq hn hz hQ h hi ha hb,
      cubic1d_eq hn hx (spline_congr (fun k hk => (hxx k hk).symm) (spline_sub hP hQ a b)) f hi ha hb]
    simp
  have hml : samples y size = samples y size - 1 + 1 := by omega
  refine ⟨_, _, interpolateCubic_eq hy hs t, interpolateCubic_eq (by omega) hs t, ?_⟩
  rw [interpolateCubic_eq (by omega) hs t, hsm.1, hsm.2]
  congr 1
  refine hone (n := samples y size - 1) _ _ _ (by omega) (by rw [List.length_map, linspace_length]; exact hml)
    (by rw [List.length_map, linspace_length]; exact hml) (by rw [List.length_map, linspace_length]; exact hml) ?_ _ _ _ _ h0 h1
  intro i hi
  rw [map_linspace_getD _ (by omega), map_linspace_getD _ (by omega), map_linspace_getD _ (by omega)]
  have hk := knot_mem (K := K) (n := samples y size) (by omega) (k := i) (by omega)
  refine hone (n := y.length - 1) y z x (by omega) hl hlz (by omega) ?_ _ _ _ _ hk.1 hk.2
  intro k hk
  rw [hx]
  simp [List.getD_eq_getElem?_getD, (by omega : k < y.length), (by omega : k < z.length)]

/-- The spline run backwards. -/
theorem spline_reverse {n : ℕ} (hn : 3 ≤ n) {y : ℕ → K} {P : ℕ → K[X]} (h : Spec.CubicSpline n y P) :
    Spec.CubicSpline n (fun i => y (n - i)) (fun i => (P (n - 1 - i)).comp (1 - X)) := by
  have hn0 : (n : K) ≠ 0 := by exact_mod_cast (by omega : n ≠ 0)
  have et : ∀ i, i ≤ n → (1 : K) - (i : K) / n = ((n - i : ℕ) : K) / n := by
    intro i hi
    rw [Nat.cast_sub hi]; field_simp
  have hX : (1 - X : K[X]).natDegree ≤ 1 :=
    (natDegree_sub_le _ _).trans (max_le (by rw [natDegree_one]; omega) natDegree_X_le)
  refine ⟨?_, ?_, ?_, ?_, ?_, ?_, ?_⟩
  · intro i hi
    have h1 := h.degree (n - 1 - i) (by omega)
    calc _ ≤ (P (n - 1 - i)).natDegree * (1 - X : K[X]).natDegree := natDegree_comp_le
      _ ≤ 3 * 1 := Nat.mul_le_mul h1 hX
  · intro i hi
    rw [eval_comp, eval_sub, eval_one, eval_X, et i hi.le, (by omega : n - i = n - 1 - i + 1), h.right _ (by omega)]
  · intro i hi
    rw [eval_comp, eval_sub, eval_one, eval_X, et (i + 1) hi, (by omega : n - (i + 1) = n - 1 - i), h.left _ (by omega)]
  · intro i hi
    have := h.slope (n - 1 - (i + 1)) (by omega)
    rw [(by omega : n - 1 - (i + 1) + 1 = n - 1 - i)] at this
    simp only [derivative_comp, derivative_sub, derivative_one, derivative_X, eval_mul, eval_comp, eval_sub, eval_one,
      eval_X, eval_zero]
    rw [et (i + 1) hi.le, (by omega : n - (i + 1) = n - 1 - i), this]
  · intro i hi
    have := h.curve (n - 1 - (i + 1)) (by omega)
    rw [(by omega : n - 1 - (i + 1) + 1 = n - 1 - i)] at this
    simp only [derivative_comp, derivative_sub, derivative_one, derivative_X, derivative_mul, derivative_zero, eval_mul,
      eval_comp, eval_sub, eval_one, eval_X, eval_zero, eval_add]
    rw [et (i + 1) hi.le, (by omega : n - (i + 1) = n - 1 - i), this]
    ring
  · have := h.last
    simp only [Nat.sub_zero]
    rw [← this]
    rfl
  · have := h.first
    simp only [Nat.sub_self, (by omega : n - 1 - (n - 2) = 1)]
    rw [this]

/-- C110: a history run backwards is interpolated backwards. -/
theorem C110_backwards (y : List K) (hy : 4 ≤ y.length) (size : Option ℕ) (hs : ∀ n, size = some n → 4 ≤ n) {t : K}
    (h0 : 0 ≤ t) (h1 : t ≤ 1) : interpolateCubic y.reverse size t = interpolateCubic y size (1 - t) := by
  have hm := samples_ge hy hs
  have hl : y.length = y.length - 1 + 1 := by omega
  have hml : samples y size = samples y size - 1 + 1 := by omega
  have hsm : samples y.reverse size = samples y size := by cases size <;> simp [samples]
  have hone : ∀ {n : ℕ} (y x : List K), 3 ≤ n → y.length = n + 1 → x.length = n + 1 →
      (∀ i, i ≤ n → x.getD i 0 = y.getD (n - i) 0) → ∀ (f g s : K), 0 ≤ s → s ≤ 1 →
      cubic1d x f s = cubic1d y g (1 - s) := by
    intro n y x hn hy hx hxx f g s hs0 hs1
    have hn0 : (n : K) ≠ 0 := by exact_mod_cast (by omega : n ≠ 0)
    obtain ⟨i, hi, ha, hb⟩ := exists_segment (K := K) (n := n) (by omega) hs0 hs1
    have hP := piece_spline hn hy
    have ea : ((n - 1 - i + 1 : ℕ) : K) / n = 1 - (i : K) / n := by
      rw [(by omega : n - 1 - i + 1 = n - i), Nat.cast_sub hi.le]; field_simp
    have eb : ((n - 1 - i : ℕ) : K) / n = 1 - ((i + 1 : ℕ) : K) / n := by
      rw [(by omega : n - 1 - i = n - (i + 1)), Nat.cast_sub hi]; field_simp
    rw [cubic1d_eq hn hx (spline_congr (fun k hk => (hxx k hk).symm) (spline_reverse hn hP)) f hi ha hb,
      cubic1d_eq hn hy hP g (i := n - 1 - i) (by omega) (by rw [eb]; linarith) (by rw [ea]; linarith)]
    simp
  rw [interpolateCubic_eq (by simpa using hy) hs, interpolateCubic_eq hy hs, hsm]
  congr 1
  refine hone (n := samples y size - 1) _ _ (by omega) (by rw [List.length_map, linspace_length]; exact hml)
    (by rw [List.length_map, linspace_length]; exact hml) ?_ _ _ _ h0 h1
  intro i hi
  rw [map_linspace_getD _ (by omega), map_linspace_getD _ (by omega)]
  have hk := knot_mem (K := K) (n := samples y size) (by omega) (k := i) (by omega)
  have ek : (knot (samples y size) (samples y size - 1 - i) : K) = 1 - knot (samples y size) i := by
    have hm0 : ((samples y size - 1 : ℕ) : K) ≠ 0 := by exact_mod_cast (by omega : samples y size - 1 ≠ 0)
    rw [hml, knot_succ, knot_succ, Nat.add_sub_cancel, Nat.cast_sub hi]; field_simp
  rw [ek]
  refine hone (n := y.length - 1) y y.reverse (by omega) hl (by rw [List.length_reverse]; exact hl) ?_ _ _ _ hk.1 hk.2
  intro k hk
  simp [List.getD_eq_getElem?_getD, List.getElem?_reverse (by omega : k < y.length)]

/-- C110: straight lines are reproduced exactly by the kind `linear`, whatever the number of samples. -/
theorem C110_line (a b : K) (y : List K) (hy : 2 ≤ y.length)
    (hd : ∀ i, i < y.length → y.getD i 0 = a + b * ((i : K) / (y.length - 1 : ℕ))) (size : Option ℕ)
    (hs : ∀ n, size = some n → 2 ≤ n) {t : K} (h0 : 0 ≤ t) (h1 : t ≤ 1) : interpolate .linear y size t = a + b * t := by
  have hn : 2 ≤ samples y size := by
    cases size with
    | none => exact hy
    | some n => exact hs n rfl
  have hone : ∀ {n : ℕ} (y : List K), 2 ≤ n → y.length = n → (∀ i, i < n → y.getD i 0 = a + b * knot n i) → ∀ f s : K,
      0 ≤ s → s ≤ 1 → interp1d .linear (linspace n) y f s = a + b * s := by
    intro n y hn hy hyy f s hs0 hs1
    obtain ⟨i, hi, -, -, h⟩ := interp_linear hn hs0 hs1
    rw [h y f hy, hyy i (by omega), hyy (i + 1) hi]
    have : (knot n (i + 1) : K) - knot n i ≠ 0 := (sub_pos.2 ((knot_lt hn).2 (by omega))).ne'
    field_simp
    ring
  rw [interpolate_eq]
  refine hone _ hn (resample_length _ _) ?_ _ _ h0 h1
  intro i hi
  have hk := knot_mem (K := K) hn hi
  rw [resample_getD _ _ hi]
  refine hone y hy rfl ?_ _ _ hk.1 hk.2
  intro k hk
  rw [hd k hk]
  unfold knot
  rw [Nat.cast_sub (by omega), Nat.cast_one]

/-- The abscissae of the nodes in the main block of `interpolation.py` (lines 99-103): `np.linspace(0, 10, 1001)[::100]`. -/
def demoX : List K := (List.range 11).map (fun k : ℕ => 10 * (k * 100 : ℕ) / (1000 : K))

/-- C110: in the main block of `interpolation.py` (lines 99-112), the curve of abscissae is `10 t`, and the three
interpolations pass through the nodes whatever the function drawn. -/
theorem C110_demo (Y : List K) (hY : Y.length = 11) {t : K} (h0 : 0 ≤ t) (h1 : t ≤ 1) :
    interpolate .linear demoX (some 11) t = 10 * t ∧ ∀ k (hk : k < Y.length),
      interpolate .linear demoX (some 11) ((k : K) / 10) = k ∧ interpolate .previous Y (some 11) ((k : K) / 10) = Y[k] ∧
      interpolate .linear Y (some 11) ((k : K) / 10) = Y[k] ∧ interpolateCubic Y (some 11) ((k : K) / 10) = .ok Y[k] := by
  have hx : ∀ {s : K}, 0 ≤ s → s ≤ 1 → interpolate .linear demoX (some 11) s = 10 * s := by
    intro s hs0 hs1
    rw [C110_line 0 10 (demoX : List K) (by simp [demoX]) ?_ (some 11) (by simp) hs0 hs1, zero_add]
    intro i hi
    have hi' : i < 11 := by simpa [demoX] using hi
    simp only [demoX, List.length_map, List.length_range, List.getD_eq_getElem?_getD, List.getElem?_map,
      List.getElem?_range hi', Option.map_some, Option.getD_some]
    push_cast
    ring
  refine ⟨hx h0 h1, fun k hk => ⟨?_, ?_, ?_, ?_⟩⟩
  · rw [hx (by positivity) ((div_le_one (by norm_num)).2 (by exact_mod_cast (by omega : k ≤ 10)))]
    ring
  · have h := C51_data .previous Y (by omega) hk
    rw [hY] at h
    rw [← h]
    norm_num [interpolate, hY]
  · have h := C51_data .linear Y (by omega) hk
    rw [hY] at h
    rw [← h]
    norm_num [interpolate, hY]
  · have h := C110_data Y (by omega) (some 11) (by simp) (by rw [hY]; simp) hk
    rw [hY] at h
    exact_mod_cast h

/-- C110: unlike the other kinds (C52, C53), the spline of non-decreasing data can decrease and leave their range. -/
theorem C110_overshoot : interpolateCubic ([0, 0, 1, 1] : List ℚ) none (1 / 6) = .ok (-1 / 4) := by
  decide +kernel

/-- A cubic through five data, seen through seven samples; values between and outside the data. -/
example : interpolateCubic ([0, 1, 8, 27, 64] : List ℚ) (some 7) (1 / 3) = .ok (64 / 27) ∧
    interpolateCubic ([0, 1, 8, 27, 64] : List ℚ) (some 7) (-1) = .ok 64 ∧
    interpolateCubic ([0, 1, 8, 27, 64] : List ℚ) (some 7) 1 = .ok 64 := by decide +kernel

/-- The same from `C110_polynomial`: its hypotheses hold. -/
example : interpolateCubic ([0, 1, 8, 27, 64] : List ℚ) (some 7) (1 / 3) = .ok ((C 64 * X ^ 3 : ℚ[X]).eval (1 / 3)) := by
  refine C110_polynomial _ (by compute_degree) _ (by simp) ?_ (some 7) (by simp) (by norm_num) (by norm_num)
  intro i hi
  simp only [List.length_cons, List.length_nil] at hi
  interval_cases i <;> norm_num

/-- Data which are not those of a polynomial: the pieces differ, the data are kept. -/
example : interpolateCubic ([0, 1, 0, 1, 0] : List ℚ) none (1 / 8) = .ok (9 / 8) ∧
    interpolateCubic ([0, 1, 0, 1, 0] : List ℚ) none (3 / 8) = .ok (3 / 8) ∧
    interpolateCubic ([0, 1, 0, 1, 0] : List ℚ) none (3 / 4) = .ok 1 ∧
    interpolateCubic ([0, 1, 0, 1, 0] : List ℚ) (some 9) (3 / 4) = .ok 1 ∧
    interpolateCubic ([0, 1, 0, 1, 0].reverse : List ℚ) none (7 / 8) = .ok (9 / 8) := by decide +kernel

/-- Too few data or samples. -/
example : interpolateCubic ([0, 1, 8] : List ℚ) none (1 / 3) = .error .valueError ∧
    interpolateCubic ([] : List ℚ) none (1 / 3) = .error .indexError ∧
    interpolateCubic ([0, 1, 8, 27] : List ℚ) (some 3) (1 / 3) = .error .valueError := by decide +kernel

end Fibermat
