import Verif.Lemmas.Interp

/-! # C51-C53, C55: interpolation of histories -/

set_option linter.unusedSectionVars false

namespace Fibermat
variable {K : Type} [Field K] [LinearOrder K] [IsStrictOrderedRing K]

/-- Number of samples of `Interpolate(y, size)`. -/
def samples (y : List K) : Option ℕ → ℕ
  | some n => n
  | none => y.length

theorem interpolate_eq (kind : Kind) (y : List K) (size : Option ℕ) (t : K) : interpolate kind y size t =
    interp1d kind (linspace (samples y size))
      ((linspace (samples y size)).map (interp1d kind (linspace y.length) y (y.getLastD 0))) (y.getLastD 0) t := by
  cases size <;> rfl

theorem resample_getD (kind : Kind) (y : List K) {n k : ℕ} (hk : k < n) :
    ((linspace n : List K).map (interp1d kind (linspace y.length) y (y.getLastD 0))).getD k 0 =
      interp1d kind (linspace y.length) y (y.getLastD 0) (knot n k) := by
  simp [linspace, List.getD_eq_getElem?_getD, hk]

theorem resample_length (f : K → K) (n : ℕ) : ((linspace n : List K).map f).length = n := by
  simp [linspace]

/-- The value at a sample is the first interpolation. -/
theorem interpolate_knot (kind : Kind) (y : List K) (size : Option ℕ) (hn : 2 ≤ samples y size) {k : ℕ}
    (hk : k < samples y size) : interpolate kind y size (knot (samples y size) k) =
      interp1d kind (linspace y.length) y (y.getLastD 0) (knot (samples y size) k) := by
  rw [interpolate_eq, interp_knot kind hn hk _ _ (resample_length _ _), resample_getD kind y hk]

/-- C51: without resampling, the data are reproduced at their own times. -/
theorem C51_data (kind : Kind) (y : List K) (hy : 2 ≤ y.length) {k : ℕ} (hk : k < y.length) :
    interpolate kind y none ((k : K) / ((y.length : K) - 1)) = y[k] := by
  have h := interpolate_knot kind y none hy hk
  have h2 := interp_knot kind hy hk y (y.getLastD 0) rfl
  have h3 : y.getD k 0 = y[k] := by simp [List.getD_eq_getElem?_getD, hk]
  exact h.trans (h2.trans h3)

/-- C51: whatever the number of samples, the first and last data are kept. -/
theorem C51_ends (kind : Kind) (y : List K) (hy : 2 ≤ y.length) (size : Option ℕ) (hs : ∀ n, size = some n → 2 ≤ n) :
    interpolate kind y size 0 = y[0] ∧ interpolate kind y size 1 = y[y.length - 1] := by
  have hn : 2 ≤ samples y size := by
    cases size with
    | none => exact hy
    | some n => exact hs n rfl
  constructor
  · have h := interpolate_knot kind y size hn (k := 0) (by omega)
    have h2 := interp_knot kind hy (k := 0) (by omega) y (y.getLastD 0) rfl
    rw [knot_zero] at h h2
    rw [h, h2]
    simp [List.getD_eq_getElem?_getD, (by omega : 0 < y.length)]
  · have h := interpolate_knot kind y size hn (k := samples y size - 1) (by omega)
    have h2 := interp_knot kind hy (k := y.length - 1) (by omega) y (y.getLastD 0) rfl
    rw [knot_last hn] at h
    rw [knot_last hy] at h2
    rw [h, h2]
    simp [List.getD_eq_getElem?_getD, (by omega : y.length - 1 < y.length)]

/-- C52: between 0 and 1 the value is a convex combination of the data, with the same weights for all data. -/
theorem C52_weights (kind : Kind) {n : ℕ} (hn : 2 ≤ n) (size : Option ℕ) (hs : ∀ k, size = some k → 2 ≤ k) {t : K}
    (h0 : 0 ≤ t) (h1 : t ≤ 1) :
    ∃ w : ℕ → K, (∀ k, 0 ≤ w k) ∧ ∑ k ∈ Finset.range n, w k = 1 ∧ ∀ y : List K, y.length = n →
      interpolate kind y size t = ∑ k ∈ Finset.range n, w k * y.getD k 0 := by
  set N := size.getD n with hN
  have hN2 : 2 ≤ N := by
    cases size with
    | none => exact hn
    | some k => exact hs k rfl
  obtain ⟨v, hv0, hv1, hv⟩ := interp_weights kind hN2 h0 h1
  have hu : ∀ j, ∃ w : ℕ → K, (∀ k, 0 ≤ w k) ∧ (j < N → (∑ k ∈ Finset.range n, w k = 1 ∧ ∀ (y : List K) (fill : K),
      y.length = n → interp1d kind (linspace n) y fill (knot N j) = ∑ k ∈ Finset.range n, w k * y.getD k 0)) := by
    intro j
    by_cases hj : j < N
    · obtain ⟨w, h1, h2, h3⟩ := interp_weights kind hn (knot_mem (K := K) hN2 hj).1 (knot_mem hN2 hj).2
      exact ⟨w, h1, fun _ => ⟨h2, h3⟩⟩
    · exact ⟨fun _ => 0, by simp, fun h => absurd h hj⟩
  choose u hu0 hu1 using hu
  refine ⟨fun k => ∑ j ∈ Finset.range N, v j * u j k, ?_, ?_, ?_⟩
  · intro k
    exact Finset.sum_nonneg (fun j _ => mul_nonneg (hv0 j) (hu0 j k))
  · rw [Finset.sum_comm, ← hv1]
    apply Finset.sum_congr rfl
    intro j hj
    rw [← Finset.mul_sum, (hu1 j (Finset.mem_range.1 hj)).1, mul_one]
  · intro y hy
    have hNy : samples y size = N := by
      cases size with
      | none => simp [samples, hN, hy]
      | some k => simp [samples, hN]
    rw [interpolate_eq, hNy, hv _ _ (resample_length _ _)]
    rw [Finset.sum_congr rfl (g := fun j => ∑ k ∈ Finset.range n, v j * u j k * y.getD k 0), Finset.sum_comm]
    · apply Finset.sum_congr rfl
      intro k _
      rw [Finset.sum_mul]
    · intro j hj
      rw [resample_getD kind y (Finset.mem_range.1 hj), hy, (hu1 j (Finset.mem_range.1 hj)).2 y _ hy, Finset.mul_sum]
      exact Finset.sum_congr rfl (fun k _ => (mul_assoc _ _ _).symm)

/-- C52: outside [0, 1] the value is the last datum, on both sides. -/
theorem C52_outside (kind : Kind) (y : List K) (hy : 2 ≤ y.length) (size : Option ℕ) (hs : ∀ k, size = some k → 2 ≤ k)
    {t : K} (ht : t < 0 ∨ 1 < t) : interpolate kind y size t = y[y.length - 1] := by
  have hn : 2 ≤ samples y size := by
    cases size with
    | none => exact hy
    | some n => exact hs n rfl
  rw [interpolate_eq]
  unfold interp1d
  rw [linspace_head hn, linspace_last hn, if_pos ht]
  rw [List.getLastD_eq_getLast?, List.getLast?_eq_getElem?]
  simp [(by omega : y.length - 1 < y.length)]

/-- C53: interpolated non-decreasing data are non-decreasing. -/
theorem C53_monotone (kind : Kind) (y : List K) (hy : 2 ≤ y.length) (size : Option ℕ) (hs : ∀ k, size = some k → 2 ≤ k)
    (hm : y.Pairwise (· ≤ ·)) {t t' : K} (h0 : 0 ≤ t) (htt : t ≤ t') (h1 : t' ≤ 1) :
    interpolate kind y size t ≤ interpolate kind y size t' := by
  have hn : 2 ≤ samples y size := by
    cases size with
    | none => exact hy
    | some n => exact hs n rfl
  have hm' : ∀ a b, a ≤ b → b < y.length → y.getD a 0 ≤ y.getD b 0 := by
    intro a b hab hb
    rcases eq_or_lt_of_le hab with rfl | hlt
    · exact le_rfl
    · have := List.pairwise_iff_getElem.1 hm a b (by omega) hb hlt
      simpa [List.getD_eq_getElem?_getD, hb, (by omega : a < y.length)] using this
  rw [interpolate_eq, interpolate_eq]
  apply interp_mono kind hn _ _ (resample_length _ _) _ h0 htt h1
  intro a b hab hb
  rw [resample_getD kind y (by omega), resample_getD kind y hb]
  exact interp_mono kind hy y _ rfl hm' (knot_mem hn (by omega)).1 ((knot_le hn).2 hab) (knot_mem hn hb).2

/-- Interpolation of opposite data. -/
theorem interpolate_neg (kind : Kind) (y : List K) (hy : 2 ≤ y.length) (size : Option ℕ) (hs : ∀ k, size = some k → 2 ≤ k)
    {t : K} (h0 : 0 ≤ t) (h1 : t ≤ 1) : interpolate kind (y.map (fun a => -a)) size t = - interpolate kind y size t := by
  obtain ⟨w, -, -, hw⟩ := C52_weights kind hy size hs h0 h1
  rw [hw y rfl, hw (y.map (fun a => -a)) (by simp), ← Finset.sum_neg_distrib]
  apply Finset.sum_congr rfl
  intro k hk
  simp [List.getD_eq_getElem?_getD, Finset.mem_range.1 hk]

/-- C53: interpolated non-increasing data are non-increasing. -/
theorem C53_antitone (kind : Kind) (y : List K) (hy : 2 ≤ y.length) (size : Option ℕ) (hs : ∀ k, size = some k → 2 ≤ k)
    (hm : y.Pairwise (· ≥ ·)) {t t' : K} (h0 : 0 ≤ t) (htt : t ≤ t') (h1 : t' ≤ 1) :
    interpolate kind y size t' ≤ interpolate kind y size t := by
  have h := C53_monotone kind (y.map (fun a => -a)) (by simpa using hy) size hs
    (by rw [List.pairwise_map]; exact hm.imp (fun h => neg_le_neg h)) h0 htt h1
  rw [interpolate_neg kind y hy size hs h0 (htt.trans h1), interpolate_neg kind y hy size hs (h0.trans htt) h1] at h
  exact neg_le_neg_iff.1 h

/-- C55: with `kind='previous'`, the value at `t` is the datum of the last step not after the last sample not after `t`. -/
theorem C55_previous (y : List K) (hy : 2 ≤ y.length) (size : Option ℕ) (hs : ∀ k, size = some k → 2 ≤ k) {t : K}
    (h0 : 0 ≤ t) (h1 : t ≤ 1) :
    ∃ (j k : ℕ) (hk : k < y.length), j < size.getD y.length ∧
      (j : K) / ((size.getD y.length : ℕ) - 1) ≤ t ∧
      (∀ i : ℕ, i < size.getD y.length → (i : K) / ((size.getD y.length : ℕ) - 1) ≤ t → i ≤ j) ∧
      (k : K) / (y.length - 1) ≤ (j : K) / ((size.getD y.length : ℕ) - 1) ∧
      (∀ i : ℕ, i < y.length → (i : K) / (y.length - 1) ≤ (j : K) / ((size.getD y.length : ℕ) - 1) → i ≤ k) ∧
      interpolate .previous y size t = y[k] := by
  have hn : 2 ≤ size.getD y.length := by
    cases size with
    | none => exact hy
    | some n => exact hs n rfl
  have hN : samples y size = size.getD y.length := by cases size <;> rfl
  obtain ⟨j, hj, ha, hb, he⟩ := interp_previous hn h0 h1
  obtain ⟨k, hk, ha', hb', he'⟩ := interp_previous hy (knot_mem (K := K) hn hj).1 (knot_mem hn hj).2
  refine ⟨j, k, hk, hj, ha, hb, ha', hb', ?_⟩
  rw [interpolate_eq, hN, he, resample_getD _ _ hj, he']
  simp [List.getD_eq_getElem?_getD, hk]

/-- C55: without resampling, the value at `t` is the datum of the last step not after `t`. -/
theorem C55_last_step (y : List K) (hy : 2 ≤ y.length) {t : K} (h0 : 0 ≤ t) (h1 : t ≤ 1) :
    ∃ (k : ℕ) (hk : k < y.length), (k : K) / (y.length - 1) ≤ t ∧
      (∀ i : ℕ, i < y.length → (i : K) / (y.length - 1) ≤ t → i ≤ k) ∧ interpolate .previous y none t = y[k] := by
  obtain ⟨j, k, hk, hj, ha, hb, ha', hb', he⟩ := C55_previous y hy none (by simp) h0 h1
  have h2 : k ≤ j := (knot_le (K := K) hy).1 ha'
  have h3 : j ≤ k := hb' j hj le_rfl
  have h4 : k = j := le_antisymm h2 h3
  subst h4
  exact ⟨k, hk, ha, hb, he⟩

/-! ### Non-vacuity -/

/-- C51-C53: four data resampled at three times. -/
example : interpolate .linear [(0 : ℚ), 1, 4, 9] (some 3) (1 / 4) = 5 / 4 := by decide +kernel
example : interpolate .linear [(0 : ℚ), 1, 4, 9] none (1 / 3) = 1 := by decide +kernel
example : interpolate .linear [(0 : ℚ), 1, 4, 9] (some 3) (-1) = 9 := by decide +kernel
/-- C55: four steps. -/
example : interpolate .previous [(0 : ℚ), 1, 4, 9] none (1 / 2) = 1 := by decide +kernel
example : interpolate .previous [(0 : ℚ), 1, 4, 9] (some 3) (3 / 4) = 1 := by decide +kernel
example : ([0, 1, 4, 9] : List ℚ).Pairwise (· ≤ ·) := by decide +kernel

end Fibermat
