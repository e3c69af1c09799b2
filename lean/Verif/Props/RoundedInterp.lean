import Verif.Lemmas.RoundedInterp
import Verif.Props.Interp

/-! # C95: interpolated results as computed -/

set_option linter.unusedSectionVars false

namespace Fibermat
open Spec
variable {K : Type} [Field K] [LinearOrder K] [IsStrictOrderedRing K] {fl : K → K} {u : K}

theorem getD_map_fin {y : List K} {k : ℕ} (hk : k < y.length) : (y.map Cell.fin).getD k .nan = .fin (y.getD k 0) := by
  simp [List.getD_eq_getElem?_getD, hk]

theorem getD_abs {y : List K} {k : ℕ} (hk : k < y.length) {M : K} (h : ∀ v ∈ y, |v| ≤ M) : |y.getD k 0| ≤ M := by
  rw [List.getD_eq_getElem?_getD, List.getElem?_eq_getElem hk]
  exact h _ (List.getElem_mem hk)

/-- One interpolation. -/
theorem interp1dR_near (hr : Rounds fl u) (hu : u ≤ 1 / 100) {n : ℕ} {kn : ℕ → K} (h : Knots n kn) {t : K} (h0 : 0 ≤ t) (h1 : t ≤ 1) :
    ∃ w : ℕ → K, (∀ k, 0 ≤ w k) ∧ ∑ k ∈ Finset.range n, w k = 1 ∧ (∀ k, k < n → t = kn k → w k = 1) ∧
      ∀ (rows : Bool) (y : List K) (fill : Cell K) (M : K), y.length = n → (∀ v ∈ y, |v| ≤ M) →
        ∃ r, interp1dR fl rows .linear ((List.range n).map kn) (y.map Cell.fin) fill t = .fin r ∧
          |r - ∑ k ∈ Finset.range n, w k * y.getD k 0| ≤ 14 * u * M := by
  obtain ⟨i, hi, ha, hb, hlow, hseg⟩ := h.segment fl h0 h1
  have hlt : kn i < kn (i + 1) := h.mono _ _ (by omega) hi
  have hD : 0 < kn (i + 1) - kn i := by linarith
  set lam := (t - kn i) / (kn (i + 1) - kn i) with hlam
  have hr0 : 0 ≤ lam := div_nonneg (by linarith) hD.le
  have hr1 : lam ≤ 1 := by rw [hlam, div_le_one hD]; linarith
  refine ⟨fun k => (if k = i then 1 - lam else 0) + (if k = i + 1 then lam else 0), ?_, ?_, ?_, ?_⟩
  · intro k
    apply add_nonneg <;> split_ifs <;> linarith
  · rw [Finset.sum_add_distrib, Finset.sum_ite_eq', Finset.sum_ite_eq']
    rw [if_pos (Finset.mem_range.2 (by omega)), if_pos (Finset.mem_range.2 hi)]
    ring
  · intro k hk e
    have h2 : i ≤ k := by
      by_contra hc
      have := h.mono k i (by omega) (by omega)
      rw [← e] at this
      linarith
    have h3 : k ≤ i + 1 := by
      by_contra hc
      have := h.mono (i + 1) k (by omega) hk
      rw [← e] at this
      linarith
    rcases (by omega : k = i ∨ k = i + 1) with rfl | rfl
    · have : lam = 0 := by rw [hlam, e]; simp
      simp [this]
    · have : lam = 1 := by rw [hlam, e]; exact div_self hD.ne'
      simp [this]
  · intro rows y fill M hy hM
    have hin : ¬ (t < ((List.range n).map kn).headD 0 ∨ ((List.range n).map kn).getLastD 0 < t) := by
      rw [h.headD, h.getLastD]; push Not; exact ⟨h0, h1⟩
    have hsum : ∑ k ∈ Finset.range n, ((if k = i then 1 - lam else 0) + (if k = i + 1 then lam else 0)) * y.getD k 0 =
        (1 - lam) * y.getD i 0 + lam * y.getD (i + 1) 0 := by
      simp only [add_mul, ite_mul, zero_mul]
      rw [Finset.sum_add_distrib, Finset.sum_ite_eq', Finset.sum_ite_eq']
      rw [if_pos (Finset.mem_range.2 (by omega)), if_pos (Finset.mem_range.2 hi)]
    have hMi := getD_abs (by omega : i < y.length) hM
    have hMj := getD_abs (by omega : i + 1 < y.length) hM
    have hM0 : 0 ≤ M := (abs_nonneg _).trans hMi
    have hu0 := hr.u_nonneg
    have hpos : 0 ≤ 14 * u * M := by positivity
    obtain ⟨c1, c2, c3, c4⟩ := hseg (y.map Cell.fin)
    rw [getD_map_fin (by omega), getD_map_fin (by omega)] at c1 c4
    rw [getD_map_fin (by omega)] at c2 c3
    obtain ⟨r, e1, e2⟩ := segmentR_near hr hu hlt ha hb hMi hMj
    unfold interp1dR
    rw [if_neg hin]
    simp only [hsum]
    cases rows with
    | true =>
      simp only [if_true]
      exact ⟨r, c1.trans e1, e2⟩
    | false =>
      simp only [Bool.false_eq_true, if_false]
      by_cases hA : t = kn i
      · refine ⟨_, c2 hA, ?_⟩
        have : lam = 0 := by rw [hlam, hA]; simp
        rw [this]; simpa using hpos
      · by_cases hB : t = kn (i + 1)
        · refine ⟨_, c3 hB, ?_⟩
          have : lam = 1 := by rw [hlam, hB]; exact div_self hD.ne'
          rw [this]; simpa using hpos
        · refine ⟨r, ?_, e2⟩
          rw [c4 (lt_of_le_of_ne ha (Ne.symm hA)) (lt_of_le_of_ne hb hB)]
          unfold Knots.between
          rw [e1]

/-- Number of samples of `Interpolate(y, size)` for `n` data. -/
def sampleCount (n : ℕ) : Option ℕ → ℕ
  | some k => k
  | none => n

theorem interpolateR_eq (fl : K → K) (rows : Bool) (kind : Kind) (y : List (Cell K)) (size : Option ℕ) (t : K) :
    interpolateR fl rows kind y size t = interp1dR fl rows kind (linspaceR fl (sampleCount y.length size))
      ((linspaceR fl (sampleCount y.length size)).map (interp1dR fl rows kind (linspaceR fl y.length) y (y.getLastD .nan))) (y.getLastD .nan) t := by
  cases size <;> rfl

/-- C95: between 0 and 1 the computed value is, up to 30 roundings, a convex combination of the data, with weights that depend neither on
the data nor on their being stored as rows or as a vector; the weights select the first datum at 0 and the last one at 1. -/
theorem C95_weights (hr : Rounds fl u) (hu : u ≤ 1 / 100) {n : ℕ} (hn : 2 ≤ n) (size : Option ℕ) (hs : ∀ k, size = some k → 2 ≤ k)
    (hnu : 4 * n * u ≤ 1) (hsu : ∀ k, size = some k → 4 * k * u ≤ 1) {t : K} (h0 : 0 ≤ t) (h1 : t ≤ 1) :
    ∃ w : ℕ → K, (∀ k, 0 ≤ w k) ∧ ∑ k ∈ Finset.range n, w k = 1 ∧ (t = 0 → w 0 = 1) ∧ (t = 1 → w (n - 1) = 1) ∧
      ∀ (rows : Bool) (y : List K) (M : K), y.length = n → (∀ v ∈ y, |v| ≤ M) →
        ∃ r, interpolateR fl rows .linear (y.map Cell.fin) size t = .fin r ∧ |r - ∑ k ∈ Finset.range n, w k * y.getD k 0| ≤ 30 * u * M := by
  have hu0 := hr.u_nonneg
  obtain ⟨kn, hk, ek⟩ := linspaceR_knots hr hn hnu
  set N := sampleCount n size with hN
  obtain ⟨hN2, hNu⟩ : 2 ≤ N ∧ 4 * (N : K) * u ≤ 1 := by
    cases size with
    | none => exact ⟨hn, hnu⟩
    | some k => exact ⟨hs k rfl, hsu k rfl⟩
  obtain ⟨kN, hK, eK⟩ := linspaceR_knots hr hN2 hNu
  obtain ⟨v, hv0, hv1, hv2, hv⟩ := interp1dR_near hr hu hK h0 h1
  have hin : ∀ j, ∃ w : ℕ → K, (∀ k, 0 ≤ w k) ∧ (j < N → (∑ k ∈ Finset.range n, w k = 1 ∧ (∀ k, k < n → kN j = kn k → w k = 1) ∧
      ∀ (rows : Bool) (y : List K) (fill : Cell K) (M : K), y.length = n → (∀ v ∈ y, |v| ≤ M) →
        ∃ r, interp1dR fl rows .linear ((List.range n).map kn) (y.map Cell.fin) fill (kN j) = .fin r ∧
          |r - ∑ k ∈ Finset.range n, w k * y.getD k 0| ≤ 14 * u * M)) := by
    intro j
    by_cases hj : j < N
    · obtain ⟨w, a, b, c, d⟩ := interp1dR_near hr hu hk (hK.mem hj).1 (hK.mem hj).2
      exact ⟨w, a, fun _ => ⟨b, c, d⟩⟩
    · exact ⟨fun _ => 0, by simp, fun h => absurd h hj⟩
  choose w hw0 hw using hin
  have hone : ∀ j k, j < N → k < n → t = kN j → kN j = kn k → (fun k => ∑ j ∈ Finset.range N, v j * w j k) k = 1 := by
    intro j k hj hkn e1 e2
    have a := hv2 j hj e1
    have b := (hw j hj).2.1 k hkn e2
    have hz : ∀ i ∈ Finset.range N, i ≠ j → v i = 0 := by
      intro i hi hij
      have h3 := Finset.add_sum_erase (Finset.range N) v (Finset.mem_range.2 hj)
      rw [hv1, a] at h3
      have h4 : ∑ x ∈ (Finset.range N).erase j, v x = 0 := by linarith
      rw [Finset.sum_eq_zero_iff_of_nonneg (fun x _ => hv0 x)] at h4
      exact h4 i (Finset.mem_erase.2 ⟨hij, hi⟩)
    show ∑ i ∈ Finset.range N, v i * w i k = 1
    rw [Finset.sum_eq_single j (fun i hi hij => by rw [hz i hi hij, zero_mul]) (fun h => absurd (Finset.mem_range.2 hj) h), a, b, one_mul]
  refine ⟨fun k => ∑ j ∈ Finset.range N, v j * w j k, ?_, ?_, ?_, ?_, ?_⟩
  · intro k
    exact Finset.sum_nonneg (fun j _ => mul_nonneg (hv0 j) (hw0 j k))
  · rw [Finset.sum_comm, ← hv1]
    apply Finset.sum_congr rfl
    intro j hj
    rw [← Finset.mul_sum, (hw j (Finset.mem_range.1 hj)).1, mul_one]
  · intro e
    exact hone 0 0 (by omega) (by omega) (by rw [e, hK.zero]) (by rw [hK.zero, hk.zero])
  · intro e
    exact hone (N - 1) (n - 1) (by omega) (by omega) (by rw [e, hK.last]) (by rw [hK.last, hk.last])
  · intro rows y M hy hM
    have hM0 : 0 ≤ M := (abs_nonneg _).trans (getD_abs (by omega : 0 < y.length) hM)
    have hval : ∀ j, ∃ r, j < N → interp1dR fl rows .linear ((List.range n).map kn) (y.map Cell.fin) ((y.map Cell.fin).getLastD .nan) (kN j) = .fin r ∧
        |r - ∑ k ∈ Finset.range n, w j k * y.getD k 0| ≤ 14 * u * M := by
      intro j
      by_cases hj : j < N
      · obtain ⟨r, a, b⟩ := (hw j hj).2.2 rows y ((y.map Cell.fin).getLastD .nan) M hy hM
        exact ⟨r, fun _ => ⟨a, b⟩⟩
      · exact ⟨0, fun h => absurd h hj⟩
    choose r hr2 using hval
    have hbound : ∀ j, j < N → |∑ k ∈ Finset.range n, w j k * y.getD k 0| ≤ M := by
      intro j hj
      refine (Finset.abs_sum_le_sum_abs _ _).trans ?_
      calc ∑ k ∈ Finset.range n, |w j k * y.getD k 0| ≤ ∑ k ∈ Finset.range n, w j k * M := by
            apply Finset.sum_le_sum
            intro k hk'
            rw [abs_mul, abs_of_nonneg (hw0 j k)]
            exact mul_le_mul_of_nonneg_left (getD_abs (by rw [hy]; exact Finset.mem_range.1 hk') hM) (hw0 j k)
        _ = M := by rw [← Finset.sum_mul, (hw j hj).1, one_mul]
    have hlist : (linspaceR fl N).map (interp1dR fl rows .linear (linspaceR fl (y.map Cell.fin).length) (y.map Cell.fin)
        ((y.map Cell.fin).getLastD .nan)) = ((List.range N).map r).map Cell.fin := by
      rw [eK, List.length_map, hy, ek, List.map_map, List.map_map]
      apply List.map_congr_left
      intro j hj
      exact (hr2 j (List.mem_range.1 hj)).1
    have hrM : ∀ x ∈ (List.range N).map r, |x| ≤ (1 + 14 * u) * M := by
      intro x hx
      obtain ⟨j, hj, rfl⟩ := List.mem_map.1 hx
      have a := (hr2 j (List.mem_range.1 hj)).2
      have b := hbound j (List.mem_range.1 hj)
      have : r j = (r j - ∑ k ∈ Finset.range n, w j k * y.getD k 0) + ∑ k ∈ Finset.range n, w j k * y.getD k 0 := by ring
      rw [this]
      refine (abs_add_le _ _).trans ?_
      linarith
    obtain ⟨s, e1, e2⟩ := hv rows ((List.range N).map r) ((y.map Cell.fin).getLastD .nan) _ (by simp) hrM
    refine ⟨s, ?_, ?_⟩
    · have hlen : sampleCount (y.map Cell.fin).length size = N := by rw [List.length_map, hy]
      rw [interpolateR_eq, hlen, hlist, eK]
      exact e1
    · have hsplit : s - ∑ k ∈ Finset.range n, (∑ j ∈ Finset.range N, v j * w j k) * y.getD k 0 =
          (s - ∑ j ∈ Finset.range N, v j * ((List.range N).map r).getD j 0) +
            ∑ j ∈ Finset.range N, v j * (r j - ∑ k ∈ Finset.range n, w j k * y.getD k 0) := by
        have a1 : ∑ j ∈ Finset.range N, v j * ((List.range N).map r).getD j 0 = ∑ j ∈ Finset.range N, v j * r j := by
          apply Finset.sum_congr rfl
          intro j hj
          simp [List.getD_eq_getElem?_getD, Finset.mem_range.1 hj]
        have a2 : ∑ k ∈ Finset.range n, (∑ j ∈ Finset.range N, v j * w j k) * y.getD k 0 =
            ∑ j ∈ Finset.range N, v j * ∑ k ∈ Finset.range n, w j k * y.getD k 0 := by
          simp only [Finset.sum_mul, Finset.mul_sum]
          rw [Finset.sum_comm]
          exact Finset.sum_congr rfl (fun j _ => Finset.sum_congr rfl (fun k _ => by ring))
        rw [a1, a2]
        simp only [mul_sub, Finset.sum_sub_distrib]
        ring
      have h3 : |∑ j ∈ Finset.range N, v j * (r j - ∑ k ∈ Finset.range n, w j k * y.getD k 0)| ≤ 14 * u * M := by
        refine (Finset.abs_sum_le_sum_abs _ _).trans ?_
        calc ∑ j ∈ Finset.range N, |v j * (r j - ∑ k ∈ Finset.range n, w j k * y.getD k 0)| ≤ ∑ j ∈ Finset.range N, v j * (14 * u * M) := by
              apply Finset.sum_le_sum
              intro j hj
              rw [abs_mul, abs_of_nonneg (hv0 j)]
              exact mul_le_mul_of_nonneg_left (hr2 j (Finset.mem_range.1 hj)).2 (hv0 j)
          _ = 14 * u * M := by rw [← Finset.sum_mul, hv1, one_mul]
      rw [hsplit]
      refine (abs_add_le _ _).trans ?_
      have h4 : 14 * u * ((1 + 14 * u) * M) ≤ 16 * u * M := by
        have : 14 * (1 + 14 * u) ≤ 16 := by linarith
        have := mul_le_mul_of_nonneg_right this (by positivity : 0 ≤ u * M)
        linarith
      linarith

end Fibermat
