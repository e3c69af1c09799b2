import Verif.Lemmas.Chance

/-! # Areas used for crossings in an open box -/

namespace Fibermat
open MeasureTheory Set

/-- The unit square. -/
abbrev unitSquare : Set (ℝ × ℝ) := Ico (0 : ℝ) 1 ×ˢ Ico (0 : ℝ) 1

theorem overlap_lower {v c : ℝ} (hv : |v| ≤ c) : ENNReal.ofReal (1 - c) ≤ volume {b : ℝ | v + b ∈ Ico (0 : ℝ) 1 ∧ b ∈ Ico (0 : ℝ) 1} := by
  rw [abs_le] at hv
  have h : Ico (max 0 (-v)) (min 1 (1 - v)) ⊆ {b : ℝ | v + b ∈ Ico (0 : ℝ) 1 ∧ b ∈ Ico (0 : ℝ) 1} := by
    rintro b ⟨h1, h2⟩
    rw [max_le_iff] at h1
    rw [lt_min_iff] at h2
    exact ⟨⟨by linarith, by linarith⟩, h1.1, h2.1⟩
  refine le_trans ?_ (measure_mono h)
  rw [Real.volume_Ico]
  refine ENNReal.ofReal_le_ofReal ?_
  rcases le_total 0 v with h0 | h0
  · rw [max_eq_left (by linarith), min_eq_right (by linarith)]
    linarith
  · rw [max_eq_right (by linarith), min_eq_left (by linarith)]
    linarith

/-- Two random points of the unit square differ by a vector of `A` with a probability of about the area of `A`. -/
theorem difference_bounds {A : Set (ℝ × ℝ)} (hA : MeasurableSet A) {c : ℝ} (hc : ∀ v ∈ A, |v.1| ≤ c ∧ |v.2| ≤ c) (h1 : c ≤ 1) :
    ENNReal.ofReal ((1 - c) ^ 2) * volume A ≤ ((volume.restrict unitSquare).prod (volume.restrict unitSquare)) {x | x.1 - x.2 ∈ A} ∧
    ((volume.restrict unitSquare).prod (volume.restrict unitSquare)) {x | x.1 - x.2 ∈ A} ≤ volume A := by
  have hQ : MeasurableSet unitSquare := measurableSet_Ico.prod measurableSet_Ico
  have hS : MeasurableSet {x : (ℝ × ℝ) × (ℝ × ℝ) | x.1 - x.2 ∈ A} := hA.preimage (by fun_prop)
  let M : Set ((ℝ × ℝ) × (ℝ × ℝ)) := {x | x.1 - x.2 ∈ A ∧ x.1 ∈ unitSquare ∧ x.2 ∈ unitSquare}
  let M' : Set ((ℝ × ℝ) × (ℝ × ℝ)) := {x | x.1 ∈ A ∧ x.1 + x.2 ∈ unitSquare ∧ x.2 ∈ unitSquare}
  have hM : MeasurableSet M := hS.inter ((hQ.preimage measurable_fst).inter (hQ.preimage measurable_snd))
  have hM' : MeasurableSet M' := (hA.preimage measurable_fst).inter ((hQ.preimage (by fun_prop)).inter (hQ.preimage measurable_snd))
  have e0 : ((volume.restrict unitSquare).prod (volume.restrict unitSquare)) {x | x.1 - x.2 ∈ A} =
      ((volume : Measure (ℝ × ℝ)).prod (volume : Measure (ℝ × ℝ))) M := by
    rw [Measure.prod_restrict, Measure.restrict_apply hS]
    rfl
  have e1 : ((volume : Measure (ℝ × ℝ)).prod (volume : Measure (ℝ × ℝ))) M = ((volume : Measure (ℝ × ℝ)).prod (volume : Measure (ℝ × ℝ))) M' := by
    rw [Measure.prod_apply_symm hM, Measure.prod_apply_symm hM']
    refine lintegral_congr fun b => ?_
    rw [← measure_preimage_add_right volume (-b) ((fun v => (v, b)) ⁻¹' M')]
    congr 1
    ext w
    simp only [M, M', mem_preimage, mem_ofPred_eq]
    rw [← sub_eq_add_neg, sub_add_cancel]
  rw [e0, e1, Measure.prod_apply hM']
  have e2 : ∀ v ∈ A, Prod.mk v ⁻¹' M' = {b : ℝ | v.1 + b ∈ Ico (0 : ℝ) 1 ∧ b ∈ Ico (0 : ℝ) 1} ×ˢ {b : ℝ | v.2 + b ∈ Ico (0 : ℝ) 1 ∧ b ∈ Ico (0 : ℝ) 1} := by
    intro v hv
    ext b
    simp only [M', mem_preimage, mem_ofPred_eq, mem_prod, Prod.fst_add, Prod.snd_add, hv, true_and]
    tauto
  have e3 : ∀ v ∉ A, Prod.mk v ⁻¹' M' = ∅ := by
    intro v hv
    ext b
    simp [M', hv]
  have e4 : ∫⁻ v, volume (Prod.mk v ⁻¹' M') = ∫⁻ v in A, volume (Prod.mk v ⁻¹' M') := by
    rw [← lintegral_indicator hA]
    refine lintegral_congr fun v => ?_
    by_cases hv : v ∈ A
    · rw [indicator_of_mem hv]
    · rw [indicator_of_notMem hv, e3 v hv, measure_empty]
  rw [e4]
  constructor
  · rw [← setLIntegral_const]
    refine setLIntegral_mono' hA fun v hv => ?_
    rw [e2 v hv, Measure.volume_eq_prod, Measure.prod_prod, pow_two, ENNReal.ofReal_mul (by linarith)]
    exact mul_le_mul' (overlap_lower (hc v hv).1) (overlap_lower (hc v hv).2)
  · have : ∫⁻ v in A, volume (Prod.mk v ⁻¹' M') ≤ ∫⁻ _ in A, 1 := by
      refine setLIntegral_mono' hA fun v _ => ?_
      have h2 : Prod.mk v ⁻¹' M' ⊆ unitSquare := fun b hb => hb.2.2
      refine (measure_mono h2).trans ?_
      rw [Measure.volume_eq_prod, Measure.prod_prod]
      simp
    simpa using this

/-- Area of the differences of places, in units of the box, for which two fibers cross. -/
theorem volume_open {l u v u' v' S : ℝ} (hl : 0 ≤ l) (hS : 0 < S) :
    volume {w : ℝ × ℝ | |S * w.1 * v' - S * w.2 * u'| < l / 2 * |u * v' - v * u'| ∧ |S * w.1 * v - S * w.2 * u| < l / 2 * |u * v' - v * u'|} =
      ENNReal.ofReal (l ^ 2 / S ^ 2 * |u * v' - v * u'|) := by
  have mA : ∀ w : ℝ × ℝ, w ∈ {w : ℝ × ℝ | |S * w.1 * v' - S * w.2 * u'| < l / 2 * |u * v' - v * u'| ∧
      |S * w.1 * v - S * w.2 * u| < l / 2 * |u * v' - v * u'|} ↔ u * v' - v * u' ≠ 0 ∧ (S * w.1, S * w.2) ∈ parallelogram l l u v u' v' :=
    fun w => mem_parallelogram (w := (S * w.1, S * w.2))
  by_cases hD : u * v' - v * u' = 0
  · have : {w : ℝ × ℝ | |S * w.1 * v' - S * w.2 * u'| < l / 2 * |u * v' - v * u'| ∧
      |S * w.1 * v - S * w.2 * u| < l / 2 * |u * v' - v * u'|} = ∅ := by
      ext w
      rw [mA]
      simp [hD]
    rw [this, hD]
    simp
  · have : {w : ℝ × ℝ | |S * w.1 * v' - S * w.2 * u'| < l / 2 * |u * v' - v * u'| ∧
      |S * w.1 * v - S * w.2 * u| < l / 2 * |u * v' - v * u'|} = (fun w : ℝ × ℝ => S • w) ⁻¹' parallelogram l l u v u' v' := by
      ext w
      rw [mA]
      simp only [ne_eq, hD, not_false_eq_true, true_and, mem_preimage]
      rfl
    rw [this, Measure.addHaar_preimage_smul _ hS.ne', volume_parallelogram hl hl, ← ENNReal.ofReal_mul (abs_nonneg _)]
    congr 1
    simp only [Module.finrank_prod, Module.finrank_self]
    rw [abs_of_pos (by positivity)]
    field_simp
    ring

/-- These differences are small. -/
theorem open_small {l u v u' v' S : ℝ} (hS : 0 < S) (hu : |u| ≤ 1) (hv : |v| ≤ 1) (hu' : |u'| ≤ 1) (hv' : |v'| ≤ 1) {w : ℝ × ℝ}
    (h : |S * w.1 * v' - S * w.2 * u'| < l / 2 * |u * v' - v * u'| ∧ |S * w.1 * v - S * w.2 * u| < l / 2 * |u * v' - v * u'|) :
    |w.1| ≤ l / S ∧ |w.2| ≤ l / S := by
  obtain ⟨-, s, t, hs, ht, h1, h2⟩ := (mem_parallelogram (w := (S * w.1, S * w.2))).1 h
  simp only at h1 h2
  have bound : ∀ (k c c' : ℝ), |c| ≤ 1 → |c'| ≤ 1 → S * k = t * c' - s * c → |k| ≤ l / S := by
    intro k c c' hc hc' h
    have b3 : |S * k| ≤ l := by
      rw [h]
      calc |t * c' - s * c| ≤ |t * c'| + |s * c| := abs_sub _ _
        _ = |t| * |c'| + |s| * |c| := by rw [abs_mul, abs_mul]
        _ ≤ |t| * 1 + |s| * 1 := add_le_add (mul_le_mul_of_nonneg_left hc' (abs_nonneg _)) (mul_le_mul_of_nonneg_left hc (abs_nonneg _))
        _ ≤ l := by linarith
    rw [abs_mul, abs_of_pos hS] at b3
    rw [le_div_iff₀ hS]
    linarith
  exact ⟨bound _ _ _ hu hu' h1, bound _ _ _ hv hv' h2⟩

end Fibermat
