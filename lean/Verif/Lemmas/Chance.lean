import Mathlib.MeasureTheory.Measure.Lebesgue.EqHaar
import Mathlib.MeasureTheory.Measure.Lebesgue.VolumeOfBalls
import Mathlib.LinearAlgebra.Matrix.ToLin
import Mathlib.Analysis.SpecialFunctions.Integrals.Basic
import Mathlib.MeasureTheory.Integral.Prod

/-! # Areas used for the mean number of crossings -/

namespace Fibermat
open MeasureTheory Set

/-- Differences of the points of two segments of lengths `l`, `l'` and directions `(u, v)`, `(u', v')` centred at the origin. -/
def parallelogram (l l' u v u' v' : ℝ) : Set (ℝ × ℝ) :=
  {w | ∃ s t : ℝ, |s| < l / 2 ∧ |t| < l' / 2 ∧ w.1 = t * u' - s * u ∧ w.2 = t * v' - s * v}

theorem volume_parallelogram {l l' u v u' v' : ℝ} (hl : 0 ≤ l) (hl' : 0 ≤ l') :
    volume (parallelogram l l' u v u' v') = ENNReal.ofReal (l * l' * |u * v' - v * u'|) := by
  let f : (ℝ × ℝ) →ₗ[ℝ] (ℝ × ℝ) :=
    Matrix.toLin (Module.Basis.finTwoProd ℝ) (Module.Basis.finTwoProd ℝ) !![-u, u'; -v, v']
  have hf : parallelogram l l' u v u' v' = f '' (Ioo (-(l / 2)) (l / 2) ×ˢ Ioo (-(l' / 2)) (l' / 2)) := by
    ext w
    constructor
    · rintro ⟨s, t, hs, ht, h1, h2⟩
      refine ⟨(s, t), ⟨abs_lt.1 hs, abs_lt.1 ht⟩, ?_⟩
      simp only [f, Matrix.toLin_finTwoProd_apply]
      exact Prod.ext (by rw [h1]; ring) (by rw [h2]; ring)
    · rintro ⟨⟨s, t⟩, ⟨hs, ht⟩, rfl⟩
      refine ⟨s, t, abs_lt.2 hs, abs_lt.2 ht, ?_, ?_⟩ <;> simp only [f, Matrix.toLin_finTwoProd_apply] <;> ring
  rw [hf, Measure.addHaar_image_linearMap, LinearMap.det_toLin, Matrix.det_fin_two_of, Measure.volume_eq_prod, Measure.prod_prod,
    Real.volume_Ioo, Real.volume_Ioo, ← ENNReal.ofReal_mul (by linarith), ← ENNReal.ofReal_mul (abs_nonneg _)]
  congr 1
  rw [show -u * v' - u' * -v = -(u * v' - v * u') by ring, abs_neg]
  ring

/-- The squares of side 1 tile the plane. -/
theorem mem_square (w : ℝ × ℝ) (i j : ℤ) :
    (w.1 + i, w.2 + j) ∈ Ico (0 : ℝ) 1 ×ˢ Ico (0 : ℝ) 1 ↔ i = -⌊w.1⌋ ∧ j = -⌊w.2⌋ := by
  have key : ∀ (x : ℝ) (i : ℤ), x + i ∈ Ico (0 : ℝ) 1 ↔ i = -⌊x⌋ := by
    intro x i
    rw [mem_Ico, eq_neg_iff_add_eq_zero, add_comm i, ← Int.floor_add_intCast, Int.floor_eq_iff]
    simp
  rw [mem_prod, key, key]

/-- A set all of whose translates by integers are disjoint has the same area as its trace on the unit square, the translates being
counted. -/
theorem volume_wrapped {A : Set (ℝ × ℝ)} (hA : MeasurableSet A)
    (hd : ∀ w ∈ A, ∀ i j : ℤ, (w.1 + (i : ℝ), w.2 + (j : ℝ)) ∈ A → i = 0 ∧ j = 0) :
    volume ({w : ℝ × ℝ | ∃ i j : ℤ, (w.1 + (i : ℝ), w.2 + (j : ℝ)) ∈ A} ∩ Ico (0 : ℝ) 1 ×ˢ Ico (0 : ℝ) 1) = volume A := by
  have hmeas : ∀ k : ℤ × ℤ, Measurable (fun w : ℝ × ℝ => (w.1 + (k.1 : ℝ), w.2 + (k.2 : ℝ))) := fun k => by fun_prop
  have hQ : MeasurableSet (Ico (0 : ℝ) 1 ×ˢ Ico (0 : ℝ) 1) := measurableSet_Ico.prod measurableSet_Ico
  have e1 : {w : ℝ × ℝ | ∃ i j : ℤ, (w.1 + (i : ℝ), w.2 + (j : ℝ)) ∈ A} ∩ Ico (0 : ℝ) 1 ×ˢ Ico (0 : ℝ) 1 =
      ⋃ k : ℤ × ℤ, (fun w : ℝ × ℝ => (w.1 + (k.1 : ℝ), w.2 + (k.2 : ℝ))) ⁻¹' A ∩ Ico (0 : ℝ) 1 ×ˢ Ico (0 : ℝ) 1 := by
    ext w
    simp only [mem_inter_iff, mem_ofPred_eq, mem_iUnion, mem_preimage, Prod.exists]
    tauto
  have e2 : A = ⋃ k : ℤ × ℤ, A ∩ (fun w : ℝ × ℝ => (w.1 + (((-k).1 : ℤ) : ℝ), w.2 + (((-k).2 : ℤ) : ℝ))) ⁻¹'
      (Ico (0 : ℝ) 1 ×ˢ Ico (0 : ℝ) 1) := by
    ext w
    simp only [mem_iUnion, mem_inter_iff, mem_preimage, mem_square]
    constructor
    · intro h
      exact ⟨(⌊w.1⌋, ⌊w.2⌋), h, by simp⟩
    · rintro ⟨k, h, -⟩; exact h
  rw [e1, measure_iUnion]
  · conv_rhs => rw [e2]
    rw [measure_iUnion]
    · refine tsum_congr fun k => ?_
      have e3 : (fun w : ℝ × ℝ => (w.1 + (k.1 : ℝ), w.2 + (k.2 : ℝ))) ⁻¹' A ∩ Ico (0 : ℝ) 1 ×ˢ Ico (0 : ℝ) 1 =
          (fun w : ℝ × ℝ => w + ((k.1 : ℝ), (k.2 : ℝ))) ⁻¹' (A ∩ (fun w : ℝ × ℝ => (w.1 + (((-k).1 : ℤ) : ℝ), w.2 + (((-k).2 : ℤ) : ℝ))) ⁻¹'
            (Ico (0 : ℝ) 1 ×ˢ Ico (0 : ℝ) 1)) := by
        ext w
        simp [mem_preimage, mem_inter_iff]
        exact fun _ _ _ _ => Iff.rfl
      rw [e3, measure_preimage_add_right]
    · intro k k' hk
      refine Set.disjoint_left.2 ?_
      rintro w ⟨-, h⟩ ⟨-, h'⟩
      rw [mem_preimage, mem_square] at h h'
      refine hk (neg_injective (Prod.ext ?_ ?_))
      · rw [h.1, h'.1]
      · rw [h.2, h'.2]
    · exact fun k => hA.inter (hmeas _ hQ)
  · intro k k' hk
    refine Set.disjoint_left.2 ?_
    rintro w ⟨h, -⟩ ⟨h', -⟩
    rw [mem_preimage] at h h'
    have := hd _ h (k'.1 - k.1) (k'.2 - k.2) (by
      convert h' using 1
      push_cast
      exact Prod.ext (by ring) (by ring))
    exact hk (Prod.ext (by omega) (by omega))
  · exact fun k => (hmeas k hA).inter hQ

/-- Mean of `|sin (θ (a - b))|` for `a` given. -/
theorem integral_abs_sin {θ : ℝ} (h0 : 0 < θ) (hπ : θ ≤ Real.pi) {a : ℝ} (ha0 : 0 ≤ a) (ha1 : a ≤ 1) :
    ∫ b in (0 : ℝ)..1, |Real.sin (θ * (a - b))| = (1 - Real.cos (θ * a)) / θ + (1 - Real.cos (θ * (1 - a))) / θ := by
  have hi : ∀ x y : ℝ, IntervalIntegrable (fun b => |Real.sin (θ * (a - b))|) volume x y :=
    fun x y => Continuous.intervalIntegrable (by fun_prop) x y
  rw [← intervalIntegral.integral_add_adjacent_intervals (hi 0 a) (hi a 1)]
  congr 1
  · have : ∫ b in (0 : ℝ)..a, |Real.sin (θ * (a - b))| = ∫ b in (0 : ℝ)..a, Real.sin (θ * a - θ * b) := by
      refine intervalIntegral.integral_congr fun b hb => ?_
      rw [uIcc_of_le ha0] at hb
      show |Real.sin (θ * (a - b))| = Real.sin (θ * a - θ * b)
      rw [← mul_sub]
      refine abs_of_nonneg (Real.sin_nonneg_of_nonneg_of_le_pi (mul_nonneg h0.le (by linarith [hb.2])) ?_)
      nlinarith [hb.1, hb.2]
    rw [this, intervalIntegral.integral_comp_sub_mul _ h0.ne', integral_sin]
    simp
    ring
  · have : ∫ b in a..1, |Real.sin (θ * (a - b))| = ∫ b in a..1, Real.sin (θ * b - θ * a) := by
      refine intervalIntegral.integral_congr fun b hb => ?_
      rw [uIcc_of_le ha1] at hb
      show |Real.sin (θ * (a - b))| = Real.sin (θ * b - θ * a)
      rw [← mul_sub, show θ * (a - b) = -(θ * (b - a)) by ring, Real.sin_neg, abs_neg]
      refine abs_of_nonneg (Real.sin_nonneg_of_nonneg_of_le_pi (mul_nonneg h0.le (by linarith [hb.1])) ?_)
      nlinarith [hb.1, hb.2]
    rw [this, intervalIntegral.integral_comp_mul_sub _ h0.ne', integral_sin]
    simp
    ring_nf

/-- Mean of `|sin (θ (a - b))|` on the unit square. -/
theorem integral_integral_abs_sin {θ : ℝ} (h0 : 0 < θ) (hπ : θ ≤ Real.pi) :
    ∫ a in (0 : ℝ)..1, ∫ b in (0 : ℝ)..1, |Real.sin (θ * (a - b))| = 2 * (θ - Real.sin θ) / θ ^ 2 := by
  have : ∫ a in (0 : ℝ)..1, ∫ b in (0 : ℝ)..1, |Real.sin (θ * (a - b))| =
      ∫ a in (0 : ℝ)..1, ((1 - Real.cos (θ * a)) / θ + (1 - Real.cos (θ * (1 - a))) / θ) := by
    refine intervalIntegral.integral_congr fun a ha => ?_
    rw [uIcc_of_le zero_le_one] at ha
    exact integral_abs_sin h0 hπ ha.1 ha.2
  rw [this, intervalIntegral.integral_add (Continuous.intervalIntegrable (by fun_prop) _ _)
    (Continuous.intervalIntegrable (by fun_prop) _ _)]
  have e1 : ∫ a in (0 : ℝ)..1, (1 - Real.cos (θ * a)) / θ = (1 - Real.sin θ / θ) / θ := by
    rw [intervalIntegral.integral_div, intervalIntegral.integral_sub (Continuous.intervalIntegrable (by fun_prop) _ _)
      (Continuous.intervalIntegrable (by fun_prop) _ _), intervalIntegral.integral_comp_mul_left _ h0.ne', integral_cos]
    simp
    field_simp
  have e2 : ∫ a in (0 : ℝ)..1, (1 - Real.cos (θ * (1 - a))) / θ = ∫ a in (0 : ℝ)..1, (1 - Real.cos (θ * a)) / θ := by
    have := intervalIntegral.integral_comp_sub_left (fun a => (1 - Real.cos (θ * a)) / θ) (a := 0) (b := 1) 1
    simpa using this
  rw [e2, e1]
  field_simp
  ring

/-- The parallelogram by two inequalities; for parallel directions both are void. -/
theorem mem_parallelogram {l l' u v u' v' : ℝ} {w : ℝ × ℝ} :
    (|w.1 * v' - w.2 * u'| < l / 2 * |u * v' - v * u'| ∧ |w.1 * v - w.2 * u| < l' / 2 * |u * v' - v * u'|) ↔
      u * v' - v * u' ≠ 0 ∧ w ∈ parallelogram l l' u v u' v' := by
  constructor
  · rintro ⟨h1, h2⟩
    have hD : u * v' - v * u' ≠ 0 := by
      intro h
      rw [h, abs_zero, mul_zero] at h1
      exact absurd h1 (not_lt.2 (abs_nonneg _))
    have hD' := abs_pos.2 hD
    refine ⟨hD, -((w.1 * v' - w.2 * u') / (u * v' - v * u')), -((w.1 * v - w.2 * u) / (u * v' - v * u')), ?_, ?_, ?_, ?_⟩
    · rw [abs_neg, abs_div, div_lt_iff₀ hD']; exact h1
    · rw [abs_neg, abs_div, div_lt_iff₀ hD']; exact h2
    · field_simp; ring
    · field_simp; ring
  · rintro ⟨hD, s, t, hs, ht, h1, h2⟩
    have hD' := abs_pos.2 hD
    rw [h1, h2, show (t * u' - s * u) * v' - (t * v' - s * v) * u' = -(s * (u * v' - v * u')) by ring,
      show (t * u' - s * u) * v - (t * v' - s * v) * u = -(t * (u * v' - v * u')) by ring, abs_neg, abs_neg, abs_mul, abs_mul]
    exact ⟨mul_lt_mul_of_pos_right hs hD', mul_lt_mul_of_pos_right ht hD'⟩

/-- Area of the places of a fiber in the unit square where it crosses a given one of another direction, or one of its images. -/
theorem volume_crossing {l l' u v u' v' S : ℝ} (hl : 0 ≤ l) (hl' : 0 ≤ l') (hS : 0 < S) (hll : l + l' ≤ S)
    (hu : |u| ≤ 1) (hv : |v| ≤ 1) (hu' : |u'| ≤ 1) (hv' : |v'| ≤ 1) (b : ℝ × ℝ) :
    volume ({w : ℝ × ℝ | ∃ i j : ℤ, |S * (w.1 - b.1 + i) * v' - S * (w.2 - b.2 + j) * u'| < l / 2 * |u * v' - v * u'| ∧
      |S * (w.1 - b.1 + i) * v - S * (w.2 - b.2 + j) * u| < l' / 2 * |u * v' - v * u'|} ∩ Ico (0 : ℝ) 1 ×ˢ Ico (0 : ℝ) 1) =
    ENNReal.ofReal (l * l' / S ^ 2 * |u * v' - v * u'|) := by
  let A : Set (ℝ × ℝ) := {w | |S * (w.1 - b.1) * v' - S * (w.2 - b.2) * u'| < l / 2 * |u * v' - v * u'| ∧
      |S * (w.1 - b.1) * v - S * (w.2 - b.2) * u| < l' / 2 * |u * v' - v * u'|}
  have mA : ∀ w : ℝ × ℝ, w ∈ A ↔ u * v' - v * u' ≠ 0 ∧ (S * (w.1 - b.1), S * (w.2 - b.2)) ∈ parallelogram l l' u v u' v' :=
    fun w => mem_parallelogram (w := (S * (w.1 - b.1), S * (w.2 - b.2)))
  have hA : MeasurableSet A := by
    refine MeasurableSet.inter (s₁ := {w : ℝ × ℝ | |S * (w.1 - b.1) * v' - S * (w.2 - b.2) * u'| < l / 2 * |u * v' - v * u'|})
      (s₂ := {w : ℝ × ℝ | |S * (w.1 - b.1) * v - S * (w.2 - b.2) * u| < l' / 2 * |u * v' - v * u'|})
      (measurableSet_lt ?_ ?_) (measurableSet_lt ?_ ?_) <;> fun_prop
  have e : {w : ℝ × ℝ | ∃ i j : ℤ, |S * (w.1 - b.1 + i) * v' - S * (w.2 - b.2 + j) * u'| < l / 2 * |u * v' - v * u'| ∧
      |S * (w.1 - b.1 + i) * v - S * (w.2 - b.2 + j) * u| < l' / 2 * |u * v' - v * u'|} =
      {w : ℝ × ℝ | ∃ i j : ℤ, (w.1 + (i : ℝ), w.2 + (j : ℝ)) ∈ A} := by
    ext w
    simp only [A, mem_ofPred_eq]
    refine exists_congr fun i => exists_congr fun j => ?_
    rw [show w.1 + (i : ℝ) - b.1 = w.1 - b.1 + i by ring, show w.2 + (j : ℝ) - b.2 = w.2 - b.2 + j by ring]
  rw [e, volume_wrapped hA]
  · by_cases hD : u * v' - v * u' = 0
    · have : A = ∅ := by
        ext w
        rw [mA]
        simp [hD]
      rw [this, hD]
      simp
    · have : A = (fun w : ℝ × ℝ => w + (-b)) ⁻¹' ((fun w : ℝ × ℝ => S • w) ⁻¹' parallelogram l l' u v u' v') := by
        ext w
        rw [mA]
        simp only [ne_eq, hD, not_false_eq_true, true_and, mem_preimage]
        rfl
      rw [this, measure_preimage_add_right, Measure.addHaar_preimage_smul _ hS.ne', volume_parallelogram hl hl',
        ← ENNReal.ofReal_mul (abs_nonneg _)]
      congr 1
      simp only [Module.finrank_prod, Module.finrank_self]
      rw [abs_of_pos (by positivity)]
      field_simp
      ring
  · intro w hw i j hij
    rw [mA] at hw hij
    obtain ⟨-, s, t, hs, ht, h1, h2⟩ := hw
    obtain ⟨-, s', t', hs', ht', h1', h2'⟩ := hij
    simp only at h1 h2 h1' h2'
    rw [abs_lt] at hs ht hs' ht'
    have bound : ∀ (k : ℤ) (c c' : ℝ), |c| ≤ 1 → |c'| ≤ 1 → S * k = (t' - t) * c' - (s' - s) * c → k = 0 := by
      intro k c c' hc hc' h
      have b1 : |t' - t| < l' := abs_lt.2 ⟨by linarith, by linarith⟩
      have b2 : |s' - s| < l := abs_lt.2 ⟨by linarith, by linarith⟩
      have b3 : |S * k| < S := by
        rw [h]
        calc |(t' - t) * c' - (s' - s) * c| ≤ |(t' - t) * c'| + |(s' - s) * c| := abs_sub _ _
          _ = |t' - t| * |c'| + |s' - s| * |c| := by rw [abs_mul, abs_mul]
          _ ≤ |t' - t| * 1 + |s' - s| * 1 :=
            add_le_add (mul_le_mul_of_nonneg_left hc' (abs_nonneg _)) (mul_le_mul_of_nonneg_left hc (abs_nonneg _))
          _ < S := by linarith
      rw [abs_mul, abs_of_pos hS] at b3
      have b4 : |(k : ℝ)| < 1 := by
        by_contra hk
        rw [not_lt] at hk
        exact absurd b3 (not_lt.2 (le_mul_of_one_le_right hS.le hk))
      rw [← Int.cast_abs] at b4
      exact Int.abs_lt_one_iff.1 (by exact_mod_cast b4)
    exact ⟨bound i u u' hu hu' (by linarith), bound j v v' hv hv' (by linarith)⟩

end Fibermat
