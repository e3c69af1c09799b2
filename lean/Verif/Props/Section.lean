import Verif.Spec.Section
import Verif.Props.Energy
import Verif.Model.Stack
import Mathlib.Analysis.SpecialFunctions.PolarCoord
import Mathlib.Analysis.SpecialFunctions.Integrals.Basic
import Mathlib.MeasureTheory.Integral.Prod

/-! # The elliptic section of a fiber (C139)

The compliance in bending is 3/4 of that of the ellipse: the code takes the second moment of area `A h² / 12` of a rectangle instead of
`A h² / 16`. -/

set_option linter.unusedSectionVars false
set_option linter.unusedSimpArgs false

namespace Fibermat
open Spec MeasureTheory Real

/-! ## C139: the number π -/

theorem npPi_bounds : (npPi : ℝ) < π ∧ π - npPi < 1 / 2 ^ 52 := by
  have h1 := pi_gt_d20
  have h2 := pi_lt_d20
  unfold npPi
  constructor
  · refine lt_trans ?_ h1; norm_num
  · rw [sub_lt_iff_lt_add]; refine lt_trans h2 ?_; norm_num

/-- C139: the constant used for π is a number of 53 digits and no such number is nearer to π. -/
theorem C139_pi : Double npPi ∧ ∀ x, Double x → |π - npPi| ≤ |π - x| := by
  obtain ⟨h1, h2⟩ := npPi_bounds
  refine ⟨⟨884279719003555, -48, by norm_num, by unfold npPi; norm_num⟩, ?_⟩
  rintro x ⟨m, e, hm, rfl⟩
  rw [abs_of_pos (by linarith)]
  rcases le_or_gt (-51) e with he | he
  · obtain ⟨k, rfl⟩ : ∃ k : ℕ, e = k - 51 := ⟨(e + 51).toNat, by omega⟩
    have hx : (m : ℝ) * 2 ^ ((k : ℤ) - 51) = ((m * 2 ^ k : ℤ) : ℝ) / 2 ^ 51 := by
      rw [zpow_sub₀ two_ne_zero]; push_cast; norm_num; ring
    have hn : (npPi : ℝ) = ((7074237752028440 : ℤ) : ℝ) / 2 ^ 51 := by unfold npPi; norm_num
    rw [hx]
    generalize m * 2 ^ k = n
    rcases lt_trichotomy n 7074237752028440 with h | h | h
    · have h' : ((n : ℤ) : ℝ) ≤ ((7074237752028440 : ℤ) : ℝ) - 1 := by
        have : n ≤ 7074237752028440 - 1 := by omega
        exact_mod_cast this
      have : (n : ℝ) / 2 ^ 51 ≤ npPi - 1 / 2 ^ 51 := by rw [hn, ← sub_div]; gcongr
      rw [abs_of_pos (by linarith [show (0 : ℝ) < 1 / 2 ^ 51 by positivity])]
      linarith [show (0 : ℝ) < 1 / 2 ^ 51 by positivity]
    · rw [h, ← hn, abs_of_pos (by linarith)]
    · have h' : ((7074237752028440 : ℤ) : ℝ) + 1 ≤ ((n : ℤ) : ℝ) := by
        have : 7074237752028440 + 1 ≤ n := by omega
        exact_mod_cast this
      have : npPi + 1 / 2 ^ 51 ≤ (n : ℝ) / 2 ^ 51 := by rw [hn, ← add_div]; gcongr
      have h3 : (1 : ℝ) / 2 ^ 51 = 2 * (1 / 2 ^ 52) := by norm_num
      rw [abs_of_neg (by linarith [show (0 : ℝ) < 1 / 2 ^ 52 by positivity])]
      linarith
  · have hx : |(m : ℝ) * 2 ^ e| ≤ 2 := by
      rw [abs_mul, abs_of_pos (a := (2 : ℝ) ^ e) (by positivity)]
      have h3 : |(m : ℝ)| ≤ 2 ^ 53 := by exact_mod_cast hm.le
      have h4 : (2 : ℝ) ^ e ≤ 2 ^ (-52 : ℤ) := zpow_le_zpow_right₀ (by norm_num) (by omega)
      calc |(m : ℝ)| * 2 ^ e ≤ 2 ^ 53 * 2 ^ (-52 : ℤ) := by gcongr
        _ = 2 := by norm_num
    have h5 := (abs_le.1 hx).2
    have h6 := pi_gt_three
    have h7 : (1 : ℝ) / 2 ^ 52 ≤ 1 := by norm_num
    rw [abs_of_pos (by linarith)]
    linarith

/-! ## C139: the ellipse -/

theorem disc_integral (n : ℕ) :
    ∫ p in {p : ℝ × ℝ | p.1 ^ 2 + p.2 ^ 2 < 1}, p.2 ^ n = 1 / (n + 2) * ∫ t in (-π)..π, sin t ^ n := by
  have hD : MeasurableSet {p : ℝ × ℝ | p.1 ^ 2 + p.2 ^ 2 < 1} :=
    (isOpen_lt (by fun_prop) continuous_const).measurableSet
  rw [← integral_indicator hD, ← integral_comp_polarCoord_symm]
  have hT : polarCoord.target = Set.Ioi (0 : ℝ) ×ˢ Set.Ioo (-π) π := rfl
  have e : ∀ p ∈ polarCoord.target, p.1 • Set.indicator {p : ℝ × ℝ | p.1 ^ 2 + p.2 ^ 2 < 1} (fun p => p.2 ^ n) (polarCoord.symm p) =
      (Set.indicator (Set.Iio 1) (fun r : ℝ => r ^ (n + 1)) p.1) * sin p.2 ^ n := by
    rintro ⟨r, t⟩ ⟨hr, -⟩
    have hr' : (0 : ℝ) < r := hr
    have hc : (r * cos t) ^ 2 + (r * sin t) ^ 2 = r ^ 2 := by
      rw [mul_pow, mul_pow, ← mul_add, cos_sq_add_sin_sq, mul_one]
    simp only [polarCoord_symm_apply, Set.indicator, Set.mem_ofPred_eq, Set.mem_Iio, hc, smul_eq_mul]
    by_cases h1 : r < 1
    · rw [if_pos h1, if_pos (by nlinarith)]; ring
    · rw [if_neg h1, if_neg (by nlinarith)]; ring
  rw [setIntegral_congr_fun (hT ▸ measurableSet_Ioi.prod measurableSet_Ioo) e, hT, Measure.volume_eq_prod,
    setIntegral_prod_mul (Set.indicator (Set.Iio 1) (fun r : ℝ => r ^ (n + 1))) (fun t => sin t ^ n)]
  congr 1
  · rw [setIntegral_indicator measurableSet_Iio, Set.Ioi_inter_Iio, ← integral_Ioc_eq_integral_Ioo,
      ← intervalIntegral.integral_of_le zero_le_one, integral_pow]
    simp; ring
  · rw [← integral_Ioc_eq_integral_Ioo, ← intervalIntegral.integral_of_le (by linarith [pi_pos])]

theorem ellipse_integral {b h : ℝ} (hb : 0 < b) (hh : 0 < h) (n : ℕ) :
    ∫ p in Ellipse b h, p.2 ^ n = b / 2 * (h / 2) ^ (n + 1) * (1 / (n + 2) * ∫ t in (-π)..π, sin t ^ n) := by
  have hD : MeasurableSet {p : ℝ × ℝ | p.1 ^ 2 + p.2 ^ 2 < 1} :=
    (isOpen_lt (by fun_prop) continuous_const).measurableSet
  have hE : MeasurableSet (Ellipse b h) := (isOpen_lt (by fun_prop) continuous_const).measurableSet
  rw [← disc_integral]
  set T : (ℝ × ℝ) →ₗ[ℝ] (ℝ × ℝ) := Matrix.toLin (.finTwoProd ℝ) (.finTwoProd ℝ) !![(b / 2)⁻¹, 0; 0, (h / 2)⁻¹] with hT
  have hdet : LinearMap.det T = (b / 2)⁻¹ * (h / 2)⁻¹ := by rw [hT, LinearMap.det_toLin, Matrix.det_fin_two_of]; ring
  have hTp : ∀ p, T p = (p.1 / (b / 2), p.2 / (h / 2)) := by
    rintro ⟨x, y⟩
    rw [hT, Matrix.toLin_finTwoProd_apply]
    simp; constructor <;> ring
  have hne : LinearMap.det T ≠ 0 := by rw [hdet]; positivity
  have hmap := Measure.map_linearMap_addHaar_eq_smul_addHaar (μ := (volume : Measure (ℝ × ℝ))) hne
  have hTc : Measurable T := T.continuous_of_finiteDimensional.measurable
  rw [← integral_indicator hD, ← integral_indicator hE]
  have key : ∫ q, Set.indicator {p : ℝ × ℝ | p.1 ^ 2 + p.2 ^ 2 < 1} (fun p => p.2 ^ n) q ∂(Measure.map T volume) =
      ∫ p, Set.indicator {p : ℝ × ℝ | p.1 ^ 2 + p.2 ^ 2 < 1} (fun p => p.2 ^ n) (T p) := by
    refine integral_map hTc.aemeasurable ?_
    exact (Measurable.indicator (by fun_prop) hD).aestronglyMeasurable
  rw [hmap, integral_smul_measure, ENNReal.toReal_ofReal (abs_nonneg _), hdet,
    abs_of_pos (by positivity), mul_inv, inv_inv, inv_inv] at key
  have hpt : ∀ p, Set.indicator (Ellipse b h) (fun p => p.2 ^ n) p =
      (h / 2) ^ n * Set.indicator {p : ℝ × ℝ | p.1 ^ 2 + p.2 ^ 2 < 1} (fun p => p.2 ^ n) (T p) := by
    intro p
    rw [hTp]
    by_cases hp : p ∈ Ellipse b h
    · rw [Set.indicator_of_mem hp, Set.indicator_of_mem (show _ ∈ {p : ℝ × ℝ | p.1 ^ 2 + p.2 ^ 2 < 1} from hp), ← mul_pow, mul_div_cancel₀]
      positivity
    · rw [Set.indicator_of_notMem hp, Set.indicator_of_notMem (show _ ∉ {p : ℝ × ℝ | p.1 ^ 2 + p.2 ^ 2 < 1} from hp), mul_zero]
  simp only [hpt]
  rw [integral_const_mul, ← key, smul_eq_mul]
  ring

/-- Area of the ellipse. -/
theorem C139_area {b h : ℝ} (hb : 0 < b) (hh : 0 < h) : ellipseArea b h = π / 4 * (b * h) := by
  have := ellipse_integral hb hh 0
  simp only [pow_zero, intervalIntegral.integral_const] at this
  rw [ellipseArea, this]; simp; ring

/-- Second moment of area of the ellipse. -/
theorem C139_inertia {b h : ℝ} (hb : 0 < b) (hh : 0 < h) : ellipseInertia b h = π / 64 * (b * h ^ 3) := by
  rw [ellipseInertia, ellipse_integral hb hh 2, integral_sin_sq]
  simp; ring

/-- Volume of the cylinder. -/
theorem C139_volume {l b h : ℝ} (hl : 0 < l) (hb : 0 < b) (hh : 0 < h) :
    (volume (Cylinder l b h)).toReal = l * ellipseArea b h := by
  have e : Cylinder l b h = Set.Icc (-(l / 2)) (l / 2) ×ˢ Ellipse b h := by
    ext p; simp [Cylinder, abs_le]
  rw [e, Measure.volume_eq_prod, Measure.prod_prod, ENNReal.toReal_mul, Real.volume_Icc,
    ENNReal.toReal_ofReal (by linarith), ellipseArea]
  simp [Measure.real]

/-! ## C139: the stiffness of a beam and the weight of a fiber -/

theorem npPi_ratio : 1 < π / npPi ∧ π / npPi < 1 + 1 / 2 ^ 53 := by
  obtain ⟨h1, h2⟩ := npPi_bounds
  have h3 : (3 : ℝ) < npPi := by unfold npPi; norm_num
  refine ⟨by rw [lt_div_iff₀ (by linarith)]; linarith, ?_⟩
  rw [div_lt_iff₀ (by linarith)]
  have : (1 : ℝ) / 2 ^ 52 ≤ 1 / 2 ^ 53 * npPi := by
    have e : (1 : ℝ) / 2 ^ 52 = 1 / 2 ^ 53 * 2 := by norm_num
    rw [e]; gcongr; linarith
  linarith

variable {K : Type} [Field K] [LinearOrder K] [IsStrictOrderedRing K]
variable {mat : Mat K} {mesh : Mesh K} {lmin lmax : Option K} {coupling : K} {Km : Coo (Cell K)}

theorem map_npPi (φ : K →+* ℝ) : φ npPi = npPi := by unfold npPi; rw [map_div₀, map_ofNat, map_ofNat]

theorem pos_of_mono {φ : K →+* ℝ} (hφ : StrictMono φ) {x : K} (hx : 0 < x) : 0 < φ x := by
  have := hφ hx; rwa [map_zero] at this

/-- C139: the compliance of a beam is, up to the factor `π / npPi`, that of the elliptic section in shear plus three quarters of that
of the elliptic section in bending. -/
theorem C139_compliance (φ : K →+* ℝ) (hφ : StrictMono φ) (h : stiffness mat mesh lmin lmax coupling = .ok Km) (hm : GoodMat mat)
    (hp : PositiveLengths mesh.rows lmin lmax) {L : ℕ → K} (hL : BeamLengths mesh.rows lmin lmax L) {i : ℕ}
    (hi : StartsBeam mesh.rows i) {f : Fiber K} (hf : nodeFiber mat mesh.rows i = some f) :
    ∃ k, Km.get (2 * i) (2 * succNode mesh.rows i) = .fin (-k) ∧ 0 < k ∧
      (f.E = ⊤ → (φ k)⁻¹ = π / npPi * (φ (L i) / (φ f.G * ellipseArea (φ f.b) (φ f.h)))) ∧
      ∀ E : K, f.E = (E : WithTop K) → (φ k)⁻¹ = π / npPi * (φ (L i) / (φ f.G * ellipseArea (φ f.b) (φ f.h)) +
        3 / 4 * (φ (L i) ^ 3 / (12 * φ E * ellipseInertia (φ f.b) (φ f.h)))) := by
  obtain ⟨f', hf', he⟩ := C66_transverse h hm hp hL hi
  rw [hf] at hf'; cases hf'
  obtain ⟨k, hk, hk0, -⟩ := C66_bounds h hm hp hL hi hf
  rw [he] at hk
  have hkt : k = transverse f (L i) := by simpa using hk.symm
  obtain ⟨bl, has, hpos, -, hbl⟩ := assembled_lengths h
  obtain ⟨p, hpm, rfl⟩ := has.all i hi
  obtain ⟨-, h2, h3⟩ := (has.beam p hpm).data
  rw [hf] at h3; cases h3
  have hs := has.solid hm p hpm
  have hl := hpos hp p hpm
  rw [(hbl L).1 hL p hpm] at hl
  refine ⟨k, by rw [he, hkt], hk0, ?_⟩
  rw [hkt]
  generalize L p.1.i = l at hl ⊢
  have hb := pos_of_mono hφ hs.b
  have hh := pos_of_mono hφ hs.h
  have hG := pos_of_mono hφ hs.G
  have hl' := pos_of_mono hφ hl
  rw [C139_area hb hh, C139_inertia hb hh]
  have hn : (0 : ℝ) < npPi := npPi_pos
  have hpi := pi_pos
  generalize p.1.fiber = f at *
  constructor
  · intro hE
    have : transverse f l = (l / (f.G * sectionArea f))⁻¹ := by unfold transverse; rw [hE]
    rw [this, map_inv₀, inv_inv]
    simp only [sectionArea, map_div₀, map_mul, map_npPi, map_ofNat]
    field_simp
  · intro E hE
    have hE0 := pos_of_mono hφ (hs.E_pos hE)
    have : transverse f l = (l / (f.G * sectionArea f) + l ^ 3 / (E * sectionArea f * f.h ^ 2))⁻¹ := by unfold transverse; rw [hE]
    rw [this, map_inv₀, inv_inv]
    simp only [sectionArea, map_add, map_div₀, map_mul, map_pow, map_npPi, map_ofNat]
    field_simp
    ring

/-- C139: the transverse stiffness of a beam is less than 4/3 of that of a Timoshenko beam with the elliptic section, and not less
than that stiffness but for the last digit of π. -/
theorem C139_stiffness (φ : K →+* ℝ) (hφ : StrictMono φ) (h : stiffness mat mesh lmin lmax coupling = .ok Km) (hm : GoodMat mat)
    (hp : PositiveLengths mesh.rows lmin lmax) {L : ℕ → K} (hL : BeamLengths mesh.rows lmin lmax L) {i : ℕ}
    (hi : StartsBeam mesh.rows i) {f : Fiber K} (hf : nodeFiber mat mesh.rows i = some f) {E : K} (hE : f.E = (E : WithTop K)) :
    ∃ k kT, Km.get (2 * i) (2 * succNode mesh.rows i) = .fin (-k) ∧
      kT = (φ (L i) / (φ f.G * ellipseArea (φ f.b) (φ f.h)) + φ (L i) ^ 3 / (12 * φ E * ellipseInertia (φ f.b) (φ f.h)))⁻¹ ∧
      φ k < 4 / 3 * kT ∧ kT < (1 + 1 / 2 ^ 53) * φ k := by
  obtain ⟨k, hk, hk0, -, hc⟩ := C139_compliance φ hφ h hm hp hL hi hf
  refine ⟨k, _, hk, rfl, ?_⟩
  have hc := hc E hE
  obtain ⟨bl, has, hpos, -, hbl⟩ := assembled_lengths h
  obtain ⟨p, hpm, rfl⟩ := has.all i hi
  obtain ⟨-, h2, h3⟩ := (has.beam p hpm).data
  rw [hf] at h3; cases h3
  have hs := has.solid hm p hpm
  have hl := hpos hp p hpm
  rw [(hbl L).1 hL p hpm] at hl
  have hb := pos_of_mono hφ hs.b
  have hh := pos_of_mono hφ hs.h
  have hG := pos_of_mono hφ hs.G
  have hl' := pos_of_mono hφ hl
  have hE0 := pos_of_mono hφ (hs.E_pos hE)
  have hA : 0 < ellipseArea (φ p.1.fiber.b) (φ p.1.fiber.h) := by rw [C139_area hb hh]; positivity
  have hI : 0 < ellipseInertia (φ p.1.fiber.b) (φ p.1.fiber.h) := by rw [C139_inertia hb hh]; positivity
  set a := φ (L p.1.i) / (φ p.1.fiber.G * ellipseArea (φ p.1.fiber.b) (φ p.1.fiber.h)) with ha
  set d := φ (L p.1.i) ^ 3 / (12 * φ E * ellipseInertia (φ p.1.fiber.b) (φ p.1.fiber.h)) with hd
  have ha0 : 0 < a := by positivity
  have hd0 : 0 < d := by positivity
  obtain ⟨r1, r2⟩ := npPi_ratio
  set c := π / npPi
  have hk' := pos_of_mono hφ hk0
  have hkc : φ k = (c * (a + 3 / 4 * d))⁻¹ := by rw [← hc, inv_inv]
  have hx : 0 < c * (a + 3 / 4 * d) := by positivity
  rw [hkc]
  constructor
  · have : 3 / 4 * (a + d) < c * (a + 3 / 4 * d) := by nlinarith
    calc (c * (a + 3 / 4 * d))⁻¹ < (3 / 4 * (a + d))⁻¹ := inv_strictAnti₀ (by positivity) this
      _ = 4 / 3 * (a + d)⁻¹ := by rw [mul_inv]; norm_num
  · rw [← div_eq_mul_inv, lt_div_iff₀ hx, inv_mul_lt_iff₀ (by positivity)]
    nlinarith

/-- C139: the objective of the linear program of `Stack` weighs the height of each fiber with its volume as an elliptic cylinder, but
for the last digit of π. -/
theorem C139_weight (φ : K →+* ℝ) (hφ : StrictMono φ) {net : Net K} {sys : StackSys K} (h : stackConstraint mat net = .ok sys)
    (hm : GoodMat mat) {i : ℕ} {f : Fiber K} (hf : mat.fibers[i]? = some f) :
    ∃ w, sys.lp.f[i]? = some w ∧ φ w = npPi / π * (volume (Cylinder (φ f.l) (φ f.b) (φ f.h))).toReal := by
  have hs : sys.lp.f = mat.fibers.map (fun g => npPi / 4 * (g.l * g.b * g.h)) := by
    unfold stackConstraint at h
    simp only [bind, Except.bind, pure, Except.pure, throw, throwThe, MonadExceptOf.throw] at h
    repeat' split at h
    all_goals first | cases h | skip
    all_goals rfl
  obtain ⟨S, -, hg⟩ := hm.size
  have hfm := hg f (List.mem_of_getElem? hf)
  refine ⟨_, by rw [hs, List.getElem?_map, hf]; rfl, ?_⟩
  have hb := pos_of_mono hφ hfm.b
  have hh := pos_of_mono hφ hfm.h
  have hl := pos_of_mono hφ hfm.l
  rw [C139_volume hl hb hh, C139_area hb hh]
  simp only [map_mul, map_div₀, map_npPi, map_ofNat]
  have hpi := pi_pos
  field_simp

end Fibermat
