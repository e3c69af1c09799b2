import Verif.Spec.Continuum
import Verif.Props.Section
import Verif.Props.Timoshenko

/-! # The beam element and the continuous beam (C140) -/

set_option linter.unusedSectionVars false
set_option linter.unusedSimpArgs false

namespace Fibermat
open Spec Real

theorem field_bound {B S l : ℝ} (hB : 0 < B) (hS : 0 < S) (hl : 0 < l) (ui ti uj tj : ℝ) :
    ∃ Q : ℝ, ∃ m : ℝ → ℝ, (∀ w t w' t', BeamField l ui ti uj tj w t w' t' →
      fieldEnergy B S l t w' t' = timoshenkoEnergy B S l ui ti uj tj +
        ∫ s in (0 : ℝ)..l, S * (w' s - t s - Q / S) ^ 2 + B * (t' s - m s / B) ^ 2) ∧
      ∃ w t w' t', BeamField l ui ti uj tj w t w' t' ∧ ∀ s, w' s - t s = Q / S ∧ t' s = m s / B := by
  set Q := (l ^ 3 / (12 * B) + l / S)⁻¹ * (uj - ui - l * ((ti + tj) / 2)) with hQ
  have hc : 0 < l ^ 3 / (12 * B) + l / S := by positivity
  have hQc : Q * (l ^ 3 / (12 * B) + l / S) = uj - ui - l * ((ti + tj) / 2) := by
    rw [hQ, mul_comm, ← mul_assoc, mul_inv_cancel₀ hc.ne', one_mul]
  set a := B * (tj - ti) / l with ha
  refine ⟨Q, fun s => a + Q * (l / 2 - s), ?_, ?_⟩
  · intro w t w' t' h
    -- an antiderivative of the difference of the two integrands
    set H : ℝ → ℝ := fun s => 2 * Q * w s + 2 * ((a + Q * (l / 2 - s)) * t s) - Q ^ 2 / S * s -
      (a ^ 2 * s - a * Q * (l / 2 - s) ^ 2 - Q ^ 2 * (l / 2 - s) ^ 3 / 3) / B with hH
    have hd : ∀ s, HasDerivAt H (2 * Q * (w' s - t s) + 2 * ((a + Q * (l / 2 - s)) * t' s) - Q ^ 2 / S -
        (a + Q * (l / 2 - s)) ^ 2 / B) s := by
      intro s
      have h1 : HasDerivAt (fun s : ℝ => l / 2 - s) (-1) s := (hasDerivAt_id s).const_sub _
      have h2 : HasDerivAt (fun s : ℝ => a + Q * (l / 2 - s)) (Q * -1) s := (h1.const_mul Q).const_add a
      have h3 := (((h.deriv_w s).const_mul (2 * Q)).add ((h2.mul (h.deriv_t s)).const_mul 2)).sub
        ((hasDerivAt_id s).const_mul (Q ^ 2 / S))
      have h4 := ((((hasDerivAt_id s).const_mul (a ^ 2)).sub ((h1.pow 2).const_mul (a * Q))).sub
        (((h1.pow 3).const_mul (Q ^ 2)).div_const 3)).div_const B
      refine (h3.sub h4).congr_deriv ?_
      simp
      field_simp
      ring
    have hct : Continuous t := continuous_iff_continuousAt.2 (fun s => (h.deriv_t s).continuousAt)
    have hcw' := h.cont_w
    have hct' := h.cont_t
    have hint := intervalIntegral.integral_eq_sub_of_hasDerivAt (a := 0) (b := l) (fun s _ => hd s)
      (Continuous.intervalIntegrable (by fun_prop) _ _)
    have hval : H l - H 0 = timoshenkoEnergy B S l ui ti uj tj := by
      simp only [hH, h.left.1, h.left.2, h.right.1, h.right.2]
      have e : timoshenkoEnergy B S l ui ti uj tj = Q * (uj - ui - l * ((ti + tj) / 2)) + B / l * (tj - ti) ^ 2 := by
        unfold timoshenkoEnergy; rw [hQ]; ring
      rw [e]
      have e2 : uj - ui = Q * (l ^ 3 / (12 * B) + l / S) + l * ((ti + tj) / 2) := by linarith
      have e3 : (2 * Q * uj + 2 * ((a + Q * (l / 2 - l)) * tj) - Q ^ 2 / S * l -
          (a ^ 2 * l - a * Q * (l / 2 - l) ^ 2 - Q ^ 2 * (l / 2 - l) ^ 3 / 3) / B) -
          (2 * Q * ui + 2 * ((a + Q * (l / 2 - 0)) * ti) - Q ^ 2 / S * 0 -
          (a ^ 2 * 0 - a * Q * (l / 2 - 0) ^ 2 - Q ^ 2 * (l / 2 - 0) ^ 3 / 3) / B) =
          2 * Q * (uj - ui) + 2 * a * (tj - ti) - Q * l * (ti + tj) - Q ^ 2 * (l ^ 3 / (12 * B) + l / S) - a ^ 2 * l / B := by
        field_simp; ring
      rw [e3, e2, ha]
      field_simp
      ring
    rw [← hval, ← hint, fieldEnergy, ← intervalIntegral.integral_add (Continuous.intervalIntegrable (by fun_prop) _ _)
      (Continuous.intervalIntegrable (by fun_prop) _ _)]
    apply intervalIntegral.integral_congr
    intro s _
    simp only
    field_simp
    ring
  · refine ⟨fun s => ui + Q / S * s + ti * s + (tj - ti) * s ^ 2 / (2 * l) + Q / B * (l * s ^ 2 / 4 - s ^ 3 / 6),
      fun s => ti + (tj - ti) * s / l + Q / B * (l * s / 2 - s ^ 2 / 2),
      fun s => Q / S + (ti + (tj - ti) * s / l + Q / B * (l * s / 2 - s ^ 2 / 2)),
      fun s => (a + Q * (l / 2 - s)) / B, ⟨?_, ?_, by fun_prop, by fun_prop, ?_, ?_⟩, fun s => ⟨by ring, rfl⟩⟩
    · intro s
      have h1 := hasDerivAt_id s
      have := (((((h1.const_mul (Q / S)).const_add ui).add (h1.const_mul ti)).add
        (((h1.pow 2).const_mul (tj - ti)).div_const (2 * l))).add
        (((((h1.pow 2).const_mul l).div_const 4).sub ((h1.pow 3).div_const 6)).const_mul (Q / B)))
      refine this.congr_deriv ?_
      simp
      field_simp
      ring
    · intro s
      have h1 := hasDerivAt_id s
      have := (((h1.const_mul (tj - ti)).div_const l).const_add ti).add
        ((((h1.const_mul l).div_const 2).sub ((h1.pow 2).div_const 2)).const_mul (Q / B))
      refine this.congr_deriv ?_
      simp [ha]
      field_simp
    · simp
    · refine ⟨?_, ?_⟩
      · have e2 : uj = ui + Q * (l ^ 3 / (12 * B) + l / S) + l * ((ti + tj) / 2) := by linarith
        rw [e2]
        field_simp
        ring
      · field_simp
        ring

/-- C140: the energy of a Timoshenko beam with given displacements and rotations of its ends is the least energy of all its possible
deformations. -/
theorem C140_least {B S l : ℝ} (hB : 0 < B) (hS : 0 < S) (hl : 0 < l) (ui ti uj tj : ℝ) :
    IsLeast {e | ∃ w t w' t', BeamField l ui ti uj tj w t w' t' ∧ e = fieldEnergy B S l t w' t'} (timoshenkoEnergy B S l ui ti uj tj) := by
  obtain ⟨Q, m, h, w, t, w', t', hf, ho⟩ := field_bound hB hS hl ui ti uj tj
  constructor
  · refine ⟨w, t, w', t', hf, ?_⟩
    rw [h _ _ _ _ hf]
    simp [ho]
  · rintro e ⟨w, t, w', t', hf, rfl⟩
    rw [h _ _ _ _ hf]
    have : 0 ≤ ∫ s in (0 : ℝ)..l, S * (w' s - t s - Q / S) ^ 2 + B * (t' s - m s / B) ^ 2 :=
      intervalIntegral.integral_nonneg hl.le (fun s _ => by positivity)
    linarith

/-! ## The element and the elliptic beam -/

theorem timoshenko_scale {B S l k : ℝ} (hB : 0 < B) (hS : 0 < S) (hl : 0 < l) (hk : 0 < k) (ui ti uj tj : ℝ) :
    timoshenkoEnergy (k * B) (k * S) l ui ti uj tj = k * timoshenkoEnergy B S l ui ti uj tj := by
  unfold timoshenkoEnergy
  have : l ^ 3 / (12 * (k * B)) + l / (k * S) = k⁻¹ * (l ^ 3 / (12 * B) + l / S) := by field_simp
  rw [this, mul_inv, inv_inv]
  ring

theorem timoshenko_bending {B S l : ℝ} (hB : 0 < B) (hS : 0 < S) (hl : 0 < l) (ui ti uj tj : ℝ) :
    timoshenkoEnergy B S l ui ti uj tj ≤ timoshenkoEnergy (4 / 3 * B) S l ui ti uj tj ∧
      timoshenkoEnergy (4 / 3 * B) S l ui ti uj tj ≤ 4 / 3 * timoshenkoEnergy B S l ui ti uj tj ∧
      B / l * (tj - ti) ^ 2 ≤ timoshenkoEnergy B S l ui ti uj tj := by
  unfold timoshenkoEnergy
  have hx : 0 < l ^ 3 / (12 * B) := by positivity
  have hy : 0 < l / S := by positivity
  have e : l ^ 3 / (12 * (4 / 3 * B)) = 3 / 4 * (l ^ 3 / (12 * B)) := by field_simp
  rw [e]
  generalize l ^ 3 / (12 * B) = x at hx ⊢
  generalize l / S = y at hy ⊢
  have hb : 0 ≤ B / l * (tj - ti) ^ 2 := by positivity
  have hD := sq_nonneg (uj - ui - l * ((ti + tj) / 2))
  have e3 : 4 / 3 * B / l * (tj - ti) ^ 2 = 4 / 3 * (B / l * (tj - ti) ^ 2) := by ring
  rw [e3]
  generalize B / l * (tj - ti) ^ 2 = q at hb ⊢
  generalize (uj - ui - l * ((ti + tj) / 2)) ^ 2 = D at hD ⊢
  have h1 : (x + y)⁻¹ ≤ (3 / 4 * x + y)⁻¹ := inv_anti₀ (by positivity) (by linarith)
  have h2 : (3 / 4 * x + y)⁻¹ ≤ 4 / 3 * (x + y)⁻¹ := by
    have : (4 / 3 : ℝ) * (x + y)⁻¹ = (3 / 4 * (x + y))⁻¹ := by rw [mul_inv]; norm_num
    rw [this]
    exact inv_anti₀ (by positivity) (by linarith)
  have h3 : 0 < (x + y)⁻¹ := by positivity
  refine ⟨?_, ?_, ?_⟩
  · nlinarith [mul_le_mul_of_nonneg_right h1 hD]
  · nlinarith [mul_le_mul_of_nonneg_right h2 hD]
  · nlinarith [mul_nonneg h3.le hD]

variable {K : Type} [Field K] [LinearOrder K] [IsStrictOrderedRing K]

theorem element_map (φ : K →+* ℝ) (hφ : StrictMono φ) {size l E : K} {f : Fiber K} (hf : GoodFiber size f)
    (hE : f.E = (E : WithTop K)) (hl : 0 < l) (ui ti uj tj : K) :
    φ (elementEnergy f l 1 ui ti uj tj) =
      npPi / π * (timoshenkoEnergy (4 / 3 * (φ E * ellipseInertia (φ f.b) (φ f.h))) (φ f.G * ellipseArea (φ f.b) (φ f.h)) (φ l)
        (φ ui) (φ ti) (φ uj) (φ tj) + 11 * (4 / 3 * (φ E * ellipseInertia (φ f.b) (φ f.h)) / φ l * (φ tj - φ ti) ^ 2) /
          (1 + φ f.G / φ E * (φ l / φ f.h) ^ 2)) := by
  have hb := pos_of_mono hφ hf.b
  have hh := pos_of_mono hφ hf.h
  have hG := pos_of_mono hφ hf.G
  have hl' := pos_of_mono hφ hl
  have he := pos_of_mono hφ (tensile_pos hf hE)
  have hn : (0 : ℝ) < npPi := npPi_pos
  have hpi := pi_pos
  have hA : 0 < ellipseArea (φ f.b) (φ f.h) := by rw [C139_area hb hh]; positivity
  have hI : 0 < ellipseInertia (φ f.b) (φ f.h) := by rw [C139_inertia hb hh]; positivity
  rw [element_excess hf hE hl, mul_add, ← timoshenko_scale (by positivity) (by positivity) hl' (by positivity), map_add]
  congr 1
  · simp only [timoshenkoEnergy, sectionArea, map_add, map_sub, map_mul, map_div₀, map_inv₀, map_pow, map_ofNat, map_npPi]
    rw [C139_area hb hh, C139_inertia hb hh]
    have e1 : 12 * (φ E * (npPi / 4 * (φ f.b * φ f.h)) * φ f.h ^ 2 / 12) =
        12 * (npPi / π * (4 / 3 * (φ E * (π / 64 * (φ f.b * φ f.h ^ 3))))) := by field_simp; norm_num
    have e2 : φ f.G * (npPi / 4 * (φ f.b * φ f.h)) = npPi / π * (φ f.G * (π / 4 * (φ f.b * φ f.h))) := by field_simp
    have e3 : φ E * (npPi / 4 * (φ f.b * φ f.h)) * φ f.h ^ 2 / 12 =
        npPi / π * (4 / 3 * (φ E * (π / 64 * (φ f.b * φ f.h ^ 3)))) := by linarith
    rw [e1, e2, e3]
  · simp only [sectionArea, map_add, map_sub, map_mul, map_div₀, map_inv₀, map_pow, map_ofNat, map_npPi, map_one]
    rw [C139_inertia hb hh]
    have : 0 < 1 + φ f.G / φ E * (φ l / φ f.h) ^ 2 := by positivity
    generalize 1 + φ f.G / φ E * (φ l / φ f.h) ^ 2 = x at this ⊢
    field_simp
    ring

/-- C140: the energy of the element is between the energy of the elliptic beam and 16 times this energy, but for the last digit of π. -/
theorem C140_element (φ : K →+* ℝ) (hφ : StrictMono φ) {size l E : K} {f : Fiber K} (hf : GoodFiber size f)
    (hE : f.E = (E : WithTop K)) (hl : 0 < l) (ui ti uj tj : K) {T : ℝ}
    (hT : IsLeast {e | ∃ w t w' t', BeamField (φ l) (φ ui) (φ ti) (φ uj) (φ tj) w t w' t' ∧
      e = fieldEnergy (φ E * ellipseInertia (φ f.b) (φ f.h)) (φ f.G * ellipseArea (φ f.b) (φ f.h)) (φ l) t w' t'} T) :
    npPi / π * T ≤ φ (elementEnergy f l 1 ui ti uj tj) ∧ φ (elementEnergy f l 1 ui ti uj tj) ≤ 16 * (npPi / π * T) := by
  have hb := pos_of_mono hφ hf.b
  have hh := pos_of_mono hφ hf.h
  have hG := pos_of_mono hφ hf.G
  have hl' := pos_of_mono hφ hl
  have he := pos_of_mono hφ (tensile_pos hf hE)
  have hn : (0 : ℝ) < npPi := npPi_pos
  have hpi := pi_pos
  have hA : 0 < ellipseArea (φ f.b) (φ f.h) := by rw [C139_area hb hh]; positivity
  have hI : 0 < ellipseInertia (φ f.b) (φ f.h) := by rw [C139_inertia hb hh]; positivity
  have hB : 0 < φ E * ellipseInertia (φ f.b) (φ f.h) := by positivity
  have hS : 0 < φ f.G * ellipseArea (φ f.b) (φ f.h) := by positivity
  rw [hT.unique (C140_least hB hS hl' _ _ _ _), element_map φ hφ hf hE hl]
  generalize φ E * ellipseInertia (φ f.b) (φ f.h) = B at hB ⊢
  generalize φ f.G * ellipseArea (φ f.b) (φ f.h) = S at hS ⊢
  obtain ⟨b1, b2, b3⟩ := timoshenko_bending hB hS hl' (φ ui) (φ ti) (φ uj) (φ tj)
  have hx : 1 ≤ 1 + φ f.G / φ E * (φ l / φ f.h) ^ 2 := by
    have : 0 ≤ φ f.G / φ E * (φ l / φ f.h) ^ 2 := by positivity
    linarith
  generalize 1 + φ f.G / φ E * (φ l / φ f.h) ^ 2 = x at hx ⊢
  have hc : 0 < (npPi : ℝ) / π := by positivity
  have e : 4 / 3 * B / φ l * (φ tj - φ ti) ^ 2 = 4 / 3 * (B / φ l * (φ tj - φ ti) ^ 2) := by ring
  have hq : 0 ≤ B / φ l * (φ tj - φ ti) ^ 2 := by positivity
  rw [e]
  generalize B / φ l * (φ tj - φ ti) ^ 2 = q at hq b3 ⊢
  have h1 : 0 ≤ 11 * (4 / 3 * q) / x := by positivity
  have h2 : 11 * (4 / 3 * q) / x ≤ 11 * (4 / 3 * q) := div_le_self (by positivity) hx
  constructor
  · exact mul_le_mul_of_nonneg_left (by linarith) hc.le
  · have := mul_le_mul_of_nonneg_left (show timoshenkoEnergy (4 / 3 * B) S (φ l) (φ ui) (φ ti) (φ uj) (φ tj) + 11 * (4 / 3 * q) / x ≤
      16 * timoshenkoEnergy B S (φ l) (φ ui) (φ ti) (φ uj) (φ tj) by linarith) hc.le
    linarith

/-- C140: in pure bending, the ratio of the energy of the element and that of the elliptic beam; it tends to 16 for short beams. -/
theorem C140_bending (φ : K →+* ℝ) (hφ : StrictMono φ) {size l E t : K} {f : Fiber K} (hf : GoodFiber size f)
    (hE : f.E = (E : WithTop K)) (hl : 0 < l) {T : ℝ}
    (hT : IsLeast {e | ∃ w t' w' t'', BeamField (φ l) 0 (-φ t) 0 (φ t) w t' w' t'' ∧
      e = fieldEnergy (φ E * ellipseInertia (φ f.b) (φ f.h)) (φ f.G * ellipseArea (φ f.b) (φ f.h)) (φ l) t' w' t''} T) :
    φ (elementEnergy f l 1 0 (-t) 0 t) = npPi / π * (4 / 3) * (1 + 11 / (1 + φ f.G / φ E * (φ l / φ f.h) ^ 2)) * T := by
  have hb := pos_of_mono hφ hf.b
  have hh := pos_of_mono hφ hf.h
  have hG := pos_of_mono hφ hf.G
  have hl' := pos_of_mono hφ hl
  have he := pos_of_mono hφ (tensile_pos hf hE)
  have hpi := pi_pos
  have hA : 0 < ellipseArea (φ f.b) (φ f.h) := by rw [C139_area hb hh]; positivity
  have hI : 0 < ellipseInertia (φ f.b) (φ f.h) := by rw [C139_inertia hb hh]; positivity
  rw [hT.unique (C140_least (by positivity) (by positivity) hl' _ _ _ _), element_map φ hφ hf hE hl]
  unfold timoshenkoEnergy
  simp only [map_zero, map_neg]
  ring

/-- C140: the energy stored in the matrix of a mat, with finite tensile moduli and `coupling = 1`, compared with the energy of the
fibers as continuous beams with elliptic sections, deformed as they prefer between the nodes. -/
theorem C140_mat (φ : K →+* ℝ) (hφ : StrictMono φ) {mat : Mat K} {mesh : Mesh K} {lmin lmax : Option K} {Km : Coo (Cell K)}
    (h : stiffness mat mesh lmin lmax 1 = .ok Km) (hm : GoodMat mat) (hp : PositiveLengths mesh.rows lmin lmax) {L : ℕ → K}
    (hL : BeamLengths mesh.rows lmin lmax L) (E : Fiber K → K) (hE : ∀ f ∈ mat.fibers, f.E = (E f : WithTop K)) (u : ℕ → K)
    (M : ℕ → ℕ → K) (hM : ∀ r s, Km.get r s = .fin (M r s)) {T : ℕ → ℝ}
    (hT : ∀ i f, StartsBeam mesh.rows i → nodeFiber mat mesh.rows i = some f →
      IsLeast {e | ∃ w t w' t', BeamField (φ (L i)) (φ (u (2 * i))) (φ (u (2 * i + 1))) (φ (u (2 * succNode mesh.rows i)))
          (φ (u (2 * succNode mesh.rows i + 1))) w t w' t' ∧
        e = fieldEnergy (φ (E f) * ellipseInertia (φ f.b) (φ f.h)) (φ f.G * ellipseArea (φ f.b) (φ f.h)) (φ (L i)) t w' t'} (T i)) :
    npPi / π * (open Classical in ∑ i ∈ (Finset.range mesh.rows.length).filter (StartsBeam mesh.rows), T i) ≤
        φ (energy (2 * mesh.rows.length) M u) ∧
      φ (energy (2 * mesh.rows.length) M u) ≤
        16 * (npPi / π * (open Classical in ∑ i ∈ (Finset.range mesh.rows.length).filter (StartsBeam mesh.rows), T i)) := by
  classical
  rw [C65_energy h hm hp hL u M (fun r s _ _ => hM r s)]
  obtain ⟨size, -, hg⟩ := hm.size
  obtain ⟨bl, ha, hpos, -, hbl⟩ := assembled_lengths h
  unfold elasticEnergy
  have key : ∀ i, StartsBeam mesh.rows i → npPi / π * T i ≤ φ (match nodeFiber mat mesh.rows i with
        | none => 0
        | some f => elementEnergy f (L i) 1 (u (2 * i)) (u (2 * i + 1)) (u (2 * succNode mesh.rows i)) (u (2 * succNode mesh.rows i + 1))) ∧
      φ (match nodeFiber mat mesh.rows i with
        | none => 0
        | some f => elementEnergy f (L i) 1 (u (2 * i)) (u (2 * i + 1)) (u (2 * succNode mesh.rows i)) (u (2 * succNode mesh.rows i + 1))) ≤
      16 * (npPi / π * T i) := by
    intro i hst
    obtain ⟨p, hpm, rfl⟩ := ha.all i hst
    obtain ⟨-, -, hf⟩ := (ha.beam p hpm).data
    rw [hf]
    have hLi : 0 < L p.1.i := by
      rw [← (hbl L).1 hL p hpm]
      exact hpos hp p hpm
    exact C140_element φ hφ (hg _ (nodeFiber_mem hf)) (hE _ (nodeFiber_mem hf)) hLi _ _ _ _ (hT _ _ hst hf)
  rw [← Finset.sum_filter, map_sum, Finset.mul_sum, Finset.mul_sum]
  constructor
  · exact Finset.sum_le_sum (fun i hi => (key i (Finset.mem_filter.1 hi).2).1)
  · exact Finset.sum_le_sum (fun i hi => (key i (Finset.mem_filter.1 hi).2).2)

end Fibermat
