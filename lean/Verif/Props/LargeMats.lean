import Verif.Spec.LargeMats
import Verif.Props.NeighbourNodes
import Verif.Props.Piles
import Mathlib.Probability.Distributions.Poisson.PoissonLimitThm

/-! # C123: larger and larger random mats with the same number of fibers per area -/

namespace Fibermat
open Spec MeasureTheory ProbabilityTheory Set Filter Topology

noncomputable section
variable {Ω : Type} [MeasurableSpace Ω] {P : Measure Ω} {d : ℕ → Ω → ℝ} {e s : ℕ} {a : ℕ → MatArgs ℝ} {l ρ : ℝ}

theorem Spec.GrowingMats.toNat (h : GrowingMats a l ρ) (t : ℕ) : (a t).n.toNat = t + 1 := by
  rw [h.n t]
  omega

theorem Spec.GrowingMats.lpos (h : GrowingMats a l ρ) : 0 < l := h.length 0 ▸ (h.positive 0).1

theorem Spec.GrowingMats.small' (h : GrowingMats a l ρ) (t : ℕ) : (a t).length ≤ (a t).size / 2 := h.length t ▸ h.small t

theorem Spec.GrowingMats.size_pos (h : GrowingMats a l ρ) (t : ℕ) : 0 < (a t).size := by
  have := h.lpos
  have := h.small t
  linarith

/-- The mean number of neighbours, with one trial more. -/
theorem growing_mean' (h : GrowingMats a l ρ) :
    Tendsto (fun t : ℕ => ((t : ℝ) + 1) * crossChance (a t).length (a t).size Real.pi) atTop (𝓝 (meanNeighbours l ρ)) := by
  have h1 := (h.density.const_mul (2 * l ^ 2 / Real.pi))
  have e1 : 2 * l ^ 2 / Real.pi * ρ = meanNeighbours l ρ := by
    unfold meanNeighbours
    ring
  rw [e1] at h1
  refine h1.congr fun t => ?_
  rw [C118_isotropic, h.length]
  have := Real.pi_pos.ne'
  have := (h.size_pos t).ne'
  field_simp

theorem growing_zero (h : GrowingMats a l ρ) : Tendsto (fun t : ℕ => crossChance (a t).length (a t).size Real.pi) atTop (𝓝 0) := by
  have h1 := (growing_mean' h).mul (tendsto_one_div_add_atTop_nhds_zero_nat (𝕜 := ℝ))
  rw [mul_zero] at h1
  refine h1.congr fun t => ?_
  have : (t : ℝ) + 1 ≠ 0 := by positivity
  field_simp

theorem growing_mean (h : GrowingMats a l ρ) :
    Tendsto (fun t : ℕ => (t : ℝ) * crossChance (a t).length (a t).size Real.pi) atTop (𝓝 (meanNeighbours l ρ)) := by
  have h1 := (growing_mean' h).sub (growing_zero h)
  rw [sub_zero] at h1
  exact h1.congr fun t => by ring

/-- Powers of numbers close to one. -/
theorem pow_tendsto_exp {p : ℕ → ℝ} {i : ℕ → ℕ} {r : ℝ} (h0 : ∀ t, 0 ≤ p t) (hp : Tendsto p atTop (𝓝 0))
    (hr : Tendsto (fun t => (i t : ℝ) * p t) atTop (𝓝 r)) : Tendsto (fun t => (1 - p t) ^ i t) atTop (𝓝 (Real.exp (-r))) := by
  have h1 : Tendsto (fun t => (i t : ℝ) * p t / (1 - p t)) atTop (𝓝 r) := by
    have := hr.div (tendsto_const_nhds (x := (1 : ℝ)) |>.sub hp) (by norm_num)
    rw [sub_zero, div_one] at this
    exact this
  refine tendsto_of_tendsto_of_tendsto_of_le_of_le' ((Real.continuous_exp.tendsto _).comp h1.neg) ((Real.continuous_exp.tendsto _).comp hr.neg) ?_ ?_
  · filter_upwards [hp.eventually (gt_mem_nhds (by norm_num : (0 : ℝ) < 1))] with t ht
    have hpos : 0 < 1 - p t := by linarith
    have hlog := Real.one_sub_inv_le_log_of_pos hpos
    have : Real.exp (-(p t / (1 - p t))) ≤ 1 - p t := by
      rw [← Real.le_log_iff_exp_le hpos]
      refine le_trans (le_of_eq ?_) hlog
      field_simp
      ring
    refine le_trans (le_of_eq ?_) (pow_le_pow_left₀ (Real.exp_pos _).le this _)
    rw [← Real.exp_nat_mul, Function.comp_apply]
    congr 1
    ring
  · filter_upwards [hp.eventually (gt_mem_nhds (by norm_num : (0 : ℝ) < 1))] with t ht
    refine (pow_le_pow_left₀ (by linarith) (Real.one_sub_le_exp_neg (p t)) _).trans (le_of_eq ?_)
    rw [← Real.exp_nat_mul, Function.comp_apply]
    congr 1
    ring

/-- C123: the number of neighbours of a fiber tends to a Poisson law. -/
theorem C123_degree (hd : UniformDraws P d) (h : GrowingMats a l ρ) {i : ℕ → ℕ} (hi : ∀ t, i t ≤ t) (k : ℕ) :
    Tendsto (fun t : ℕ => P {ω | ∃ m s' net, matNew (stream (fun k => d k ω)) Real.cos Real.sin e (a t) s = .ok (m, s') ∧
      netNew m true = .ok net ∧ degree net (i t) = k}) atTop (𝓝 (ENNReal.ofReal (poisson (meanNeighbours l ρ) k))) := by
  refine (ENNReal.tendsto_ofReal (tendsto_choose_mul_pow_of_tendsto_mul_atTop k (growing_mean h))).congr fun t => ?_
  rw [C121_binomial hd (h.seed t).1 (h.seed t).2 (h.positive t) (h.planar t) (h.small' t) (h.theta t)
    (by rw [h.n t]; have := hi t; omega) k, h.toNat t]
  rfl

/-- C123: the number of nodes of a fiber in the mesh of the stack, less two, tends to the same law. -/
theorem C123_mesh (hd : UniformDraws P d) (h : GrowingMats a l ρ) {lp : Linprog ℝ} (hlp : GoodLinprog lp) {i : ℕ → ℕ} (hi : ∀ t, i t ≤ t)
    (k : ℕ) :
    Tendsto (fun t : ℕ => P {ω | ∃ m s' net m' st mesh, matNew (stream (fun k => d k ω)) Real.cos Real.sin e (a t) s = .ok (m, s') ∧
      netNew m true = .ok net ∧ stackNew lp m net none = .ok (m', st) ∧ meshNew st = .ok mesh ∧ (nodesOf mesh.rows (i t)).card = k + 2})
      atTop (𝓝 (ENNReal.ofReal (poisson (meanNeighbours l ρ) k))) := by
  refine (ENNReal.tendsto_ofReal (tendsto_choose_mul_pow_of_tendsto_mul_atTop k (growing_mean h))).congr fun t => ?_
  rw [C121_mesh hd (h.seed t).1 (h.seed t).2 (h.positive t) (h.planar t) (h.small' t) (h.theta t) hlp
    (by rw [h.n t]; have := hi t; omega) k, h.toNat t]
  rfl

/-- C123: the probability that a fiber is isolated. -/
theorem C123_isolated (hd : UniformDraws P d) (h : GrowingMats a l ρ) {i : ℕ → ℕ} (hi : ∀ t, i t ≤ t) :
    Tendsto (fun t : ℕ => P {ω | ∃ m s' net, matNew (stream (fun k => d k ω)) Real.cos Real.sin e (a t) s = .ok (m, s') ∧
      netNew m true = .ok net ∧ ∀ j : ℕ, j ≠ i t → ¬ Linked net (i t) j}) atTop (𝓝 (ENNReal.ofReal (Real.exp (-(2 * ρ * l ^ 2 / Real.pi))))) := by
  have h0 := tendsto_choose_mul_pow_of_tendsto_mul_atTop 0 (growing_mean h)
  simp only [Nat.choose_zero_right, Nat.cast_one, pow_zero, one_mul, Nat.sub_zero, mul_one, Nat.factorial_zero, div_one] at h0
  refine (ENNReal.tendsto_ofReal h0).congr fun t => ?_
  rw [C121_isolated hd (h.seed t).1 (h.seed t).2 (h.positive t) (h.planar t) (h.small' t) (h.theta t)
    (by rw [h.n t]; have := hi t; omega), h.toNat t, C118_isotropic]
  rfl

/-- C123: a fiber a fraction `τ` of the way up the list lies on the floor of the stack with a probability tending to `exp (-λ τ)`. -/
theorem C123_floor (hd : UniformDraws P d) (h : GrowingMats a l ρ) {lp : Linprog ℝ} (hlp : GoodLinprog lp) (threshold : Option ℝ) {i : ℕ → ℕ}
    (hi : ∀ t, i t ≤ t) {τ : ℝ} (hτ : Tendsto (fun t : ℕ => (i t : ℝ) / (t + 1)) atTop (𝓝 τ)) :
    Tendsto (fun t : ℕ => P {ω | ∃ m s' net m' st, matNew (stream (fun k => d k ω)) Real.cos Real.sin e (a t) s = .ok (m, s') ∧
      netNew m true = .ok net ∧ stackNew lp m net threshold = .ok (m', st) ∧ heightOf m' (i t) = (a t).thickness / 2})
      atTop (𝓝 (ENNReal.ofReal (Real.exp (-(meanNeighbours l ρ * τ))))) := by
  have key : Tendsto (fun t : ℕ => (1 - crossChance (a t).length (a t).size Real.pi) ^ i t) atTop (𝓝 (Real.exp (-(meanNeighbours l ρ * τ)))) := by
    refine pow_tendsto_exp (fun t => crossChance_nonneg Real.pi_pos.le) (growing_zero h) ?_
    refine ((growing_mean' h).mul hτ).congr fun t => ?_
    have : (t : ℝ) + 1 ≠ 0 := by positivity
    field_simp
  refine (ENNReal.tendsto_ofReal key).congr fun t => ?_
  rw [C122_floor hd (h.seed t).1 (h.seed t).2 (h.positive t) (h.planar t) (h.small' t) (h.theta t) hlp threshold
    (by rw [h.n t]; have := hi t; omega)]

/-- C123: the mean number of fibers on the floor per area. -/
theorem C123_floor_mean (hd : UniformDraws P d) (h : GrowingMats a l ρ) {lp : Linprog ℝ} (hlp : GoodLinprog lp) {threshold : Option ℝ}
    {M : ℕ → Ω → Mat ℝ}
    (hM : ∀ t ω, ∃ m s' net st, matNew (stream (fun k => d k ω)) Real.cos Real.sin e (a t) s = .ok (m, s') ∧ netNew m true = .ok net ∧
      stackNew lp m net threshold = .ok (M t ω, st)) :
    Tendsto (fun t : ℕ => (∫ ω, (floorCount (M t ω) : ℝ) ∂P) / (a t).size ^ 2) atTop
      (𝓝 (Real.pi / (2 * l ^ 2) * (1 - Real.exp (-meanNeighbours l ρ)))) := by
  have h0 : Tendsto (fun t : ℕ => (1 - crossChance (a t).length (a t).size Real.pi) ^ (t + 1)) atTop (𝓝 (Real.exp (-meanNeighbours l ρ))) := by
    refine pow_tendsto_exp (i := fun t => t + 1) (fun t => crossChance_nonneg Real.pi_pos.le) (growing_zero h) ?_
    refine (growing_mean' h).congr fun t => ?_
    push_cast
    rfl
  refine ((tendsto_const_nhds.sub h0).const_mul _).congr fun t => ?_
  rw [C122_floor_mean hd (h.seed t).2 (h.positive t) (h.planar t) (h.small' t) (h.theta t) hlp (hM t), h.toNat t, C118_isotropic, h.length]
  have := Real.pi_pos.ne'
  have := (h.size_pos t).ne'
  have := h.lpos.ne'
  field_simp

/-- C123: the number of rows of the network per fiber tends to `1 + λ / 2` in probability. -/
theorem C123_rows (hd : UniformDraws P d) (h : GrowingMats a l ρ) {N : ℕ → Ω → Net ℝ}
    (hN : ∀ t ω, ∃ m s', matNew (stream (fun k => d k ω)) Real.cos Real.sin e (a t) s = .ok (m, s') ∧ netNew m true = .ok (N t ω))
    {c : ℝ} (hc : 0 < c) :
    Tendsto (fun t : ℕ => P {ω | c ≤ |((N t ω).rows.length : ℝ) / (t + 1) - (1 + meanNeighbours l ρ / 2)|}) atTop (𝓝 0) := by
  have := hd.indep.isProbabilityMeasure
  have hmean : Tendsto (fun t : ℕ => 1 + (t : ℝ) * crossChance (a t).length (a t).size Real.pi / 2) atTop (𝓝 (1 + meanNeighbours l ρ / 2)) :=
    ((growing_mean h).div_const 2).const_add 1
  have hbound : Tendsto (fun t : ℕ => ENNReal.ofReal (((t : ℝ) * crossChance (a t).length (a t).size Real.pi) * (1 / ((t : ℝ) + 1)) * (2 / c ^ 2)))
      atTop (𝓝 0) := by
    have := ((growing_mean h).mul (tendsto_one_div_add_atTop_nhds_zero_nat (𝕜 := ℝ))).mul_const (2 / c ^ 2)
    rw [mul_zero, zero_mul] at this
    have := ENNReal.tendsto_ofReal this
    rwa [ENNReal.ofReal_zero] at this
  refine tendsto_of_tendsto_of_tendsto_of_le_of_le' tendsto_const_nhds hbound (Eventually.of_forall fun _ => zero_le) ?_
  filter_upwards [(Metric.tendsto_nhds.1 hmean) (c / 2) (by positivity)] with t ht
  rw [Real.dist_eq] at ht
  have hn : ((a t).n : ℝ) = t + 1 := by
    rw [h.n t]
    push_cast
    ring
  have hpos : (0 : ℤ) < (a t).n := by
    rw [h.n t]
    omega
  have ht1 : (0 : ℝ) < t + 1 := by positivity
  have hv := meas_ge_le_variance_div_sq (rows_memLp (e := e) (s := s) hd (h.seed t).2 hpos (h.positive t) (h.planar t) (h.small' t) (h.theta t) (hN t))
    (mul_pos (half_pos hc) ht1)
  rw [C118_variance (e := e) (s := s) hd (h.seed t).2 hpos (h.positive t) (h.planar t) (h.small' t) (h.theta t) (hN t),
    C118_mean (e := e) (s := s) hd (h.seed t).1 (h.seed t).2 hpos (h.positive t) (h.planar t) (h.small' t) (h.theta t ▸ Real.pi_pos) (h.theta t).le (hN t),
    h.theta t, hn] at hv
  have hp0 : 0 ≤ crossChance (a t).length (a t).size Real.pi := crossChance_nonneg Real.pi_pos.le
  refine ((measure_mono ?_).trans hv).trans (ENNReal.ofReal_le_ofReal ?_)
  · intro ω hω
    rw [mem_ofPred_eq] at hω ⊢
    generalize crossChance (a t).length (a t).size Real.pi = p at *
    generalize ((N t ω).rows.length : ℝ) = X at *
    have e1 : X - ((t : ℝ) + 1 + (t + 1) * (t + 1 - 1) / 2 * p) = (X / (t + 1) - (1 + t * p / 2)) * (t + 1) := by
      field_simp
      ring
    rw [e1, abs_mul, abs_of_pos ht1]
    refine mul_le_mul_of_nonneg_right ?_ ht1.le
    have := abs_sub_le (X / ((t : ℝ) + 1)) (1 + t * p / 2) (1 + meanNeighbours l ρ / 2)
    linarith
  · generalize crossChance (a t).length (a t).size Real.pi = p at *
    have e2 : ((t : ℝ) + 1) * (t + 1 - 1) / 2 * (p * (1 - p)) / (c / 2 * (t + 1)) ^ 2 = (t * p) * (1 / (t + 1)) * (2 / c ^ 2) * (1 - p) := by
      field_simp
      ring
    rw [e2]
    exact mul_le_of_le_one_right (by positivity) (by linarith)

end
end Fibermat
