import Verif.Props.ChanceLaw

/-! # C118: variance of the number of connections of an isotropic mat -/

namespace Fibermat
open Spec MeasureTheory ProbabilityTheory Set

section
variable {Ω : Type} [MeasurableSpace Ω] {P : Measure Ω} {d : ℕ → Ω → ℝ} {e s : ℕ} {a : MatArgs ℝ}

theorem crossDraws_symm {l S θ : ℝ} {w b : ℝ × ℝ} {p q : ℝ} (h : CrossDraws l S θ w b (p, q)) : CrossDraws l S θ b w (q, p) := by
  obtain ⟨i, j, h1, h2⟩ := h
  simp only at h1 h2
  refine ⟨-i, -j, ?_, ?_⟩
  · simp only
    rw [← abs_neg, ← abs_neg (Real.cos _ * Real.sin _ - _)]
    push_cast
    convert h2 using 3 <;> ring
  · simp only
    rw [← abs_neg, ← abs_neg (Real.cos _ * Real.sin _ - _)]
    push_cast
    convert h1 using 3 <;> ring

/-- The numbers drawn for the place and the angle of a fiber. -/
def fiberDraws (d : ℕ → Ω → ℝ) (n i : ℕ) (ω : Ω) : (ℝ × ℝ) × ℝ := ((d i ω, d (n + i) ω), d (3 * n + i) ω)

/-- The condition of crossing for two fibers. -/
def CrossFibers (l S θ : ℝ) (y y' : (ℝ × ℝ) × ℝ) : Prop := CrossDraws l S θ y.1 y'.1 (y.2, y'.2)

theorem measurableSet_crossFibers (l S θ : ℝ) : MeasurableSet {v : ((ℝ × ℝ) × ℝ) × ((ℝ × ℝ) × ℝ) | CrossFibers l S θ v.1 v.2} :=
  (measurableSet_crossDraws l S θ).preimage (f := fun v : ((ℝ × ℝ) × ℝ) × ((ℝ × ℝ) × ℝ) => (v.1.1, (v.2.1, (v.1.2, v.2.2)))) (by fun_prop)

theorem Spec.UniformDraws.fiber_measurable (hd : UniformDraws P d) (n i : ℕ) : Measurable (fiberDraws d n i) :=
  ((hd.measurable _).prodMk (hd.measurable _)).prodMk (hd.measurable _)

theorem Spec.UniformDraws.fiber_law (hd : UniformDraws P d) {n i : ℕ} (hi : i < n) : P.map (fiberDraws d n i) =
    ((volume.restrict (Ico (0 : ℝ) 1)).prod (volume.restrict (Ico (0 : ℝ) 1))).prod (volume.restrict (Ico (0 : ℝ) 1)) := by
  have := hd.indep.isProbabilityMeasure
  have h := hd.indep.indepFun_prodMk hd.measurable i (n + i) (3 * n + i) (by omega) (by omega)
  have h2 := h.map_prod_eq_prod_map_map ((hd.measurable _).prodMk (hd.measurable _)).aemeasurable (hd.measurable _).aemeasurable
  rw [hd.law, hd.pair (by omega)] at h2
  exact h2

/-- For fibers of all directions, the probability that a given fiber crosses a random one does not depend on the given one. -/
theorem crossFibers_given {l S : ℝ} (hl : 0 ≤ l) (hS : 0 < S) (hlS : l ≤ S / 2) (y : (ℝ × ℝ) × ℝ) (h0 : 0 ≤ y.2) (h1 : y.2 ≤ 1) :
    ((volume.restrict (Ico (0 : ℝ) 1)).prod (volume.restrict (Ico (0 : ℝ) 1))).prod (volume.restrict (Ico (0 : ℝ) 1))
      {y' | CrossFibers l S Real.pi y y'} = ENNReal.ofReal (crossChance l S Real.pi) := by
  have hm : MeasurableSet {y' | CrossFibers l S Real.pi y y'} :=
    (measurableSet_crossFibers l S Real.pi).preimage (f := fun y' : (ℝ × ℝ) × ℝ => (y, y')) (by fun_prop)
  rw [Measure.prod_apply_symm hm]
  have e1 : ∀ q : ℝ, (volume.restrict (Ico (0 : ℝ) 1)).prod (volume.restrict (Ico (0 : ℝ) 1))
      ((fun w => (w, q)) ⁻¹' {y' | CrossFibers l S Real.pi y y'}) = ENNReal.ofReal (l ^ 2 / S ^ 2 * |Real.sin (Real.pi * (y.2 - q))|) := by
    intro q
    have : (fun w : ℝ × ℝ => (w, q)) ⁻¹' {y' | CrossFibers l S Real.pi y y'} = {w | CrossDraws l S Real.pi w y.1 (q, y.2)} := by
      ext w
      exact ⟨crossDraws_symm, crossDraws_symm⟩
    rw [this, crossDraws_place hl hS hlS]
    congr 2
    rw [← abs_neg, ← Real.sin_neg]
    congr 2
    simp only
    ring
  simp only [e1]
  have hb : Integrable (fun q : ℝ => l ^ 2 / S ^ 2 * |Real.sin (Real.pi * (y.2 - q))|) (volume.restrict (Ico (0 : ℝ) 1)) := by
    refine Integrable.mono' (integrable_const (l ^ 2 / S ^ 2)) (by fun_prop) (Filter.Eventually.of_forall fun p => ?_)
    rw [Real.norm_eq_abs, abs_mul, abs_abs, abs_of_nonneg (by positivity)]
    exact mul_le_of_le_one_right (by positivity) (Real.abs_sin_le_one _)
  rw [← ofReal_integral_eq_lintegral_ofReal hb (Filter.Eventually.of_forall fun p => by positivity), integral_const_mul,
    integral_Ico_eq_integral_Ioo, ← integral_Ioc_eq_integral_Ioo, ← intervalIntegral.integral_of_le zero_le_one,
    integral_abs_sin Real.pi_pos le_rfl h0 h1, show Real.pi * (1 - y.2) = Real.pi - Real.pi * y.2 by ring, Real.cos_pi_sub]
  congr 1
  unfold crossChance
  rw [Real.sin_pi]
  have := Real.pi_pos.ne'
  field_simp
  ring

/-- The event that two fibers cross. -/
def crossEvent (d : ℕ → Ω → ℝ) (l S θ : ℝ) (n : ℕ) (p : ℕ × ℕ) : Set Ω := {ω | CrossFibers l S θ (fiberDraws d n p.1 ω) (fiberDraws d n p.2 ω)}

theorem crossEvent_measurable (hd : UniformDraws P d) (l S θ : ℝ) (n : ℕ) (p : ℕ × ℕ) : MeasurableSet (crossEvent d l S θ n p) := by
  have h := (measurableSet_crossFibers l S θ).preimage ((hd.fiber_measurable n p.1).prodMk (hd.fiber_measurable n p.2))
  exact h

omit [MeasurableSpace Ω] in
theorem crossEvent_swap (l S θ : ℝ) (n i j : ℕ) : crossEvent d l S θ n (i, j) = crossEvent d l S θ n (j, i) := by
  ext ω
  exact ⟨crossDraws_symm, crossDraws_symm⟩

/-- A fiber `j` that does not occur in the pair `p` crosses the fiber `i` independently of the crossing of the pair `p`. -/
theorem crossEvent_inter (hd : UniformDraws P d) {l S : ℝ} (hl : 0 ≤ l) (hS : 0 < S) (hlS : l ≤ S / 2) {n i j : ℕ} {p : ℕ × ℕ}
    (hi : i < n) (hj : j < n) (hp1 : p.1 < n) (hp2 : p.2 < n) (hji : j ≠ i) (hj1 : j ≠ p.1) (hj2 : j ≠ p.2) :
    P (crossEvent d l S Real.pi n (i, j) ∩ crossEvent d l S Real.pi n p) =
      ENNReal.ofReal (crossChance l S Real.pi) * P (crossEvent d l S Real.pi n p) := by
  have := hd.indep.isProbabilityMeasure
  have hI := hd.indep.indepFun_finset {j, n + j, 3 * n + j}
    {i, n + i, 3 * n + i, p.1, n + p.1, 3 * n + p.1, p.2, n + p.2, 3 * n + p.2} (by
      refine Finset.disjoint_left.2 ?_
      intro k hk hk'
      simp only [Finset.mem_insert, Finset.mem_singleton] at hk hk'
      omega) hd.measurable
  have hI : IndepFun (fiberDraws d n j) (fun ω => (fiberDraws d n i ω, (fiberDraws d n p.1 ω, fiberDraws d n p.2 ω))) P :=
    hI.comp (φ := fun f : ({j, n + j, 3 * n + j} : Finset ℕ) → ℝ => ((f ⟨j, by simp⟩, f ⟨n + j, by simp⟩), f ⟨3 * n + j, by simp⟩))
      (ψ := fun f : ({i, n + i, 3 * n + i, p.1, n + p.1, 3 * n + p.1, p.2, n + p.2, 3 * n + p.2} : Finset ℕ) → ℝ =>
        (((f ⟨i, by simp⟩, f ⟨n + i, by simp⟩), f ⟨3 * n + i, by simp⟩),
        (((f ⟨p.1, by simp⟩, f ⟨n + p.1, by simp⟩), f ⟨3 * n + p.1, by simp⟩),
         ((f ⟨p.2, by simp⟩, f ⟨n + p.2, by simp⟩), f ⟨3 * n + p.2, by simp⟩)))) (by fun_prop) (by fun_prop)
  have hX := hd.fiber_measurable n j
  have hZ : Measurable (fun ω => (fiberDraws d n i ω, (fiberDraws d n p.1 ω, fiberDraws d n p.2 ω))) :=
    (hd.fiber_measurable n i).prodMk ((hd.fiber_measurable n p.1).prodMk (hd.fiber_measurable n p.2))
  let B : Set (((ℝ × ℝ) × ℝ) × (((ℝ × ℝ) × ℝ) × (((ℝ × ℝ) × ℝ) × ((ℝ × ℝ) × ℝ)))) :=
    {v | CrossFibers l S Real.pi v.2.1 v.1 ∧ CrossFibers l S Real.pi v.2.2.1 v.2.2.2}
  have hB : MeasurableSet B := by
    have h1 := (measurableSet_crossFibers l S Real.pi).preimage
      (f := fun v : ((ℝ × ℝ) × ℝ) × (((ℝ × ℝ) × ℝ) × (((ℝ × ℝ) × ℝ) × ((ℝ × ℝ) × ℝ))) => (v.2.1, v.1)) (by fun_prop)
    have h2 := (measurableSet_crossFibers l S Real.pi).preimage
      (f := fun v : ((ℝ × ℝ) × ℝ) × (((ℝ × ℝ) × ℝ) × (((ℝ × ℝ) × ℝ) × ((ℝ × ℝ) × ℝ))) => v.2.2) (by fun_prop)
    exact h1.inter h2
  have e1 : P (crossEvent d l S Real.pi n (i, j) ∩ crossEvent d l S Real.pi n p) =
      P.map (fun ω => (fiberDraws d n j ω, (fiberDraws d n i ω, (fiberDraws d n p.1 ω, fiberDraws d n p.2 ω)))) B := by
    rw [Measure.map_apply (hX.prodMk hZ) hB]
    rfl
  rw [e1, hI.map_prod_eq_prod_map_map hX.aemeasurable hZ.aemeasurable, hd.fiber_law hj]
  have : IsProbabilityMeasure (P.map (fun ω => (fiberDraws d n i ω, (fiberDraws d n p.1 ω, fiberDraws d n p.2 ω)))) :=
    Measure.isProbabilityMeasure_map hZ.aemeasurable
  rw [Measure.prod_apply_symm hB, lintegral_map (measurable_measure_prodMk_right hB) hZ]
  have e2 : ∀ ω, ((volume.restrict (Ico (0 : ℝ) 1)).prod (volume.restrict (Ico (0 : ℝ) 1))).prod (volume.restrict (Ico (0 : ℝ) 1))
      ((fun y => (y, (fiberDraws d n i ω, (fiberDraws d n p.1 ω, fiberDraws d n p.2 ω)))) ⁻¹' B) =
      (crossEvent d l S Real.pi n p).indicator (fun _ => ENNReal.ofReal (crossChance l S Real.pi)) ω := by
    intro ω
    by_cases hω : ω ∈ crossEvent d l S Real.pi n p
    · rw [indicator_of_mem hω, ← crossFibers_given hl hS hlS (fiberDraws d n i ω) (hd.range _ _).1 (hd.range _ _).2.le]
      congr 1
      ext y
      exact ⟨fun h => h.1, fun h => ⟨h, hω⟩⟩
    · rw [indicator_of_notMem hω]
      have : (fun y => (y, (fiberDraws d n i ω, (fiberDraws d n p.1 ω, fiberDraws d n p.2 ω)))) ⁻¹' B = ∅ := by
        ext y
        exact ⟨fun h => hω h.2, fun h => h.elim⟩
      rw [this, measure_empty]
  simp only [e2]
  rw [lintegral_indicator_const (crossEvent_measurable hd l S Real.pi n p)]

theorem crossEvent_prob (hd : UniformDraws P d) {l S : ℝ} (hl : 0 ≤ l) (hS : 0 < S) (hlS : l ≤ S / 2) {n : ℕ} {p : ℕ × ℕ}
    (hp : p.1 < p.2) (hp2 : p.2 < n) : P (crossEvent d l S Real.pi n p) = ENNReal.ofReal (crossChance l S Real.pi) := by
  obtain ⟨n1, n2, n3⟩ := crossDraws_indices hp hp2
  exact prob_crossDraws hd hl hS hlS Real.pi_pos le_rfl n1 n2 n3

/-- Two different pairs of fibers cross independently. -/
theorem crossEvent_indep (hd : UniformDraws P d) {l S : ℝ} (hl : 0 ≤ l) (hS : 0 < S) (hlS : l ≤ S / 2) {n : ℕ} {p q : ℕ × ℕ}
    (hp : p.1 < p.2) (hp2 : p.2 < n) (hq : q.1 < q.2) (hq2 : q.2 < n) (hpq : p ≠ q) :
    P (crossEvent d l S Real.pi n p ∩ crossEvent d l S Real.pi n q) =
      ENNReal.ofReal (crossChance l S Real.pi) * ENNReal.ofReal (crossChance l S Real.pi) := by
  obtain ⟨i, j⟩ := p
  obtain ⟨k, m⟩ := q
  simp only [ne_eq, Prod.mk.injEq, not_and] at hp hp2 hq hq2 hpq
  have hq' := crossEvent_prob hd hl hS hlS (p := (k, m)) hq hq2
  by_cases hj : j ≠ k ∧ j ≠ m
  · rw [crossEvent_inter hd hl hS hlS (by omega) hp2 (by simp only; omega) hq2 (by omega) hj.1 hj.2, hq']
  · rw [crossEvent_swap, crossEvent_inter hd hl hS hlS hp2 (by omega) (by simp only; omega) hq2 (by omega) (by simp only; omega)
      (by simp only; omega), hq']

/-- C118: in a random mat of fibers of all directions in a periodic box, two different pairs of fibers are connected independently of
each other, also if they have a fiber in common. -/
theorem C118_independent (hd : UniformDraws P d) (hseed : GoodSeed a.seed) (hs : a.seed ≠ none) (hpos : PositiveArgs a)
    (hpsi : a.psi = 0) (hl : a.length ≤ a.size / 2) (hπ : a.theta = Real.pi) {i j k m : ℕ} (hij : i < j) (hj : (j : ℤ) < a.n)
    (hkm : k < m) (hm : (m : ℤ) < a.n) (hne : (i, j) ≠ (k, m)) :
    P {ω | ∃ mat s' net, matNew (stream (fun k => d k ω)) Real.cos Real.sin e a s = .ok (mat, s') ∧ netNew mat true = .ok net ∧
      AreConnected net i j ∧ AreConnected net k m} =
    P {ω | ∃ mat s' net, matNew (stream (fun k => d k ω)) Real.cos Real.sin e a s = .ok (mat, s') ∧ netNew mat true = .ok net ∧
      AreConnected net i j} *
    P {ω | ∃ mat s' net, matNew (stream (fun k => d k ω)) Real.cos Real.sin e a s = .ok (mat, s') ∧ netNew mat true = .ok net ∧
      AreConnected net k m} := by
  have hS : 0 < a.size := by linarith [hpos.1]
  have h0 : 0 < a.theta := hπ ▸ Real.pi_pos
  have hj' : j < a.n.toNat := by omega
  have hm' : m < a.n.toNat := by omega
  rw [C118_connected hd hseed hs hpos hpsi hl h0 hπ.le hij hj, C118_connected hd hseed hs hpos hpsi hl h0 hπ.le hkm hm, hπ,
    ← crossEvent_indep hd hpos.1.le hS hl hij hj' hkm hm' hne]
  congr 1
  ext ω
  simp only [mem_ofPred_eq, mem_inter_iff]
  constructor
  · rintro ⟨mat, s', net, h, hnet, hc, hc'⟩
    have h1 := (random_connected hd hs hpsi hS hl h hnet hij hj').1 hc
    have h2 := (random_connected hd hs hpsi hS hl h hnet hkm hm').1 hc'
    rw [hπ] at h1 h2
    exact ⟨h1, h2⟩
  · rintro ⟨h1, h2⟩
    obtain ⟨mat, s', net, h, hnet⟩ := C118_exists (e := e) (s := s) hd hseed (by omega) hS.le hpos true ω
    refine ⟨mat, s', net, h, hnet, (random_connected hd hs hpsi hS hl h hnet hij hj').2 ?_,
      (random_connected hd hs hpsi hS hl h hnet hkm hm').2 ?_⟩
    · rw [hπ]
      exact h1
    · rw [hπ]
      exact h2

theorem cov_indicator [IsProbabilityMeasure P] {A B : Set Ω} (hA : MeasurableSet A) (hB : MeasurableSet B) :
    cov[A.indicator (fun _ => (1 : ℝ)), B.indicator (fun _ => (1 : ℝ)); P] = P.real (A ∩ B) - P.real A * P.real B := by
  have m : ∀ {C : Set Ω}, MeasurableSet C → MemLp (C.indicator (fun _ => (1 : ℝ))) 2 P := fun hC => memLp_indicator_const 2 hC 1 (Or.inr (measure_ne_top _ _))
  rw [covariance_eq_sub (m hA) (m hB)]
  have : A.indicator (fun _ => (1 : ℝ)) * B.indicator (fun _ => (1 : ℝ)) = (A ∩ B).indicator (fun _ => (1 : ℝ)) := by
    ext ω
    simp only [Pi.mul_apply, indicator, mem_inter_iff]
    split_ifs <;> simp_all
  rw [this, integral_indicator_const _ (hA.inter hB), integral_indicator_const _ hA, integral_indicator_const _ hB]
  simp

theorem crossChance_nonneg {l S θ : ℝ} (h0 : 0 ≤ θ) : 0 ≤ crossChance l S θ :=
  mul_nonneg (by positivity) (div_nonneg (mul_nonneg (by norm_num) (sub_nonneg.2 (Real.sin_le h0))) (by positivity))

/-- C118: the variance of the number of rows of the network of a random mat of fibers of all directions in a periodic box is the one of
independent connections. -/
theorem C118_variance (hd : UniformDraws P d) (hs : a.seed ≠ none) (hn : 0 < a.n) (hpos : PositiveArgs a)
    (hpsi : a.psi = 0) (hl : a.length ≤ a.size / 2) (hπ : a.theta = Real.pi) {N : Ω → Net ℝ}
    (hN : ∀ ω, ∃ m s', matNew (stream (fun k => d k ω)) Real.cos Real.sin e a s = .ok (m, s') ∧ netNew m true = .ok (N ω)) :
    Var[fun ω => ((N ω).rows.length : ℝ); P] =
      a.n * (a.n - 1) / 2 * (crossChance a.length a.size Real.pi * (1 - crossChance a.length a.size Real.pi)) := by
  classical
  have := hd.indep.isProbabilityMeasure
  have hS : 0 < a.size := by linarith [hpos.1]
  have hna : ((a.n.toNat : ℕ) : ℝ) = a.n := by
    have : ((a.n.toNat : ℕ) : ℤ) = a.n := by omega
    exact_mod_cast this
  generalize hT : (Finset.range a.n.toNat ×ˢ Finset.range a.n.toNat).filter (fun p => p.1 < p.2) = T
  have hTm : ∀ p ∈ T, p.1 < p.2 ∧ p.2 < a.n.toNat := by
    intro p hp
    rw [← hT] at hp
    simp only [Finset.mem_filter, Finset.mem_product, Finset.mem_range] at hp
    exact ⟨hp.2, hp.1.2⟩
  have hE := crossEvent_measurable hd a.length a.size Real.pi a.n.toNat
  have hlen : (fun ω => ((N ω).rows.length : ℝ)) = fun ω => a.n +
      (∑ p ∈ T, (crossEvent d a.length a.size Real.pi a.n.toNat p).indicator (fun _ => (1 : ℝ))) ω := by
    ext ω
    obtain ⟨m, s', h, hnet⟩ := hN ω
    obtain ⟨hgood, -, hlen, -⟩ := random_mat hd hs hpsi h
    rw [rows_card hgood hnet hlen, hT, Finset.card_filter, Finset.sum_apply]
    push_cast
    rw [hna]
    congr 1
    refine Finset.sum_congr rfl fun p hp => ?_
    have := random_connected hd hs hpsi hS hl h hnet (hTm p hp).1 (hTm p hp).2
    rw [hπ] at this
    simp only [indicator, this]
    rfl
  have hm : ∀ p, MemLp ((crossEvent d a.length a.size Real.pi a.n.toNat p).indicator (fun _ => (1 : ℝ))) 2 P :=
    fun p => memLp_indicator_const 2 (hE p) 1 (Or.inr (measure_ne_top _ _))
  rw [hlen, variance_const_add (memLp_finsetSum' _ fun p _ => hm p).aestronglyMeasurable, variance_sum' fun p _ => hm p]
  have hr : ∀ p ∈ T, P.real (crossEvent d a.length a.size Real.pi a.n.toNat p) = crossChance a.length a.size Real.pi := by
    intro p hp
    rw [Measure.real, crossEvent_prob hd hpos.1.le hS hl (hTm p hp).1 (hTm p hp).2,
      ENNReal.toReal_ofReal (crossChance_nonneg Real.pi_pos.le)]
  rw [Finset.sum_congr rfl (g := fun _ => crossChance a.length a.size Real.pi * (1 - crossChance a.length a.size Real.pi))]
  · rw [Finset.sum_const, nsmul_eq_mul, ← hT, pairs_card, hna]
  · intro p hp
    rw [Finset.sum_eq_single p]
    · rw [cov_indicator (hE p) (hE p), inter_self, hr p hp]
      ring
    · intro q hq hqp
      rw [cov_indicator (hE p) (hE q), hr p hp, hr q hq, Measure.real,
        crossEvent_indep hd hpos.1.le hS hl (hTm p hp).1 (hTm p hp).2 (hTm q hq).1 (hTm q hq).2 (Ne.symm hqp),
        ENNReal.toReal_mul, ENNReal.toReal_ofReal (crossChance_nonneg Real.pi_pos.le)]
      ring
    · exact fun h => absurd hp h

end
end Fibermat
