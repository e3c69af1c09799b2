import Verif.Lemmas.Border
import Verif.Props.LargeMats

/-! # C125: random mats in an open box -/

namespace Fibermat
open Spec MeasureTheory ProbabilityTheory Set Filter Topology

section
variable {Ω : Type} [MeasurableSpace Ω] {P : Measure Ω} {d : ℕ → Ω → ℝ}

/-- The condition of crossing in an open box, by the numbers drawn for the places `w`, `b` and the angles of two fibers. -/
def OpenDraws (l S θ : ℝ) (w b p : ℝ × ℝ) : Prop :=
  |S * (w.1 - b.1) * Real.sin (θ * (p.2 - 1 / 2)) - S * (w.2 - b.2) * Real.cos (θ * (p.2 - 1 / 2))| <
    l / 2 * |Real.cos (θ * (p.1 - 1 / 2)) * Real.sin (θ * (p.2 - 1 / 2)) - Real.sin (θ * (p.1 - 1 / 2)) * Real.cos (θ * (p.2 - 1 / 2))| ∧
  |S * (w.1 - b.1) * Real.sin (θ * (p.1 - 1 / 2)) - S * (w.2 - b.2) * Real.cos (θ * (p.1 - 1 / 2))| <
    l / 2 * |Real.cos (θ * (p.1 - 1 / 2)) * Real.sin (θ * (p.2 - 1 / 2)) - Real.sin (θ * (p.1 - 1 / 2)) * Real.cos (θ * (p.2 - 1 / 2))|

theorem measurableSet_openDraws (l S θ : ℝ) :
    MeasurableSet {v : ((ℝ × ℝ) × (ℝ × ℝ)) × (ℝ × ℝ) | OpenDraws l S θ v.1.1 v.1.2 v.2} := by
  unfold OpenDraws
  simp only [Set.ofPred_and]
  refine MeasurableSet.inter (measurableSet_lt ?_ ?_) (measurableSet_lt ?_ ?_) <;> fun_prop

/-- For given angles, the probability over the places of both fibers. -/
theorem openDraws_place {l S θ : ℝ} (hl : 0 ≤ l) (hS : 0 < S) (hlS : l ≤ S) (p : ℝ × ℝ) :
    ENNReal.ofReal ((1 - l / S) ^ 2) * ENNReal.ofReal (l ^ 2 / S ^ 2 * |Real.sin (θ * (p.1 - p.2))|) ≤
      ((volume.restrict unitSquare).prod (volume.restrict unitSquare)) {x | OpenDraws l S θ x.1 x.2 p} ∧
    ((volume.restrict unitSquare).prod (volume.restrict unitSquare)) {x | OpenDraws l S θ x.1 x.2 p} ≤
      ENNReal.ofReal (l ^ 2 / S ^ 2 * |Real.sin (θ * (p.1 - p.2))|) := by
  have hsin : |Real.sin (θ * (p.1 - p.2))| = |Real.cos (θ * (p.1 - 1 / 2)) * Real.sin (θ * (p.2 - 1 / 2)) -
      Real.sin (θ * (p.1 - 1 / 2)) * Real.cos (θ * (p.2 - 1 / 2))| := by
    rw [show θ * (p.1 - p.2) = θ * (p.1 - 1 / 2) - θ * (p.2 - 1 / 2) by ring, Real.sin_sub, abs_sub_comm]
  rw [hsin, ← volume_open hl hS]
  refine difference_bounds ?_ (fun v hv => open_small hS (Real.abs_cos_le_one _) (Real.abs_sin_le_one _) (Real.abs_cos_le_one _)
    (Real.abs_sin_le_one _) hv) ((div_le_one hS).2 hlS)
  simp only [Set.ofPred_and]
  refine MeasurableSet.inter (measurableSet_lt ?_ ?_) (measurableSet_lt ?_ ?_) <;> fun_prop

/-- The probability of crossing in an open box. -/
theorem prob_openDraws (hd : UniformDraws P d) {l S θ : ℝ} (hl : 0 ≤ l) (hS : 0 < S) (hlS : l ≤ S) (h0 : 0 < θ)
    (hπ : θ ≤ Real.pi) {xa ya xb yb pa pb : ℕ} (h1 : xa ≠ ya) (h3 : xb ≠ yb) (h2 : pa ≠ pb)
    (hdis : Disjoint ({xa, ya} : Finset ℕ) {xb, yb}) (hdis' : Disjoint ({xa, ya, xb, yb} : Finset ℕ) {pa, pb}) :
    ENNReal.ofReal ((1 - l / S) ^ 2 * crossChance l S θ) ≤ P {ω | OpenDraws l S θ (d xa ω, d ya ω) (d xb ω, d yb ω) (d pa ω, d pb ω)} ∧
    P {ω | OpenDraws l S θ (d xa ω, d ya ω) (d xb ω, d yb ω) (d pa ω, d pb ω)} ≤ ENNReal.ofReal (crossChance l S θ) := by
  have := hd.indep.isProbabilityMeasure
  have hI := hd.indep.indepFun_finset {xa, ya} {xb, yb} hdis hd.measurable
  have hI : IndepFun (fun ω => (d xa ω, d ya ω)) (fun ω => (d xb ω, d yb ω)) P :=
    hI.comp (φ := fun f : ({xa, ya} : Finset ℕ) → ℝ => (f ⟨xa, by simp⟩, f ⟨ya, by simp⟩))
      (ψ := fun f : ({xb, yb} : Finset ℕ) → ℝ => (f ⟨xb, by simp⟩, f ⟨yb, by simp⟩)) (by fun_prop) (by fun_prop)
  have hJ := hd.indep.indepFun_finset {xa, ya, xb, yb} {pa, pb} hdis' hd.measurable
  have hJ : IndepFun (fun ω => ((d xa ω, d ya ω), (d xb ω, d yb ω))) (fun ω => (d pa ω, d pb ω)) P :=
    hJ.comp (φ := fun f : ({xa, ya, xb, yb} : Finset ℕ) → ℝ => ((f ⟨xa, by simp⟩, f ⟨ya, by simp⟩), (f ⟨xb, by simp⟩, f ⟨yb, by simp⟩)))
      (ψ := fun f : ({pa, pb} : Finset ℕ) → ℝ => (f ⟨pa, by simp⟩, f ⟨pb, by simp⟩)) (by fun_prop) (by fun_prop)
  have hm : ∀ i j, Measurable (fun ω => (d i ω, d j ω)) := fun i j => (hd.measurable i).prodMk (hd.measurable j)
  have hv : Measurable (fun ω => ((d xa ω, d ya ω), (d xb ω, d yb ω))) := (hm xa ya).prodMk (hm xb yb)
  have hB := measurableSet_openDraws l S θ
  have hq : (volume.restrict (Ico (0 : ℝ) 1)).prod (volume.restrict (Ico (0 : ℝ) 1)) = (volume : Measure (ℝ × ℝ)).restrict unitSquare := by
    rw [Measure.prod_restrict, ← Measure.volume_eq_prod]
  have e : P {ω | OpenDraws l S θ (d xa ω, d ya ω) (d xb ω, d yb ω) (d pa ω, d pb ω)} =
      ∫⁻ p : ℝ × ℝ, ((volume.restrict unitSquare).prod (volume.restrict unitSquare)) {x | OpenDraws l S θ x.1 x.2 p}
        ∂(volume.restrict (Ico (0 : ℝ) 1)).prod (volume.restrict (Ico (0 : ℝ) 1)) := by
    have : P {ω | OpenDraws l S θ (d xa ω, d ya ω) (d xb ω, d yb ω) (d pa ω, d pb ω)} =
        P.map (fun ω => (((d xa ω, d ya ω), (d xb ω, d yb ω)), (d pa ω, d pb ω))) {v | OpenDraws l S θ v.1.1 v.1.2 v.2} := by
      rw [Measure.map_apply (hv.prodMk (hm pa pb)) hB]
      rfl
    rw [this, hJ.map_prod_eq_prod_map_map hv.aemeasurable (hm pa pb).aemeasurable, hd.pair h2,
      hI.map_prod_eq_prod_map_map (hm xa ya).aemeasurable (hm xb yb).aemeasurable, hd.pair h1, hd.pair h3, hq, Measure.prod_apply_symm hB]
    rfl
  rw [e]
  constructor
  · rw [ENNReal.ofReal_mul (by positivity)]
    unfold crossChance
    rw [← lintegral_abs_sin (by positivity) h0 hπ, ← lintegral_const_mul _ (by fun_prop)]
    exact lintegral_mono fun p => (openDraws_place hl hS hlS p).1
  · unfold crossChance
    rw [← lintegral_abs_sin (by positivity) h0 hπ]
    exact lintegral_mono fun p => (openDraws_place hl hS hlS p).2

variable {e s : ℕ} {a : MatArgs ℝ}

/-- Two fibers of a random mat are connected in an open box when the numbers drawn for them satisfy the condition of crossing. -/
theorem open_connected (hd : UniformDraws P d) (hs : a.seed ≠ none) (hpsi : a.psi = 0)
    {ω : Ω} {m : Mat ℝ} {s' : ℕ} (h : matNew (stream (fun k => d k ω)) Real.cos Real.sin e a s = .ok (m, s')) {net : Net ℝ}
    (hn : netNew m false = .ok net) {i j : ℕ} (hij : i < j) (hj : j < a.n.toNat) :
    AreConnected net i j ↔ OpenDraws a.length a.size a.theta (d i ω, d (a.n.toNat + i) ω) (d j ω, d (a.n.toNat + j) ω)
      (d (3 * a.n.toNat + i) ω, d (3 * a.n.toNat + j) ω) := by
  obtain ⟨hgood, hsize, hlen, hcol, -⟩ := random_mat hd hs hpsi h
  have hf : m.fibers[i]? = some (m.fibers[i]'(by omega)) := List.getElem?_eq_getElem _
  have hg : m.fibers[j]? = some (m.fibers[j]'(by omega)) := List.getElem?_eq_getElem _
  generalize m.fibers[i] = f at hf
  generalize m.fibers[j] = g at hg
  obtain ⟨fx, fy, fu, fv, -, fl⟩ := hcol i f hf
  obtain ⟨gx, gy, gu, gv, -, gl⟩ := hcol j g hg
  have hpl : ∀ f ∈ m.fibers, Planar f := by
    intro f hf
    obtain ⟨k, hk⟩ := List.mem_iff_getElem?.1 hf
    obtain ⟨-, -, hu, hv, hw, -⟩ := hcol k f hk
    exact ⟨hw, by rw [hu, hv]; exact Real.cos_sq_add_sin_sq _⟩
  have e1 : AreConnected net i j ↔ NotParallel f g ∧ ∃ s t, CrossAt 0 0 0 f g s t := by
    constructor
    · rintro ⟨r, hr, hA, hB⟩
      have hj : Joins m r f g := by
        unfold Joins
        rw [hA, hB]
        simpa using ⟨hf, hg⟩
      obtain ⟨hnp, hc⟩ := C10_row_is_crossing hgood hpl hn hr (by omega) hj
      exact ⟨hnp, _, _, hc⟩
    · rintro ⟨hnp, s, t, hc⟩
      obtain ⟨r, hr, hA, hB, -⟩ := C10_crossing_is_row hgood hpl hn hij hf hg hnp hc
      exact ⟨r, hr, hA, hB⟩
  have e2 : (f.u * g.v - f.v * g.u ≠ 0 ∧
      (a.size * (d i ω - d j ω), a.size * (d (a.n.toNat + i) ω - d (a.n.toNat + j) ω)) ∈
        parallelogram f.l g.l f.u f.v g.u g.v) ↔ NotParallel f g ∧ ∃ s t, CrossAt 0 0 0 f g s t := by
    refine and_congr Iff.rfl (exists_congr fun s => exists_congr fun t => ?_)
    unfold CrossAt
    refine and_congr Iff.rfl (and_congr Iff.rfl ?_)
    rw [fx, fy, gx, gy]
    push_cast
    constructor
    · rintro ⟨h1, h2⟩
      exact ⟨by linarith, by linarith⟩
    · rintro ⟨h1, h2⟩
      exact ⟨by linarith, by linarith⟩
  rw [e1, ← e2, show f.l = g.l by rw [fl, gl], ← mem_parallelogram, fu, fv, gu, gv, gl]
  exact Iff.rfl

theorem openDraws_indices {n i j : ℕ} (hij : i < j) (hj : j < n) :
    i ≠ n + i ∧ j ≠ n + j ∧ 3 * n + i ≠ 3 * n + j ∧ Disjoint ({i, n + i} : Finset ℕ) {j, n + j} ∧
    Disjoint ({i, n + i, j, n + j} : Finset ℕ) {3 * n + i, 3 * n + j} := by
  refine ⟨by omega, by omega, by omega, Finset.disjoint_left.2 ?_, Finset.disjoint_left.2 ?_⟩ <;>
  · intro k hk hk'
    simp only [Finset.mem_insert, Finset.mem_singleton] at hk hk'
    omega

/-- C125: in a random mat in an open box, two given fibers are connected with nearly the same probability as in a periodic box. -/
theorem C125_connected (hd : UniformDraws P d) (hseed : GoodSeed a.seed) (hs : a.seed ≠ none) (hpos : PositiveArgs a)
    (hpsi : a.psi = 0) (hl : a.length ≤ a.size) (h0 : 0 < a.theta) (hπ : a.theta ≤ Real.pi) {i j : ℕ} (hij : i < j)
    (hj : (j : ℤ) < a.n) :
    ENNReal.ofReal ((1 - a.length / a.size) ^ 2 * crossChance a.length a.size a.theta) ≤
      P {ω | ∃ m s' net, matNew (stream (fun k => d k ω)) Real.cos Real.sin e a s = .ok (m, s') ∧ netNew m false = .ok net ∧
        AreConnected net i j} ∧
    P {ω | ∃ m s' net, matNew (stream (fun k => d k ω)) Real.cos Real.sin e a s = .ok (m, s') ∧ netNew m false = .ok net ∧
      AreConnected net i j} ≤ ENNReal.ofReal (crossChance a.length a.size a.theta) := by
  have hS : 0 < a.size := by linarith [hpos.1]
  have hj' : j < a.n.toNat := by omega
  obtain ⟨n1, n2, n3, n4, n5⟩ := openDraws_indices hij hj'
  have e1 : {ω | ∃ m s' net, matNew (stream (fun k => d k ω)) Real.cos Real.sin e a s = .ok (m, s') ∧ netNew m false = .ok net ∧
      AreConnected net i j} = {ω | OpenDraws a.length a.size a.theta (d i ω, d (a.n.toNat + i) ω) (d j ω, d (a.n.toNat + j) ω)
      (d (3 * a.n.toNat + i) ω, d (3 * a.n.toNat + j) ω)} := by
    ext ω
    simp only [mem_ofPred_eq]
    constructor
    · rintro ⟨m, s', net, h, hnet, hc⟩
      exact (open_connected hd hs hpsi h hnet hij hj').1 hc
    · intro hc
      obtain ⟨m, s', net, h, hnet⟩ := C118_exists (e := e) (s := s) hd hseed (by omega) hS.le hpos false ω
      exact ⟨m, s', net, h, hnet, (open_connected hd hs hpsi h hnet hij hj').2 hc⟩
  rw [e1]
  exact prob_openDraws hd hpos.1.le hS hl h0 hπ n1 n2 n3 n4 n5

/-- C125: bounds for the mean number of rows of the network of a random mat in an open box. -/
theorem C125_mean (hd : UniformDraws P d) (hs : a.seed ≠ none) (hn : 0 < a.n) (hpos : PositiveArgs a)
    (hpsi : a.psi = 0) (hl : a.length ≤ a.size) (h0 : 0 < a.theta) (hπ : a.theta ≤ Real.pi) {N : Ω → Net ℝ}
    (hN : ∀ ω, ∃ m s', matNew (stream (fun k => d k ω)) Real.cos Real.sin e a s = .ok (m, s') ∧ netNew m false = .ok (N ω)) :
    a.n + a.n * (a.n - 1) / 2 * ((1 - a.length / a.size) ^ 2 * crossChance a.length a.size a.theta) ≤ ∫ ω, ((N ω).rows.length : ℝ) ∂P ∧
    ∫ ω, ((N ω).rows.length : ℝ) ∂P ≤ a.n + a.n * (a.n - 1) / 2 * crossChance a.length a.size a.theta := by
  classical
  have := hd.indep.isProbabilityMeasure
  have hS : 0 < a.size := by linarith [hpos.1]
  have hna : ((a.n.toNat : ℕ) : ℝ) = a.n := by
    have : ((a.n.toNat : ℕ) : ℤ) = a.n := by omega
    exact_mod_cast this
  generalize hT : (Finset.range a.n.toNat ×ˢ Finset.range a.n.toNat).filter (fun p => p.1 < p.2) = T
  have hTm : ∀ p ∈ T, p.1 < p.2 ∧ p.2 < a.n.toNat := by
    intro p hp
    rw [← hT] at hp
    simp only [Finset.mem_filter, Finset.mem_product, Finset.mem_range] at hp
    exact ⟨hp.2, hp.1.2⟩
  let E : ℕ × ℕ → Set Ω := fun p => {ω | OpenDraws a.length a.size a.theta (d p.1 ω, d (a.n.toNat + p.1) ω)
    (d p.2 ω, d (a.n.toNat + p.2) ω) (d (3 * a.n.toNat + p.1) ω, d (3 * a.n.toNat + p.2) ω)}
  have hE : ∀ p, MeasurableSet (E p) := by
    intro p
    have hm : ∀ i j, Measurable (fun ω => (d i ω, d j ω)) := fun i j => (hd.measurable i).prodMk (hd.measurable j)
    exact (measurableSet_openDraws a.length a.size a.theta).preimage (((hm _ _).prodMk (hm _ _)).prodMk (hm _ _))
  have hlen : ∀ ω, ((N ω).rows.length : ℝ) = a.n + ∑ p ∈ T, (E p).indicator (fun _ => (1 : ℝ)) ω := by
    intro ω
    obtain ⟨m, s', h, hnet⟩ := hN ω
    obtain ⟨hgood, -, hlen, -⟩ := random_mat hd hs hpsi h
    rw [rows_card hgood hnet hlen, hT, Finset.card_filter]
    push_cast
    rw [hna]
    congr 1
    refine Finset.sum_congr rfl fun p hp => ?_
    have := open_connected hd hs hpsi h hnet (hTm p hp).1 (hTm p hp).2
    simp only [indicator, E, mem_ofPred_eq, this]
  have hc : 0 ≤ crossChance a.length a.size a.theta :=
    mul_nonneg (by positivity) (div_nonneg (mul_nonneg (by norm_num) (sub_nonneg.2 (Real.sin_le h0.le))) (by positivity))
  have hprob : ∀ p ∈ T, (1 - a.length / a.size) ^ 2 * crossChance a.length a.size a.theta ≤ ∫ ω, (E p).indicator (fun _ => (1 : ℝ)) ω ∂P ∧
      ∫ ω, (E p).indicator (fun _ => (1 : ℝ)) ω ∂P ≤ crossChance a.length a.size a.theta := by
    intro p hp
    obtain ⟨n1, n2, n3, n4, n5⟩ := openDraws_indices (hTm p hp).1 (hTm p hp).2
    obtain ⟨b1, b2⟩ := prob_openDraws hd hpos.1.le hS hl h0 hπ n1 n2 n3 n4 n5
    rw [integral_indicator_const _ (hE p), smul_eq_mul, mul_one, Measure.real]
    exact ⟨(ENNReal.ofReal_le_iff_le_toReal (measure_ne_top _ _)).1 b1, ENNReal.toReal_le_of_le_ofReal hc b2⟩
  have hsum : ∀ c : ℝ, ∑ _p ∈ T, c = a.n * (a.n - 1) / 2 * c := by
    intro c
    rw [Finset.sum_const, nsmul_eq_mul, ← hT, pairs_card, hna]
  simp only [hlen]
  rw [integral_add (integrable_const _) (integrable_finsetSum _ fun p _ => (integrable_const _).indicator (hE p)),
    integral_finsetSum _ fun p _ => (integrable_const _).indicator (hE p)]
  simp only [integral_const, probReal_univ, smul_eq_mul, one_mul]
  rw [← hsum, ← hsum]
  exact ⟨add_le_add_right (Finset.sum_le_sum fun p hp => (hprob p hp).1) _, add_le_add_right (Finset.sum_le_sum fun p hp => (hprob p hp).2) _⟩

end

section
variable {Ω : Type} [MeasurableSpace Ω] {P : Measure Ω} {d : ℕ → Ω → ℝ} {e s : ℕ} {a : ℕ → MatArgs ℝ} {l ρ : ℝ}

/-- The boxes of larger and larger mats grow without limit. -/
theorem growing_border (h : GrowingMats a l ρ) : Tendsto (fun t : ℕ => (a t).length / (a t).size) atTop (𝓝 0) := by
  have h1 := (h.density.mul (tendsto_one_div_add_atTop_nhds_zero_nat (𝕜 := ℝ))).const_mul (l ^ 2)
  rw [mul_zero, mul_zero] at h1
  have h2 : Tendsto (fun t : ℕ => ((a t).length / (a t).size) ^ 2) atTop (𝓝 0) := by
    refine h1.congr fun t => ?_
    have : (t : ℝ) + 1 ≠ 0 := by positivity
    have := (h.size_pos t).ne'
    rw [h.length]
    field_simp
  have h3 := (Real.continuous_sqrt.tendsto 0).comp h2
  rw [Real.sqrt_zero] at h3
  refine h3.congr fun t => ?_
  rw [Function.comp_apply, Real.sqrt_sq]
  rw [h.length]
  exact div_nonneg h.lpos.le (h.size_pos t).le

/-- C125: in larger and larger mats the border no longer counts: the mean number of rows per fiber of an open box has the limit found for periodic
boxes. -/
theorem C125_limit (hd : UniformDraws P d) (h : GrowingMats a l ρ) {N : ℕ → Ω → Net ℝ}
    (hN : ∀ t ω, ∃ m s', matNew (stream (fun k => d k ω)) Real.cos Real.sin e (a t) s = .ok (m, s') ∧ netNew m false = .ok (N t ω)) :
    Tendsto (fun t : ℕ => (∫ ω, ((N t ω).rows.length : ℝ) ∂P) / (t + 1)) atTop (𝓝 (1 + meanNeighbours l ρ / 2)) := by
  have hb := fun t => C125_mean hd (h.seed t).2 (by rw [h.n t]; omega) (h.positive t) (h.planar t)
    (by linarith [h.small' t, h.size_pos t]) (by rw [h.theta]; exact Real.pi_pos) (h.theta t).le (hN t)
  have hn : ∀ t : ℕ, ((a t).n : ℝ) = t + 1 := fun t => by rw [h.n t]; push_cast; rfl
  have u : Tendsto (fun t : ℕ => 1 + (t : ℝ) * crossChance (a t).length (a t).size Real.pi / 2) atTop (𝓝 (1 + meanNeighbours l ρ / 2)) :=
    ((growing_mean h).div_const 2).const_add 1
  have v : Tendsto (fun t : ℕ => 1 + (1 - (a t).length / (a t).size) ^ 2 * ((t : ℝ) * crossChance (a t).length (a t).size Real.pi / 2)) atTop
      (𝓝 (1 + meanNeighbours l ρ / 2)) := by
    have := ((((growing_border h).const_sub 1).pow 2).mul ((growing_mean h).div_const 2)).const_add 1
    simpa using this
  refine tendsto_of_tendsto_of_tendsto_of_le_of_le v u (fun t => ?_) (fun t => ?_)
  · have ht : (0 : ℝ) < t + 1 := by positivity
    simp only
    rw [le_div_iff₀ ht]
    refine le_trans (le_of_eq ?_) (hb t).1
    rw [hn, h.theta]
    ring
  · have ht : (0 : ℝ) < t + 1 := by positivity
    simp only
    rw [div_le_iff₀ ht]
    refine (hb t).2.trans (le_of_eq ?_)
    rw [hn, h.theta]
    ring

end
end Fibermat
