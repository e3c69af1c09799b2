import Verif.Spec.Chance
import Verif.Lemmas.Chance
import Verif.Props.MatInit
import Verif.Props.Crossing
import Verif.Props.Main

/-! # C118: random mats, laws of the fibers and mean number of connections -/

namespace Fibermat
open Spec MeasureTheory ProbabilityTheory Set

section
variable {Ω : Type} [MeasurableSpace Ω] {P : Measure Ω} {d : ℕ → Ω → ℝ}

/-- The condition of crossing, by the numbers drawn for the places `w`, `b` and the angles of two fibers. -/
def CrossDraws (l S θ : ℝ) (w b p : ℝ × ℝ) : Prop :=
  ∃ i j : ℤ,
    |S * (w.1 - b.1 + i) * Real.sin (θ * (p.2 - 1 / 2)) - S * (w.2 - b.2 + j) * Real.cos (θ * (p.2 - 1 / 2))| <
      l / 2 * |Real.cos (θ * (p.1 - 1 / 2)) * Real.sin (θ * (p.2 - 1 / 2)) - Real.sin (θ * (p.1 - 1 / 2)) * Real.cos (θ * (p.2 - 1 / 2))| ∧
    |S * (w.1 - b.1 + i) * Real.sin (θ * (p.1 - 1 / 2)) - S * (w.2 - b.2 + j) * Real.cos (θ * (p.1 - 1 / 2))| <
      l / 2 * |Real.cos (θ * (p.1 - 1 / 2)) * Real.sin (θ * (p.2 - 1 / 2)) - Real.sin (θ * (p.1 - 1 / 2)) * Real.cos (θ * (p.2 - 1 / 2))|

theorem measurableSet_crossDraws (l S θ : ℝ) :
    MeasurableSet {v : (ℝ × ℝ) × ((ℝ × ℝ) × (ℝ × ℝ)) | CrossDraws l S θ v.1 v.2.1 v.2.2} := by
  unfold CrossDraws
  simp only [Set.ofPred_exists, Set.ofPred_and]
  refine MeasurableSet.iUnion fun i => MeasurableSet.iUnion fun j => MeasurableSet.inter (measurableSet_lt ?_ ?_) (measurableSet_lt ?_ ?_) <;>
    fun_prop

theorem Spec.UniformDraws.pair (hd : UniformDraws P d) {i j : ℕ} (hij : i ≠ j) :
    P.map (fun ω => (d i ω, d j ω)) = (volume.restrict (Ico (0 : ℝ) 1)).prod (volume.restrict (Ico (0 : ℝ) 1)) := by
  have := hd.indep.isProbabilityMeasure
  rw [(hd.indep.indepFun hij).map_prod_eq_prod_map_map (hd.measurable i).aemeasurable (hd.measurable j).aemeasurable, hd.law, hd.law]

/-- For given place of one fiber and given angles, the probability over the place of the other one. -/
theorem crossDraws_place {l S θ : ℝ} (hl : 0 ≤ l) (hS : 0 < S) (hlS : l ≤ S / 2) (b p : ℝ × ℝ) :
    (volume.restrict (Ico (0 : ℝ) 1)).prod (volume.restrict (Ico (0 : ℝ) 1)) {w | CrossDraws l S θ w b p} =
      ENNReal.ofReal (l ^ 2 / S ^ 2 * |Real.sin (θ * (p.1 - p.2))|) := by
  have hm : MeasurableSet {w | CrossDraws l S θ w b p} :=
    (measurableSet_crossDraws l S θ).preimage (f := fun w : ℝ × ℝ => (w, (b, p))) (by fun_prop)
  rw [Measure.prod_restrict, Measure.restrict_apply hm, ← Measure.volume_eq_prod]
  unfold CrossDraws
  rw [volume_crossing hl hl hS (by linarith) (Real.abs_cos_le_one _) (Real.abs_sin_le_one _) (Real.abs_cos_le_one _)
    (Real.abs_sin_le_one _)]
  congr 1
  rw [show l * l = l ^ 2 by ring]
  congr 1
  rw [show θ * (p.1 - p.2) = θ * (p.1 - 1 / 2) - θ * (p.2 - 1 / 2) by ring, Real.sin_sub, abs_sub_comm]

theorem lintegral_abs_sin {θ c : ℝ} (hc : 0 ≤ c) (h0 : 0 < θ) (hπ : θ ≤ Real.pi) :
    ∫⁻ p : ℝ × ℝ, ENNReal.ofReal (c * |Real.sin (θ * (p.1 - p.2))|)
      ∂(volume.restrict (Ico (0 : ℝ) 1)).prod (volume.restrict (Ico (0 : ℝ) 1)) =
    ENNReal.ofReal (c * (2 * (θ - Real.sin θ) / θ ^ 2)) := by
  have hb : Integrable (fun p : ℝ × ℝ => c * |Real.sin (θ * (p.1 - p.2))|)
      ((volume.restrict (Ico (0 : ℝ) 1)).prod (volume.restrict (Ico (0 : ℝ) 1))) := by
    refine Integrable.mono' (integrable_const c) (by fun_prop) (Filter.Eventually.of_forall fun p => ?_)
    rw [Real.norm_eq_abs, abs_mul, abs_abs, abs_of_nonneg hc]
    exact mul_le_of_le_one_right hc (Real.abs_sin_le_one _)
  rw [← ofReal_integral_eq_lintegral_ofReal hb (Filter.Eventually.of_forall fun p => by positivity), integral_prod _ hb]
  congr 1
  have e : ∀ f : ℝ → ℝ, ∫ a, f a ∂(volume.restrict (Ico (0 : ℝ) 1)) = ∫ a in (0 : ℝ)..1, f a := by
    intro f
    rw [intervalIntegral.integral_of_le zero_le_one, integral_Ico_eq_integral_Ioo, integral_Ioc_eq_integral_Ioo]
  rw [e]
  simp only [e, intervalIntegral.integral_const_mul]
  rw [integral_integral_abs_sin h0 hπ]

/-- The probability of crossing. -/
theorem prob_crossDraws (hd : UniformDraws P d) {l S θ : ℝ} (hl : 0 ≤ l) (hS : 0 < S) (hlS : l ≤ S / 2) (h0 : 0 < θ)
    (hπ : θ ≤ Real.pi) {xa ya xb yb pa pb : ℕ} (h1 : xa ≠ ya) (h2 : pa ≠ pb) (hdis : Disjoint ({xa, ya} : Finset ℕ) {xb, yb, pa, pb}) :
    P {ω | CrossDraws l S θ (d xa ω, d ya ω) (d xb ω, d yb ω) (d pa ω, d pb ω)} = ENNReal.ofReal (crossChance l S θ) := by
  have := hd.indep.isProbabilityMeasure
  have hI := hd.indep.indepFun_finset {xa, ya} {xb, yb, pa, pb} hdis hd.measurable
  have hI : IndepFun (fun ω => (d xa ω, d ya ω)) (fun ω => ((d xb ω, d yb ω), (d pa ω, d pb ω))) P :=
    hI.comp (φ := fun f : ({xa, ya} : Finset ℕ) → ℝ => (f ⟨xa, by simp⟩, f ⟨ya, by simp⟩))
      (ψ := fun f : ({xb, yb, pa, pb} : Finset ℕ) → ℝ => ((f ⟨xb, by simp⟩, f ⟨yb, by simp⟩), (f ⟨pa, by simp⟩, f ⟨pb, by simp⟩)))
      (by fun_prop) (by fun_prop)
  have hm : ∀ i j, Measurable (fun ω => (d i ω, d j ω)) := fun i j => (hd.measurable i).prodMk (hd.measurable j)
  have hv : Measurable (fun ω => ((d xb ω, d yb ω), (d pa ω, d pb ω))) := (hm xb yb).prodMk (hm pa pb)
  have hB := measurableSet_crossDraws l S θ
  have e : P {ω | CrossDraws l S θ (d xa ω, d ya ω) (d xb ω, d yb ω) (d pa ω, d pb ω)} =
      P.map (fun ω => ((d xa ω, d ya ω), ((d xb ω, d yb ω), (d pa ω, d pb ω)))) {v | CrossDraws l S θ v.1 v.2.1 v.2.2} := by
    rw [Measure.map_apply ((hm xa ya).prodMk hv) hB]
    rfl
  rw [e, hI.map_prod_eq_prod_map_map (hm xa ya).aemeasurable hv.aemeasurable, hd.pair h1]
  have : IsProbabilityMeasure (P.map (fun ω => ((d xb ω, d yb ω), (d pa ω, d pb ω)))) := Measure.isProbabilityMeasure_map hv.aemeasurable
  rw [Measure.prod_apply_symm hB, lintegral_map (measurable_measure_prodMk_right hB) hv]
  have e2 : ∀ ω, (volume.restrict (Ico (0 : ℝ) 1)).prod (volume.restrict (Ico (0 : ℝ) 1))
      ((fun w => (w, ((d xb ω, d yb ω), (d pa ω, d pb ω)))) ⁻¹' {v | CrossDraws l S θ v.1 v.2.1 v.2.2}) =
      (fun p : ℝ × ℝ => ENNReal.ofReal (l ^ 2 / S ^ 2 * |Real.sin (θ * (p.1 - p.2))|)) (d pa ω, d pb ω) :=
    fun ω => crossDraws_place hl hS hlS (d xb ω, d yb ω) (d pa ω, d pb ω)
  simp only [e2]
  rw [← lintegral_map (f := fun p : ℝ × ℝ => ENNReal.ofReal (l ^ 2 / S ^ 2 * |Real.sin (θ * (p.1 - p.2))|)) (by fun_prop) (hm pa pb),
    hd.pair h2, lintegral_abs_sin (by positivity) h0 hπ]
  rfl

theorem stream_drawn (d : ℕ → ℝ) (i : ℕ) : drawn (stream d) 0 i = d i := by
  have : ∀ (i k : ℕ), stateAfter (stream d) i k = k + i := by
    intro i
    induction i with
    | zero => intro k; rfl
    | succ i ih => intro k; simp only [stateAfter]; rw [ih]; simp [stream]; ring
  unfold drawn
  rw [this]
  simp [stream]

theorem nearUnit_real : NearUnit Real.cos Real.sin 0 := by
  intro t
  rw [Real.cos_sq_add_sin_sq]
  simp

variable {e s : ℕ} {a : MatArgs ℝ}

/-- A random mat, by the numbers drawn. -/
theorem random_mat (hd : UniformDraws P d) (hs : a.seed ≠ none) (hpsi : a.psi = 0) {ω : Ω} {m : Mat ℝ} {s' : ℕ}
    (h : matNew (stream (fun k => d k ω)) Real.cos Real.sin e a s = .ok (m, s')) :
    GoodMat m ∧ m.attrs.size = some a.size ∧ m.fibers.length = a.n.toNat ∧
    (∀ (i : ℕ) (f : Fiber ℝ), m.fibers[i]? = some f → f.x = a.size * (d i ω - 1 / 2) ∧
      f.y = a.size * (d (a.n.toNat + i) ω - 1 / 2) ∧ f.u = Real.cos (a.theta * (d (3 * a.n.toNat + i) ω - 1 / 2)) ∧
      f.v = Real.sin (a.theta * (d (3 * a.n.toNat + i) ω - 1 / 2)) ∧ f.w = 0 ∧ f.l = a.length) ∧
    (m.fibers.map (·.z)).Pairwise (· ≤ ·) ∧
    (m.fibers.map (·.z)).Perm ((List.range a.n.toNat).map (fun i => a.size * (d (2 * a.n.toNat + i) ω - 1 / 2))) := by
  have hg : UnitInterval (stream (fun k => d k ω)) := fun k => hd.range k ω
  obtain ⟨k, hk⟩ := Option.ne_none_iff_exists'.1 hs
  obtain ⟨hgood, hattrs⟩ := matNew_good hg nearUnit_real (by norm_num) h
  obtain ⟨hlen, hcol, hz, hz'⟩ := C05_columns _ _ _ _ a k hk s _ h
  refine ⟨hgood, by rw [hattrs], hlen, ?_, hz, ?_⟩
  · intro i f hf
    obtain ⟨hi, rfl⟩ := List.getElem?_eq_some_iff.1 hf
    obtain ⟨h1, h2, ⟨h3, h4, h5⟩, h6, -⟩ := hcol i hi
    simp only [show (stream (fun k => d k ω)).seed k = 0 from rfl, stream_drawn, hpsi, zero_mul, Real.cos_zero, Real.sin_zero, mul_one] at *
    exact ⟨h1, h2, h3, h4, h5, h6⟩
  · simpa only [show (stream (fun k => d k ω)).seed k = 0 from rfl, stream_drawn] using hz'

/-- Two fibers of a random mat are connected when the numbers drawn for them satisfy the condition of crossing. -/
theorem random_connected (hd : UniformDraws P d) (hs : a.seed ≠ none) (hpsi : a.psi = 0) (hS : 0 < a.size) (hl : a.length ≤ a.size / 2)
    {ω : Ω} {m : Mat ℝ} {s' : ℕ} (h : matNew (stream (fun k => d k ω)) Real.cos Real.sin e a s = .ok (m, s')) {net : Net ℝ}
    (hn : netNew m true = .ok net) {i j : ℕ} (hij : i < j) (hj : j < a.n.toNat) :
    AreConnected net i j ↔ CrossDraws a.length a.size a.theta (d i ω, d (a.n.toNat + i) ω) (d j ω, d (a.n.toNat + j) ω)
      (d (3 * a.n.toNat + i) ω, d (3 * a.n.toNat + j) ω) := by
  obtain ⟨hgood, hsize, hlen, hcol, -⟩ := random_mat hd hs hpsi h
  have hf : m.fibers[i]? = some (m.fibers[i]'(by omega)) := List.getElem?_eq_getElem _
  have hg : m.fibers[j]? = some (m.fibers[j]'(by omega)) := List.getElem?_eq_getElem _
  generalize m.fibers[i] = f at hf
  generalize m.fibers[j] = g at hg
  obtain ⟨fx, fy, fu, fv, -, fl⟩ := hcol i f hf
  obtain ⟨gx, gy, gu, gv, -, gl⟩ := hcol j g hg
  have hpl : ∀ f ∈ m.fibers, Planar f ∧ f.l ≤ a.size / 2 := by
    intro f hf
    obtain ⟨k, hk⟩ := List.mem_iff_getElem?.1 hf
    obtain ⟨-, -, hu, hv, hw, hl'⟩ := hcol k f hk
    exact ⟨⟨hw, by rw [hu, hv]; exact Real.cos_sq_add_sin_sq _⟩, by rw [hl']; exact hl⟩
  have key := C79_rows_are_crossings hgood hsize (fun f hf => (hpl f hf).1) (fun f hf => (hpl f hf).2) hn hij hf hg
  have e1 : AreConnected net i j ↔ NotParallel f g ∧ ∃ i j : ℤ, ∃ s t, CrossAt a.size i j f g s t := by
    constructor
    · rintro ⟨r, hr, hA, hB⟩
      obtain ⟨hnp, i', j', hc⟩ := (key r.sA r.sB).1 ⟨r, hr, hA, hB, rfl, rfl⟩
      exact ⟨hnp, i', j', _, _, hc⟩
    · rintro ⟨hnp, i', j', s, t, hc⟩
      obtain ⟨r, hr, hA, hB, -⟩ := (key s t).2 ⟨hnp, i', j', hc⟩
      exact ⟨r, hr, hA, hB⟩
  have e2 : ∀ i' j' : ℤ, (f.u * g.v - f.v * g.u ≠ 0 ∧
      (a.size * (d i ω - d j ω + (i' : ℝ)), a.size * (d (a.n.toNat + i) ω - d (a.n.toNat + j) ω + (j' : ℝ))) ∈
        parallelogram f.l g.l f.u f.v g.u g.v) ↔ NotParallel f g ∧ ∃ s t, CrossAt a.size (-i') (-j') f g s t := by
    intro i' j'
    refine and_congr Iff.rfl (exists_congr fun s => exists_congr fun t => ?_)
    unfold CrossAt
    refine and_congr Iff.rfl (and_congr Iff.rfl ?_)
    rw [fx, fy, gx, gy]
    push_cast
    constructor
    · rintro ⟨h1, h2⟩
      exact ⟨by linarith, by linarith⟩
    · rintro ⟨h1, h2⟩
      exact ⟨by linarith, by linarith⟩
  rw [e1]
  unfold CrossDraws
  simp only
  rw [← fu, ← fv, ← gu, ← gv, ← fl]
  conv_rhs => rw [fl, ← gl]
  constructor
  · rintro ⟨hnp, i', j', hc⟩
    have := (e2 (-i') (-j')).2 ⟨hnp, by simpa using hc⟩
    refine ⟨-i', -j', ?_⟩
    have := mem_parallelogram.2 this
    rw [show f.l = g.l by rw [fl, gl]] at this
    exact this
  · rintro ⟨i', j', h1, h2⟩
    have := mem_parallelogram (l := g.l) (l' := g.l) (w := (a.size * (d i ω - d j ω + (i' : ℝ)), a.size * (d (a.n.toNat + i) ω -
      d (a.n.toNat + j) ω + (j' : ℝ)))).1 ⟨h1, h2⟩
    obtain ⟨hnp, hc⟩ := (e2 i' j').1 (by rw [show f.l = g.l by rw [fl, gl]]; exact this)
    exact ⟨hnp, _, _, hc⟩

/-- C118: with acceptable arguments every outcome gives a mat and a network. -/
theorem C118_exists (hd : UniformDraws P d) (hseed : GoodSeed a.seed) (hn : 0 < a.n) (hS : 0 ≤ a.size) (hpos : PositiveArgs a)
    (periodic : Bool) (ω : Ω) :
    ∃ m s' net, matNew (stream (fun k => d k ω)) Real.cos Real.sin e a s = .ok (m, s') ∧ netNew m periodic = .ok net := by
  have hg : UnitInterval (stream (fun k => d k ω)) := fun k => hd.range k ω
  obtain ⟨⟨m, s'⟩, h⟩ := (C03_matNew_ok_iff _ _ _ e a s hg nearUnit_real (by norm_num)).2 ⟨hseed, Or.inr ⟨hn, hS, hpos⟩⟩
  obtain ⟨hgood, -⟩ := matNew_good hg nearUnit_real (by norm_num) h
  obtain ⟨net, hnet, -⟩ := C06_netNew_ok hgood periodic
  exact ⟨m, s', net, h, hnet⟩

theorem crossDraws_indices {n i j : ℕ} (hij : i < j) (hj : j < n) :
    i ≠ n + i ∧ 3 * n + i ≠ 3 * n + j ∧ Disjoint ({i, n + i} : Finset ℕ) {j, n + j, 3 * n + i, 3 * n + j} := by
  refine ⟨by omega, by omega, Finset.disjoint_left.2 ?_⟩
  intro k hk hk'
  simp only [Finset.mem_insert, Finset.mem_singleton] at hk hk'
  omega

/-- C118: in a random mat in a periodic box, two given fibers are connected with probability `l² / S²` times the mean sine of the angle
between two fibers. -/
theorem C118_connected (hd : UniformDraws P d) (hseed : GoodSeed a.seed) (hs : a.seed ≠ none) (hpos : PositiveArgs a)
    (hpsi : a.psi = 0) (hl : a.length ≤ a.size / 2) (h0 : 0 < a.theta) (hπ : a.theta ≤ Real.pi) {i j : ℕ} (hij : i < j)
    (hj : (j : ℤ) < a.n) :
    P {ω | ∃ m s' net, matNew (stream (fun k => d k ω)) Real.cos Real.sin e a s = .ok (m, s') ∧ netNew m true = .ok net ∧
      AreConnected net i j} = ENNReal.ofReal (crossChance a.length a.size a.theta) := by
  have hS : 0 < a.size := by linarith [hpos.1]
  have hj' : j < a.n.toNat := by omega
  obtain ⟨n1, n2, n3⟩ := crossDraws_indices hij hj'
  rw [← prob_crossDraws hd hpos.1.le hS hl h0 hπ n1 n2 n3]
  congr 1
  ext ω
  simp only [mem_ofPred_eq]
  constructor
  · rintro ⟨m, s', net, h, hnet, hc⟩
    exact (random_connected hd hs hpsi hS hl h hnet hij hj').1 hc
  · intro hc
    obtain ⟨m, s', net, h, hnet⟩ := C118_exists (e := e) (s := s) hd hseed (by omega) hS.le hpos true ω
    exact ⟨m, s', net, h, hnet, (random_connected hd hs hpsi hS hl h hnet hij hj').2 hc⟩

/-- The rows of a network counted by pairs of fibers. -/
theorem rows_card {m : Mat ℝ} (h : GoodMat m) {periodic : Bool} {net : Net ℝ} (hn : netNew m periodic = .ok net)
    {n : ℕ} (hlen : m.fibers.length = n) [DecidablePred (fun p : ℕ × ℕ => AreConnected net p.1 p.2)] :
    net.rows.length = n +
      (((Finset.range n ×ˢ Finset.range n).filter (fun p => p.1 < p.2)).filter (fun p : ℕ × ℕ => AreConnected net p.1 p.2)).card := by
  classical
  have hlab := C06_labels h hn
  have hinc := C06_increasing h hn
  have hnd : (net.rows.map (fun r => (r.A.toNat, r.B.toNat))).Nodup := by
    unfold List.Nodup
    rw [List.pairwise_map]
    refine List.Pairwise.imp_of_mem ?_ hinc
    intro r q hr hq hrq e
    have h1 := hlab r hr
    have h2 := hlab q hq
    rw [Prod.mk.injEq] at e
    omega
  have hcard : net.rows.length = (net.rows.map (fun r => (r.A.toNat, r.B.toNat))).toFinset.card := by
    rw [List.toFinset_card_of_nodup hnd, List.length_map]
  have hset : (net.rows.map (fun r => (r.A.toNat, r.B.toNat))).toFinset =
      (Finset.range n).image (fun i => (i, i)) ∪
      ((Finset.range n ×ˢ Finset.range n).filter (fun p => p.1 < p.2)).filter (fun p : ℕ × ℕ => AreConnected net p.1 p.2) := by
    ext ⟨i, j⟩
    simp only [List.mem_toFinset, List.mem_map, Finset.mem_union, Finset.mem_image, Finset.mem_filter, Finset.mem_product,
      Finset.mem_range, Prod.mk.injEq]
    constructor
    · rintro ⟨r, hr, hA, hB⟩
      have h1 := hlab r hr
      by_cases hij : i = j
      · exact Or.inl ⟨i, by omega, rfl, hij⟩
      · exact Or.inr ⟨⟨⟨by omega, by omega⟩, by omega⟩, r, hr, by omega, by omega⟩
    · rintro (⟨k, hk, rfl, rfl⟩ | ⟨-, r, hr, hA, hB⟩)
      · obtain ⟨q, r, hr, hA, hB, -⟩ := C07_end_row h hn (List.getElem?_eq_getElem (show k < m.fibers.length by omega))
        exact ⟨r, List.mem_of_getElem? hr, by omega, by omega⟩
      · exact ⟨r, hr, by omega, by omega⟩
  rw [hcard, hset, Finset.card_union_of_disjoint, Finset.card_image_of_injective _ (fun a b hab => (Prod.mk.inj hab).1), Finset.card_range]
  refine Finset.disjoint_left.2 ?_
  rintro ⟨i, j⟩ h1 h2
  simp only [Finset.mem_image, Finset.mem_filter, Prod.mk.injEq] at h1 h2
  omega

theorem pairs_card (n : ℕ) : ((((Finset.range n ×ˢ Finset.range n).filter (fun p => p.1 < p.2)).card : ℕ) : ℝ) = n * (n - 1) / 2 := by
  have : ((Finset.range n ×ˢ Finset.range n).filter (fun p => p.1 < p.2)).card = ∑ j ∈ Finset.range n, j := by
    rw [Finset.card_filter, Finset.sum_product_right]
    refine Finset.sum_congr rfl fun j hj => ?_
    rw [← Finset.card_filter]
    have : (Finset.range n).filter (fun x => x < j) = Finset.range j := by
      ext x
      simp only [Finset.mem_filter, Finset.mem_range] at *
      omega
    rw [this, Finset.card_range]
  rw [this]
  clear this
  induction n with
  | zero => simp
  | succ n ih =>
    rw [Finset.sum_range_succ]
    push_cast at *
    rw [ih]
    ring

/-- C118: the mean number of rows of the network of a random mat in a periodic box: one row per fiber, and the pairs of fibers times the
probability of their connection. -/
theorem C118_mean (hd : UniformDraws P d) (hseed : GoodSeed a.seed) (hs : a.seed ≠ none) (hn : 0 < a.n) (hpos : PositiveArgs a)
    (hpsi : a.psi = 0) (hl : a.length ≤ a.size / 2) (h0 : 0 < a.theta) (hπ : a.theta ≤ Real.pi) {N : Ω → Net ℝ}
    (hN : ∀ ω, ∃ m s', matNew (stream (fun k => d k ω)) Real.cos Real.sin e a s = .ok (m, s') ∧ netNew m true = .ok (N ω)) :
    ∫ ω, ((N ω).rows.length : ℝ) ∂P = a.n + a.n * (a.n - 1) / 2 * crossChance a.length a.size a.theta := by
  classical
  have := hd.indep.isProbabilityMeasure
  have hS : 0 < a.size := by linarith [hpos.1]
  have hna : ((a.n.toNat : ℕ) : ℝ) = a.n := by
    have : ((a.n.toNat : ℕ) : ℤ) = a.n := by omega
    exact_mod_cast this
  generalize hT : (Finset.range a.n.toNat ×ˢ Finset.range a.n.toNat).filter (fun p => p.1 < p.2) = T
  have hTm : ∀ p ∈ T, p.1 < p.2 ∧ p.2 < a.n.toNat := by
    intro p hp
    rw [← hT] at hp
    simp only [Finset.mem_filter, Finset.mem_product, Finset.mem_range] at hp
    exact ⟨hp.2, hp.1.2⟩
  let E : ℕ × ℕ → Set Ω := fun p => {ω | CrossDraws a.length a.size a.theta (d p.1 ω, d (a.n.toNat + p.1) ω)
    (d p.2 ω, d (a.n.toNat + p.2) ω) (d (3 * a.n.toNat + p.1) ω, d (3 * a.n.toNat + p.2) ω)}
  have hE : ∀ p, MeasurableSet (E p) := by
    intro p
    have hm : ∀ i j, Measurable (fun ω => (d i ω, d j ω)) := fun i j => (hd.measurable i).prodMk (hd.measurable j)
    exact (measurableSet_crossDraws a.length a.size a.theta).preimage ((hm _ _).prodMk ((hm _ _).prodMk (hm _ _)))
  have hlen : ∀ ω, ((N ω).rows.length : ℝ) = a.n + ∑ p ∈ T, (E p).indicator (fun _ => (1 : ℝ)) ω := by
    intro ω
    obtain ⟨m, s', h, hnet⟩ := hN ω
    obtain ⟨hgood, -, hlen, -⟩ := random_mat hd hs hpsi h
    rw [rows_card hgood hnet hlen, hT, Finset.card_filter]
    push_cast
    rw [hna]
    congr 1
    refine Finset.sum_congr rfl fun p hp => ?_
    have := random_connected hd hs hpsi hS hl h hnet (hTm p hp).1 (hTm p hp).2
    simp only [indicator, E, mem_ofPred_eq, this]
  simp only [hlen]
  rw [integral_add (integrable_const _) (integrable_finsetSum _ fun p _ => (integrable_const _).indicator (hE p)),
    integral_finsetSum _ fun p _ => (integrable_const _).indicator (hE p)]
  rw [Finset.sum_congr rfl (g := fun _ => crossChance a.length a.size a.theta)]
  · rw [Finset.sum_const, nsmul_eq_mul, ← hT, pairs_card, hna]
    simp
  · intro p hp
    obtain ⟨n1, n2, n3⟩ := crossDraws_indices (hTm p hp).1 (hTm p hp).2
    rw [integral_indicator_const _ (hE p), Measure.real, prob_crossDraws hd hpos.1.le hS hl h0 hπ n1 n2 n3, ENNReal.toReal_ofReal]
    · simp
    · exact mul_nonneg (by positivity) (div_nonneg (mul_nonneg (by norm_num) (sub_nonneg.2 (Real.sin_le h0.le))) (by positivity))

end
end Fibermat
