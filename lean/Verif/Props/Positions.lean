import Verif.Spec.Positions
import Verif.Lemmas.Positions
import Verif.Props.NeighbourNodes
import Verif.Props.LargeMats

/-! # C124: places of the connections along a fiber of a random mat -/

namespace Fibermat
open Spec MeasureTheory ProbabilityTheory Set Filter Topology

section
variable {Ω : Type} [MeasurableSpace Ω] {P : Measure Ω} {d : ℕ → Ω → ℝ} {e s : ℕ} {a : MatArgs ℝ}

/-- The condition of crossing at a point of the first fiber of abscissa in `(α, β)`, by the numbers drawn for two fibers. -/
def CrossIn (l S α β : ℝ) (y y' : (ℝ × ℝ) × ℝ) : Prop :=
  ∃ i j : ℤ,
    |S * (y'.1.1 - (y.1.1 + (α + β) / 2 * Real.cos (Real.pi * (y.2 - 1 / 2)) / S) + i) * Real.sin (Real.pi * (y'.2 - 1 / 2)) -
      S * (y'.1.2 - (y.1.2 + (α + β) / 2 * Real.sin (Real.pi * (y.2 - 1 / 2)) / S) + j) * Real.cos (Real.pi * (y'.2 - 1 / 2))| <
      (β - α) / 2 * |Real.cos (Real.pi * (y.2 - 1 / 2)) * Real.sin (Real.pi * (y'.2 - 1 / 2)) -
        Real.sin (Real.pi * (y.2 - 1 / 2)) * Real.cos (Real.pi * (y'.2 - 1 / 2))| ∧
    |S * (y'.1.1 - (y.1.1 + (α + β) / 2 * Real.cos (Real.pi * (y.2 - 1 / 2)) / S) + i) * Real.sin (Real.pi * (y.2 - 1 / 2)) -
      S * (y'.1.2 - (y.1.2 + (α + β) / 2 * Real.sin (Real.pi * (y.2 - 1 / 2)) / S) + j) * Real.cos (Real.pi * (y.2 - 1 / 2))| <
      l / 2 * |Real.cos (Real.pi * (y.2 - 1 / 2)) * Real.sin (Real.pi * (y'.2 - 1 / 2)) -
        Real.sin (Real.pi * (y.2 - 1 / 2)) * Real.cos (Real.pi * (y'.2 - 1 / 2))|

theorem measurableSet_crossIn (l S α β : ℝ) : MeasurableSet {v : ((ℝ × ℝ) × ℝ) × ((ℝ × ℝ) × ℝ) | CrossIn l S α β v.1 v.2} := by
  unfold CrossIn
  simp only [Set.ofPred_exists, Set.ofPred_and]
  refine MeasurableSet.iUnion fun i => MeasurableSet.iUnion fun j => MeasurableSet.inter (measurableSet_lt ?_ ?_) (measurableSet_lt ?_ ?_) <;>
    fun_prop

/-- Whatever the first fiber, a random fiber crosses it between the abscissae `α` and `β` with the same probability. -/
theorem crossIn_fair {l S α β : ℝ} (hl : 0 < l) (hS : 0 < S) (hlS : l ≤ S / 2) (hαβ : α ≤ β) (hw : β - α ≤ l) :
    FairRel (CrossIn l S α β) (crossChance l S Real.pi * ((β - α) / l)) where
  meas := measurableSet_crossIn l S α β
  nonneg := mul_nonneg (crossChance_nonneg Real.pi_pos.le) (div_nonneg (sub_nonneg.2 hαβ) hl.le)
  prob y h0 h1 := by
    have hm : MeasurableSet {y' | CrossIn l S α β y y'} :=
      (measurableSet_crossIn l S α β).preimage (f := fun y' : (ℝ × ℝ) × ℝ => (y, y')) (by fun_prop)
    rw [Measure.prod_apply_symm hm]
    have e1 : ∀ q : ℝ, (volume.restrict (Ico (0 : ℝ) 1)).prod (volume.restrict (Ico (0 : ℝ) 1))
        ((fun w => (w, q)) ⁻¹' {y' | CrossIn l S α β y y'}) = ENNReal.ofReal ((β - α) * l / S ^ 2 * |Real.sin (Real.pi * (y.2 - q))|) := by
      intro q
      have hm' : MeasurableSet ((fun w : ℝ × ℝ => (w, q)) ⁻¹' {y' | CrossIn l S α β y y'}) := hm.preimage (by fun_prop)
      rw [Measure.prod_restrict, Measure.restrict_apply hm', ← Measure.volume_eq_prod]
      have := volume_crossing (sub_nonneg.2 hαβ) hl.le hS (by linarith) (Real.abs_cos_le_one (Real.pi * (y.2 - 1 / 2)))
        (Real.abs_sin_le_one (Real.pi * (y.2 - 1 / 2))) (Real.abs_cos_le_one (Real.pi * (q - 1 / 2))) (Real.abs_sin_le_one (Real.pi * (q - 1 / 2)))
        (y.1.1 + (α + β) / 2 * Real.cos (Real.pi * (y.2 - 1 / 2)) / S, y.1.2 + (α + β) / 2 * Real.sin (Real.pi * (y.2 - 1 / 2)) / S)
      refine Eq.trans ?_ (this.trans ?_)
      · rfl
      · congr 2
        rw [show Real.pi * (y.2 - q) = Real.pi * (y.2 - 1 / 2) - Real.pi * (q - 1 / 2) by ring, Real.sin_sub, abs_sub_comm]
    simp only [e1]
    have hc : 0 ≤ (β - α) * l / S ^ 2 := div_nonneg (mul_nonneg (sub_nonneg.2 hαβ) hl.le) (sq_nonneg _)
    have hb : Integrable (fun q : ℝ => (β - α) * l / S ^ 2 * |Real.sin (Real.pi * (y.2 - q))|) (volume.restrict (Ico (0 : ℝ) 1)) := by
      refine Integrable.mono' (integrable_const ((β - α) * l / S ^ 2)) (by fun_prop) (Filter.Eventually.of_forall fun p => ?_)
      rw [Real.norm_eq_abs, abs_mul, abs_abs, abs_of_nonneg hc]
      exact mul_le_of_le_one_right hc (Real.abs_sin_le_one _)
    rw [← ofReal_integral_eq_lintegral_ofReal hb (Filter.Eventually.of_forall fun p => mul_nonneg hc (abs_nonneg _)), integral_const_mul,
      integral_Ico_eq_integral_Ioo, ← integral_Ioc_eq_integral_Ioo, ← intervalIntegral.integral_of_le zero_le_one,
      integral_abs_sin Real.pi_pos le_rfl h0 h1, show Real.pi * (1 - y.2) = Real.pi - Real.pi * y.2 by ring, Real.cos_pi_sub]
    congr 1
    unfold crossChance
    rw [Real.sin_pi]
    have := Real.pi_pos.ne'
    field_simp
    ring

/-- In a random mat, two fibers are connected at an abscissa in `(α, β)` of the first exactly when they cross there. -/
theorem random_linkedIn (hd : UniformDraws P d) (hs : a.seed ≠ none) (hpsi : a.psi = 0) (hS : 0 < a.size) (hl : a.length ≤ a.size / 2)
    (hπ : a.theta = Real.pi) {ω : Ω} {m : Mat ℝ} {s' : ℕ}
    (h : matNew (stream (fun k => d k ω)) Real.cos Real.sin e a s = .ok (m, s')) {net : Net ℝ}
    (hn : netNew m true = .ok net) {i j : ℕ} (hij : i ≠ j) (hi : i < a.n.toNat) (hj : j < a.n.toNat) {α β : ℝ} (hα : -(a.length / 2) ≤ α)
    (hβ : β ≤ a.length / 2) :
    LinkedIn net i j α β ↔ ω ∈ relEvent d a.n.toNat (CrossIn a.length a.size α β) i j := by
  obtain ⟨hgood, hsize, hlen, hcol, -⟩ := random_mat hd hs hpsi h
  have hlab := C06_labels hgood hn
  have hf : m.fibers[i]? = some (m.fibers[i]'(by omega)) := List.getElem?_eq_getElem _
  have hg : m.fibers[j]? = some (m.fibers[j]'(by omega)) := List.getElem?_eq_getElem _
  generalize m.fibers[i] = f at hf
  generalize m.fibers[j] = g at hg
  obtain ⟨fx, fy, fu, fv, -, fl⟩ := hcol i f hf
  obtain ⟨gx, gy, gu, gv, -, gl⟩ := hcol j g hg
  have hpl : ∀ f ∈ m.fibers, Planar f ∧ f.l ≤ a.size / 2 := by
    intro f hf
    obtain ⟨k, hk⟩ := List.mem_iff_getElem?.1 hf
    obtain ⟨-, -, hu, hv, hw, hl'⟩ := hcol k f hk
    exact ⟨⟨hw, by rw [hu, hv]; exact Real.cos_sq_add_sin_sq _⟩, by rw [hl']; exact hl⟩
  have swap : ∀ {i' j' : ℤ} {s t : ℝ}, CrossAt a.size i' j' g f s t → CrossAt a.size (-i') (-j') f g t s := by
    rintro i' j' s t ⟨h1, h2, h3, h4⟩
    refine ⟨h2, h1, ?_, ?_⟩ <;> push_cast <;> linarith
  have swap' : ∀ {i' j' : ℤ} {s t : ℝ}, CrossAt a.size i' j' f g s t → CrossAt a.size (-i') (-j') g f t s := by
    rintro i' j' s t ⟨h1, h2, h3, h4⟩
    refine ⟨h2, h1, ?_, ?_⟩ <;> push_cast <;> linarith
  have npswap : NotParallel f g ↔ NotParallel g f := by
    unfold NotParallel
    constructor <;> intro h h' <;> refine h ?_ <;> linarith
  have e1 : LinkedIn net i j α β ↔ NotParallel f g ∧ ∃ i' j' : ℤ, ∃ s t, CrossAt a.size i' j' f g s t ∧ α < s ∧ s < β := by
    rcases Nat.lt_or_gt_of_ne hij with hlt | hlt
    · have key := C79_rows_are_crossings hgood hsize (fun f hf => (hpl f hf).1) (fun f hf => (hpl f hf).2) hn hlt hf hg
      constructor
      · rintro ⟨r, hr, ⟨hA, hB, h1, h2⟩ | ⟨hA, hB, h1, h2⟩⟩
        · obtain ⟨hnp, i', j', hc⟩ := (key r.sA r.sB).1 ⟨r, hr, hA, hB, rfl, rfl⟩
          exact ⟨hnp, i', j', _, _, hc, h1, h2⟩
        · have := hlab r hr
          omega
      · rintro ⟨hnp, i', j', s, t, hc, h1, h2⟩
        obtain ⟨r, hr, hA, hB, hsA, -⟩ := (key s t).2 ⟨hnp, i', j', hc⟩
        exact ⟨r, hr, Or.inl ⟨hA, hB, hsA ▸ h1, hsA ▸ h2⟩⟩
    · have key := C79_rows_are_crossings hgood hsize (fun f hf => (hpl f hf).1) (fun f hf => (hpl f hf).2) hn hlt hg hf
      constructor
      · rintro ⟨r, hr, ⟨hA, hB, h1, h2⟩ | ⟨hA, hB, h1, h2⟩⟩
        · have := hlab r hr
          omega
        · obtain ⟨hnp, i', j', hc⟩ := (key r.sA r.sB).1 ⟨r, hr, hA, hB, rfl, rfl⟩
          exact ⟨npswap.2 hnp, _, _, _, _, swap hc, h1, h2⟩
      · rintro ⟨hnp, i', j', s, t, hc, h1, h2⟩
        obtain ⟨r, hr, hA, hB, -, hsB⟩ := (key t s).2 ⟨npswap.1 hnp, _, _, swap' hc⟩
        exact ⟨r, hr, Or.inr ⟨hA, hB, hsB ▸ h1, hsB ▸ h2⟩⟩
  have e2 : ∀ i' j' : ℤ, (f.u * g.v - f.v * g.u ≠ 0 ∧
      (a.size * (d j ω - (d i ω + (α + β) / 2 * f.u / a.size) + (i' : ℝ)),
        a.size * (d (a.n.toNat + j) ω - (d (a.n.toNat + i) ω + (α + β) / 2 * f.v / a.size) + (j' : ℝ))) ∈
        parallelogram (β - α) g.l f.u f.v g.u g.v) ↔ NotParallel f g ∧ ∃ s t, CrossAt a.size i' j' f g s t ∧ α < s ∧ s < β := by
    intro i' j'
    refine and_congr Iff.rfl ?_
    unfold CrossAt parallelogram
    simp only [mem_ofPred_eq]
    rw [fx, fy, gx, gy]
    have hS' := hS.ne'
    have r1 : a.size * (d j ω - (d i ω + (α + β) / 2 * f.u / a.size) + (i' : ℝ)) =
        a.size * (d j ω - d i ω + i') - (α + β) / 2 * f.u := by field_simp; ring
    have r2 : a.size * (d (a.n.toNat + j) ω - (d (a.n.toNat + i) ω + (α + β) / 2 * f.v / a.size) + (j' : ℝ)) =
        a.size * (d (a.n.toNat + j) ω - d (a.n.toNat + i) ω + j') - (α + β) / 2 * f.v := by field_simp; ring
    rw [r1, r2]
    constructor
    · rintro ⟨s, t, h1, h2, h3, h4⟩
      rw [abs_lt] at h1
      refine ⟨(α + β) / 2 - s, -t, ⟨?_, ?_, ?_, ?_⟩, ?_, ?_⟩
      · rw [fl, abs_lt]; constructor <;> linarith
      · rw [abs_neg]; exact h2
      · linarith
      · linarith
      · linarith
      · linarith
    · rintro ⟨s, t, ⟨h1, h2, h3, h4⟩, h5, h6⟩
      refine ⟨(α + β) / 2 - s, -t, ?_, ?_, ?_, ?_⟩
      · rw [abs_lt]; constructor <;> linarith
      · rw [abs_neg]; exact h2
      · linarith
      · linarith
  rw [e1]
  unfold relEvent CrossIn fiberDraws
  simp only [mem_ofPred_eq]
  rw [hπ] at fu fv gu gv
  rw [← fu, ← fv, ← gu, ← gv, ← gl]
  constructor
  · rintro ⟨hnp, i', j', hc⟩
    exact ⟨i', j', mem_parallelogram.2 ((e2 i' j').2 ⟨hnp, hc⟩)⟩
  · rintro ⟨i', j', hc⟩
    obtain ⟨hnp, hc⟩ := (e2 i' j').1 (mem_parallelogram (w := (a.size * (d j ω - (d i ω + (α + β) / 2 * f.u / a.size) + (i' : ℝ)),
        a.size * (d (a.n.toNat + j) ω - (d (a.n.toNat + i) ω + (α + β) / 2 * f.v / a.size) + (j' : ℝ)))).1 hc)
    exact ⟨hnp, i', j', hc⟩

/-- C124: in a random mat, the places of the connections of a fiber with the others are uniform along the fiber and independent: the fibers `j` of
a set `U` are connected with fiber `i` at abscissae of given intervals `(α j, β j)`, and those of a set `V` are not connected with it, with the
product of the probabilities. -/
theorem C124_uniform (hd : UniformDraws P d) (hseed : GoodSeed a.seed) (hs : a.seed ≠ none) (hpos : PositiveArgs a)
    (hpsi : a.psi = 0) (hl : a.length ≤ a.size / 2) (hπ : a.theta = Real.pi) {i : ℕ} (hi : (i : ℤ) < a.n) {U V : Finset ℕ}
    (hUV : Disjoint U V) (hU : ∀ j ∈ U ∪ V, (j : ℤ) < a.n ∧ j ≠ i) {α β : ℕ → ℝ}
    (hI : ∀ j ∈ U, -(a.length / 2) ≤ α j ∧ α j ≤ β j ∧ β j ≤ a.length / 2) :
    P {ω | ∃ m s' net, matNew (stream (fun k => d k ω)) Real.cos Real.sin e a s = .ok (m, s') ∧ netNew m true = .ok net ∧
      (∀ j ∈ U, LinkedIn net i j (α j) (β j)) ∧ ∀ j ∈ V, ¬ Linked net i j} =
      ENNReal.ofReal ((∏ j ∈ U, crossChance a.length a.size Real.pi * ((β j - α j) / a.length)) *
        (1 - crossChance a.length a.size Real.pi) ^ V.card) := by
  classical
  have hS : 0 < a.size := by linarith [hpos.1]
  have hT : ∀ j ∈ U ∪ V, j < a.n.toNat ∧ j ≠ i := fun j hj => by
    have := hU j hj
    omega
  have hnV : ∀ j ∈ V, j ∉ U := fun j hj hj' => (Finset.disjoint_left.1 hUV) hj' hj
  have hcross : FairRel (CrossFibers a.length a.size Real.pi) (crossChance a.length a.size Real.pi) :=
    ⟨measurableSet_crossFibers _ _ _, crossChance_nonneg Real.pi_pos.le, fun y h0 h1 => crossFibers_given hpos.1.le hS hl y h0 h1⟩
  have hfair : ∀ j ∈ U ∪ V, FairRel (fun y y' => if j ∈ U then CrossIn a.length a.size (α j) (β j) y y' else ¬ CrossFibers a.length a.size Real.pi y y')
      (if j ∈ U then crossChance a.length a.size Real.pi * ((β j - α j) / a.length) else 1 - crossChance a.length a.size Real.pi) := by
    intro j hj
    by_cases hjU : j ∈ U
    · obtain ⟨h1, h2, h3⟩ := hI j hjU
      simpa [hjU] using crossIn_fair hpos.1 hS hl h2 (by linarith)
    · simpa [hjU] using hcross.not
  have := rels_prob hd (i := i) (n := a.n.toNat) (by omega) hfair hT
  rw [Finset.prod_union hUV, Finset.prod_congr rfl (g := fun j => crossChance a.length a.size Real.pi * ((β j - α j) / a.length))
    (fun j hj => if_pos hj), Finset.prod_congr rfl (g := fun j => 1 - crossChance a.length a.size Real.pi) (s₁ := V)
    (fun j hj => if_neg (hnV j hj)), Finset.prod_const] at this
  rw [← this]
  congr 1
  ext ω
  have key : ∀ {m s' net}, matNew (stream (fun k => d k ω)) Real.cos Real.sin e a s = .ok (m, s') → netNew m true = .ok net →
      (((∀ j ∈ U, LinkedIn net i j (α j) (β j)) ∧ ∀ j ∈ V, ¬ Linked net i j) ↔ ∀ j ∈ U ∪ V, ω ∈ relEvent d a.n.toNat
        (fun y y' => if j ∈ U then CrossIn a.length a.size (α j) (β j) y y' else ¬ CrossFibers a.length a.size Real.pi y y') i j) := by
    intro m s' net h hnet
    have e1 : ∀ j ∈ U, (LinkedIn net i j (α j) (β j) ↔ ω ∈ relEvent d a.n.toNat
        (fun y y' => if j ∈ U then CrossIn a.length a.size (α j) (β j) y y' else ¬ CrossFibers a.length a.size Real.pi y y') i j) := by
      intro j hj
      have := hT j (Finset.mem_union_left _ hj)
      rw [random_linkedIn hd hs hpsi hS hl hπ h hnet this.2.symm (by omega) this.1 (hI j hj).1 (hI j hj).2.2]
      simp only [relEvent, if_pos hj]
    have e2 : ∀ j ∈ V, (¬ Linked net i j ↔ ω ∈ relEvent d a.n.toNat
        (fun y y' => if j ∈ U then CrossIn a.length a.size (α j) (β j) y y' else ¬ CrossFibers a.length a.size Real.pi y y') i j) := by
      intro j hj
      have := hT j (Finset.mem_union_right _ hj)
      rw [random_linked hd hs hpsi hS hl hπ h hnet this.2.symm (by omega) this.1]
      simp only [relEvent, if_neg (hnV j hj)]
      rfl
    constructor
    · rintro ⟨h1, h2⟩ j hj
      rcases Finset.mem_union.1 hj with hj | hj
      · exact (e1 j hj).1 (h1 j hj)
      · exact (e2 j hj).1 (h2 j hj)
    · intro h
      exact ⟨fun j hj => (e1 j hj).2 (h j (Finset.mem_union_left _ hj)), fun j hj => (e2 j hj).2 (h j (Finset.mem_union_right _ hj))⟩
  constructor
  · rintro ⟨m, s', net, h, hnet, hc⟩
    exact (key h hnet).1 hc
  · intro hc
    obtain ⟨m, s', net, h, hnet⟩ := C118_exists (e := e) (s := s) hd hseed (by omega) hS.le hpos true ω
    exact ⟨m, s', net, h, hnet, (key h hnet).2 hc⟩

/-- The nodes of a fiber in an open segment are its connections there. -/
theorem nodesBetween_card {lp : Linprog ℝ} (hlp : GoodLinprog lp) {m : Mat ℝ} (h : GoodMat m) (hw : ∀ f ∈ m.fibers, f.w = 0)
    {net : Net ℝ} (hn : netNew m true = .ok net) {m' : Mat ℝ} {st : Net ℝ} (hst : stackNew lp m net none = .ok (m', st)) {mesh : Mesh ℝ}
    (hm : meshInit st = .ok mesh) {i : ℕ} {f : Fiber ℝ} (hf : m.fibers[i]? = some f) {α β : ℝ} (hα : -(f.l / 2) ≤ α) (hβ : β ≤ f.l / 2)
    [DecidablePred (fun j : ℕ => LinkedIn net i j α β)] :
    nodesBetween mesh.rows i α β = (((Finset.range m.fibers.length).erase i).filter (fun j => LinkedIn net i j α β)).card := by
  classical
  obtain ⟨-, -, hpl, -⟩ := C18_vertical hlp h hw hn hst
  have hAB : st.rows.map (fun r => (r.A, r.sA, r.B, r.sB)) = net.rows.map (fun r => (r.A, r.sA, r.B, r.sB)) := by
    have := congrArg (List.map (fun c : Int × Int × ℝ × ℝ × ℝ × ℝ × ℝ × ℝ => (c.1, c.2.2.1, c.2.1, c.2.2.2.1))) hpl
    simpa [planColumns, Function.comp_def] using this
  obtain ⟨-, hp⟩ := C23_mesh_nodes hm
  have h1 := hp.countP_eq (fun x => decide (x.1 = (i : ℤ) ∧ α < x.2.1 ∧ x.2.1 < β))
  rw [List.countP_map, List.countP_append, List.countP_map, List.countP_map] at h1
  simp only [Function.comp_def] at h1
  have hA : st.rows.countP (fun r => decide (r.A = (i : ℤ) ∧ α < r.sA ∧ r.sA < β)) =
      net.rows.countP (fun r => decide (r.A = (i : ℤ) ∧ α < r.sA ∧ r.sA < β)) := by
    have := congrArg (List.countP (fun c : Int × ℝ × Int × ℝ => decide (c.1 = (i : ℤ) ∧ α < c.2.1 ∧ c.2.1 < β))) hAB
    simpa [List.countP_map, Function.comp_def] using this
  have hB : st.rows.countP (fun r => decide (r.B = (i : ℤ) ∧ α < r.sB ∧ r.sB < β)) =
      net.rows.countP (fun r => decide (r.B = (i : ℤ) ∧ α < r.sB ∧ r.sB < β)) := by
    have := congrArg (List.countP (fun c : Int × ℝ × Int × ℝ => decide (c.2.2.1 = (i : ℤ) ∧ α < c.2.2.2 ∧ c.2.2.2 < β))) hAB
    simpa [List.countP_map, Function.comp_def] using this
  have hself : ∀ r ∈ net.rows, r.A = (i : ℤ) → r.B = (i : ℤ) → r.sA = f.l / 2 ∧ r.sB = -(f.l / 2) := by
    intro r hr hrA hrB
    obtain ⟨k, r', hk, -, -, h3, h4, -, -, huniq⟩ := C07_end_row h hn hf
    obtain ⟨k', hk'⟩ := List.mem_iff_getElem?.1 hr
    have := huniq k' r hk' hrA hrB
    subst this
    rw [hk] at hk'
    cases hk'
    exact ⟨h3, h4⟩
  have hlab := C06_labels h hn
  have hinc := C06_increasing h hn
  let good : NetRow ℝ → Prop := fun r => (r.A = (i : ℤ) ∧ α < r.sA ∧ r.sA < β) ∨ (r.B = (i : ℤ) ∧ α < r.sB ∧ r.sB < β)
  have hsum : net.rows.countP (fun r => decide (r.A = (i : ℤ) ∧ α < r.sA ∧ r.sA < β)) +
      net.rows.countP (fun r => decide (r.B = (i : ℤ) ∧ α < r.sB ∧ r.sB < β)) = net.rows.countP (fun r => decide (good r)) := by
    have gen : ∀ l : List (NetRow ℝ), (∀ r ∈ l, r.A = (i : ℤ) → r.B = (i : ℤ) → r.sA = f.l / 2 ∧ r.sB = -(f.l / 2)) →
        l.countP (fun r => decide (r.A = (i : ℤ) ∧ α < r.sA ∧ r.sA < β)) + l.countP (fun r => decide (r.B = (i : ℤ) ∧ α < r.sB ∧ r.sB < β)) =
        l.countP (fun r => decide (good r)) := by
      intro l hl
      induction l with
      | nil => rfl
      | cons r l ih =>
        have ih := ih fun q hq => hl q (List.mem_cons_of_mem _ hq)
        have hr := hl r (List.mem_cons_self ..)
        simp only [List.countP_cons, decide_eq_true_eq]
        by_cases c1 : r.A = (i : ℤ) ∧ α < r.sA ∧ r.sA < β <;> by_cases c2 : r.B = (i : ℤ) ∧ α < r.sB ∧ r.sB < β
        · have := hr c1.1 c2.1
          linarith [c1.2.2, c1.2.1]
        · have : good r := Or.inl c1
          rw [if_pos c1, if_neg c2, if_pos this]
          omega
        · have : good r := Or.inr c2
          rw [if_neg c1, if_pos c2, if_pos this]
          omega
        · have : ¬ good r := fun h => h.elim c1 c2
          rw [if_neg c1, if_neg c2, if_neg this]
          omega
    exact gen _ hself
  have hne : ∀ r ∈ net.rows, good r → r.A ≠ r.B := by
    rintro r hr (⟨h1, h2, h3⟩ | ⟨h1, h2, h3⟩) he
    · have := hself r hr h1 (he ▸ h1)
      linarith
    · have := hself r hr (he ▸ h1) h1
      linarith
  let other : NetRow ℝ → ℕ := fun r => if r.A = (i : ℤ) then r.B.toNat else r.A.toNat
  have hnd : ((net.rows.filter (fun r => decide (good r))).map other).Nodup := by
    unfold List.Nodup
    rw [List.pairwise_map]
    refine List.Pairwise.imp_of_mem ?_ (hinc.filter _)
    intro r q hr hq hrq e
    obtain ⟨hr, hr'⟩ := List.mem_filter.1 hr
    obtain ⟨hq, hq'⟩ := List.mem_filter.1 hq
    have h1 := hlab r hr
    have h2 := hlab q hq
    simp only [decide_eq_true_eq] at hr' hq'
    have h3 := hne r hr hr'
    have h4 := hne q hq hq'
    have h5 : r.A = (i : ℤ) ∨ r.B = (i : ℤ) := hr'.imp (·.1) (·.1)
    have h6 : q.A = (i : ℤ) ∨ q.B = (i : ℤ) := hq'.imp (·.1) (·.1)
    simp only [other] at e
    split_ifs at e <;> omega
  have hcount : nodesBetween mesh.rows i α β = mesh.rows.countP (fun r => decide (r.fiber = (i : ℤ) ∧ α < r.s ∧ r.s < β)) := by
    unfold nodesBetween
    rw [List.countP_eq_length_filter]
  rw [hcount]
  refine Eq.trans h1 ?_
  rw [hA, hB, hsum, List.countP_eq_length_filter, ← List.length_map (f := other), ← List.toFinset_card_of_nodup hnd]
  congr 1
  ext j
  simp only [List.mem_toFinset, List.mem_map, List.mem_filter, decide_eq_true_eq, Finset.mem_filter, Finset.mem_erase, Finset.mem_range]
  constructor
  · rintro ⟨r, ⟨hr, hg⟩, rfl⟩
    have h1 := hlab r hr
    have h2 := hne r hr hg
    rcases hg with ⟨hA, hg⟩ | ⟨hB, hg⟩
    · simp only [other]
      rw [if_pos hA]
      exact ⟨⟨by omega, by omega⟩, r, hr, Or.inl ⟨hA, by omega, hg⟩⟩
    · simp only [other]
      rw [if_neg (by omega)]
      exact ⟨⟨by omega, by omega⟩, r, hr, Or.inr ⟨by omega, hB, hg⟩⟩
  · rintro ⟨⟨h1, h2⟩, r, hr, ⟨hA, hB, hg⟩ | ⟨hA, hB, hg⟩⟩
    · exact ⟨r, ⟨hr, Or.inl ⟨hA, hg⟩⟩, by simp only [other]; rw [if_pos hA]; omega⟩
    · refine ⟨r, ⟨hr, Or.inr ⟨hB, hg⟩⟩, ?_⟩
      simp only [other]
      rw [if_neg (by omega)]
      omega

end
end Fibermat
