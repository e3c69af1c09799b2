import Verif.Props.Neighbours

/-! # Relations of one fiber to the others -/

namespace Fibermat
open Spec MeasureTheory ProbabilityTheory Set

section
variable {Ω : Type} [MeasurableSpace Ω] {P : Measure Ω} {d : ℕ → Ω → ℝ}

/-- The law of the numbers drawn for the place and the angle of a fiber. -/
noncomputable abbrev fiberLaw : Measure ((ℝ × ℝ) × ℝ) :=
  ((volume.restrict (Ico (0 : ℝ) 1)).prod (volume.restrict (Ico (0 : ℝ) 1))).prod (volume.restrict (Ico (0 : ℝ) 1))

instance : IsProbabilityMeasure (volume.restrict (Ico (0 : ℝ) 1)) := ⟨by simp⟩

/-- A relation between the draws of two fibers that holds with probability `q` between any given fiber and a random one. -/
structure FairRel (R : (ℝ × ℝ) × ℝ → (ℝ × ℝ) × ℝ → Prop) (q : ℝ) : Prop where
  meas : MeasurableSet {v : ((ℝ × ℝ) × ℝ) × ((ℝ × ℝ) × ℝ) | R v.1 v.2}
  nonneg : 0 ≤ q
  prob : ∀ y : (ℝ × ℝ) × ℝ, 0 ≤ y.2 → y.2 ≤ 1 → fiberLaw {y' | R y y'} = ENNReal.ofReal q

theorem FairRel.le_one {R : (ℝ × ℝ) × ℝ → (ℝ × ℝ) × ℝ → Prop} {q : ℝ} (h : FairRel R q) : q ≤ 1 := by
  have := h.prob ((0, 0), 0) le_rfl zero_le_one
  exact ENNReal.ofReal_le_one.1 (this ▸ prob_le_one)

theorem FairRel.slice {R : (ℝ × ℝ) × ℝ → (ℝ × ℝ) × ℝ → Prop} {q : ℝ} (h : FairRel R q) (y : (ℝ × ℝ) × ℝ) : MeasurableSet {y' | R y y'} :=
  h.meas.preimage (f := fun y' : (ℝ × ℝ) × ℝ => (y, y')) (by fun_prop)

theorem FairRel.not {R : (ℝ × ℝ) × ℝ → (ℝ × ℝ) × ℝ → Prop} {q : ℝ} (h : FairRel R q) : FairRel (fun y y' => ¬ R y y') (1 - q) where
  meas := h.meas.compl
  nonneg := sub_nonneg.2 h.le_one
  prob y h0 h1 := by
    have e : {y' | ¬ R y y'} = {y' | R y y'}ᶜ := rfl
    rw [e, prob_compl_eq_one_sub (h.slice y), h.prob y h0 h1, ENNReal.ofReal_sub _ h.nonneg, ENNReal.ofReal_one]

theorem FairRel.or {R R' : (ℝ × ℝ) × ℝ → (ℝ × ℝ) × ℝ → Prop} {q q' : ℝ} (h : FairRel R q) (h' : FairRel R' q')
    (hd : ∀ y y', R y y' → ¬ R' y y') : FairRel (fun y y' => R y y' ∨ R' y y') (q + q') where
  meas := h.meas.union h'.meas
  nonneg := add_nonneg h.nonneg h'.nonneg
  prob y h0 h1 := by
    have e : {y' | R y y' ∨ R' y y'} = {y' | R y y'} ∪ {y' | R' y y'} := rfl
    have hdis : Disjoint {y' | R y y'} {y' | R' y y'} := disjoint_left.2 fun y' => hd y y'
    rw [e, measure_union hdis (h'.slice y), h.prob y h0 h1, h'.prob y h0 h1, ENNReal.ofReal_add h.nonneg h'.nonneg]

/-- The event that fibers `i` and `j` are in relation. -/
def relEvent (d : ℕ → Ω → ℝ) (n : ℕ) (R : (ℝ × ℝ) × ℝ → (ℝ × ℝ) × ℝ → Prop) (i j : ℕ) : Set Ω :=
  {ω | R (fiberDraws d n i ω) (fiberDraws d n j ω)}

/-- The relation of `i` with a fiber `j` outside a group is independent of what happens in the group. -/
theorem rel_leaf (hd : UniformDraws P d) {R : (ℝ × ℝ) × ℝ → (ℝ × ℝ) × ℝ → Prop} {q : ℝ} (hR : FairRel R q) {n i j : ℕ} (hj : j < n)
    {F : Finset ℕ} (hF : ∀ k ∈ F, k < n) (hi : i ∈ F) (hjF : j ∉ F) {A : Set Ω} (hA : DecidedBy d n F A) :
    P (relEvent d n R i j ∩ A) = ENNReal.ofReal q * P A := by
  obtain ⟨B, hB, rfl⟩ := hA
  have := hd.indep.isProbabilityMeasure
  have hI := hd.group_indep hj hF hjF
  have hX := hd.fiber_measurable n j
  have hZ := hd.group_measurable n F
  let C : Set (((ℝ × ℝ) × ℝ) × (F → (ℝ × ℝ) × ℝ)) := {v | R (v.2 ⟨i, hi⟩) v.1 ∧ v.2 ∈ B}
  have hC : MeasurableSet C := by
    have h1 := hR.meas.preimage (f := fun v : ((ℝ × ℝ) × ℝ) × (F → (ℝ × ℝ) × ℝ) => (v.2 ⟨i, hi⟩, v.1)) (by fun_prop)
    exact h1.inter (hB.preimage measurable_snd)
  have e1 : P (relEvent d n R i j ∩ groupDraws d n F ⁻¹' B) = P.map (fun ω => (fiberDraws d n j ω, groupDraws d n F ω)) C := by
    rw [Measure.map_apply (hX.prodMk hZ) hC]
    rfl
  rw [e1, hI.map_prod_eq_prod_map_map hX.aemeasurable hZ.aemeasurable, hd.fiber_law hj]
  have : IsProbabilityMeasure (P.map (groupDraws d n F)) := Measure.isProbabilityMeasure_map hZ.aemeasurable
  rw [Measure.prod_apply_symm hC, lintegral_map (measurable_measure_prodMk_right hC) hZ]
  have hBm : MeasurableSet (groupDraws d n F ⁻¹' B) := hZ hB
  have e2 : ∀ ω, fiberLaw ((fun y => (y, groupDraws d n F ω)) ⁻¹' C) =
      (groupDraws d n F ⁻¹' B).indicator (fun _ => ENNReal.ofReal q) ω := by
    intro ω
    by_cases hω : ω ∈ groupDraws d n F ⁻¹' B
    · rw [indicator_of_mem hω, ← hR.prob (fiberDraws d n i ω) (hd.range _ _).1 (hd.range _ _).2.le]
      congr 1
      ext y
      exact ⟨fun h => h.1, fun h => ⟨h, hω⟩⟩
    · rw [indicator_of_notMem hω]
      have : (fun y => (y, groupDraws d n F ω)) ⁻¹' C = ∅ := by
        ext y
        exact ⟨fun h => hω h.2, fun h => h.elim⟩
      rw [this, measure_empty]
  simp only [e2]
  rw [lintegral_indicator_const hBm]

omit [MeasurableSpace Ω] in
theorem decided_rel {R : (ℝ × ℝ) × ℝ → (ℝ × ℝ) × ℝ → Prop} {q : ℝ} (hR : FairRel R q) {n i j : ℕ} {F : Finset ℕ} (hi : i ∈ F) (hj : j ∈ F) :
    DecidedBy d n F (relEvent d n R i j) :=
  ⟨{v | R (v ⟨i, hi⟩) (v ⟨j, hj⟩)}, hR.meas.preimage (f := fun v : F → (ℝ × ℝ) × ℝ => (v ⟨i, hi⟩, v ⟨j, hj⟩)) (by fun_prop), rfl⟩

theorem relEvent_measurable (hd : UniformDraws P d) {R : (ℝ × ℝ) × ℝ → (ℝ × ℝ) × ℝ → Prop} {q : ℝ} (hR : FairRel R q) (n i j : ℕ) :
    MeasurableSet (relEvent d n R i j) :=
  hR.meas.preimage ((hd.fiber_measurable n i).prodMk (hd.fiber_measurable n j))

/-- The relations of `i` with the fibers of a set are independent. -/
theorem rels_prob (hd : UniformDraws P d) {R : ℕ → (ℝ × ℝ) × ℝ → (ℝ × ℝ) × ℝ → Prop} {q : ℕ → ℝ} {n i : ℕ} (hi : i < n) {T : Finset ℕ}
    (hR : ∀ j ∈ T, FairRel (R j) (q j)) (hT : ∀ j ∈ T, j < n ∧ j ≠ i) :
    P {ω | ∀ j ∈ T, ω ∈ relEvent d n (R j) i j} = ENNReal.ofReal (∏ j ∈ T, q j) := by
  classical
  have := hd.indep.isProbabilityMeasure
  have hdec : ∀ {F T : Finset ℕ}, i ∈ F → T ⊆ F → (∀ j ∈ T, FairRel (R j) (q j)) → DecidedBy d n F {ω | ∀ j ∈ T, ω ∈ relEvent d n (R j) i j} := by
    intro F T hi hT hR
    induction T using Finset.induction_on with
    | empty => simpa using (decided_univ (d := d))
    | @insert j T hj ih =>
      have e : {ω | ∀ k ∈ insert j T, ω ∈ relEvent d n (R k) i k} = relEvent d n (R j) i j ∩ {ω | ∀ j ∈ T, ω ∈ relEvent d n (R j) i j} := by
        ext ω
        simp
      rw [e]
      exact (decided_rel (hR j (by simp)) hi (hT (by simp))).inter
        (ih (fun k hk => hT (Finset.mem_insert_of_mem hk)) fun k hk => hR k (Finset.mem_insert_of_mem hk))
  induction T using Finset.induction_on with
  | empty => simp
  | @insert j T hj ih =>
    have e : {ω | ∀ k ∈ insert j T, ω ∈ relEvent d n (R k) i k} = relEvent d n (R j) i j ∩ {ω | ∀ j ∈ T, ω ∈ relEvent d n (R j) i j} := by
      ext ω
      simp
    have hT' : ∀ j ∈ T, j < n ∧ j ≠ i := fun k hk => hT k (Finset.mem_insert_of_mem hk)
    have hR' : ∀ j ∈ T, FairRel (R j) (q j) := fun k hk => hR k (Finset.mem_insert_of_mem hk)
    have hji := hT j (Finset.mem_insert_self _ _)
    rw [e, rel_leaf hd (hR j (by simp)) hji.1 (F := insert i T) ?_ (Finset.mem_insert_self _ _) ?_
      (hdec (Finset.mem_insert_self _ _) (Finset.subset_insert _ _) hR'), ih hR' hT', Finset.prod_insert hj,
      ENNReal.ofReal_mul (hR j (by simp)).nonneg]
    · intro k hk
      rcases Finset.mem_insert.1 hk with rfl | hk
      · exact hi
      · exact (hT' k hk).1
    · rw [Finset.mem_insert]
      exact fun h => h.elim hji.2 hj

end
end Fibermat
