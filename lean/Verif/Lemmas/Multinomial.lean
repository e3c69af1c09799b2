import Verif.Spec.Positions
import Verif.Lemmas.Positions
import Mathlib.Probability.Distributions.Poisson.PoissonLimitThm

/-! # The multinomial law -/

namespace Fibermat
open Spec MeasureTheory ProbabilityTheory Set Filter Topology

/-- The multinomial law by successive choices, an outcome of probability `r` being excluded. -/
noncomputable def multi : ℕ → ℝ → List (ℝ × ℕ) → ℝ
  | n, r, [] => (1 - r) ^ n
  | n, r, p :: L => n.choose p.2 * p.1 ^ p.2 * multi (n - p.2) (r + p.1) L

theorem multi_closed (n : ℕ) (r : ℝ) (L : List (ℝ × ℕ)) : multi n r L = if (L.map (·.2)).sum ≤ n then
    n.factorial / ((L.map (fun p => (p.2.factorial : ℝ))).prod * (n - (L.map (·.2)).sum).factorial) *
      (L.map (fun p => p.1 ^ p.2)).prod * (1 - r - (L.map (·.1)).sum) ^ (n - (L.map (·.2)).sum)
    else 0 := by
  induction L generalizing n r with
  | nil =>
    have : (n.factorial : ℝ) ≠ 0 := by exact_mod_cast n.factorial_ne_zero
    simp [multi, this]
  | cons p L ih =>
    rw [multi, ih]
    simp only [List.map_cons, List.sum_cons, List.prod_cons]
    by_cases hk : p.2 ≤ n
    · by_cases hs : (L.map (·.2)).sum ≤ n - p.2
      · rw [if_pos hs, if_pos (by omega), ← Nat.choose_mul_factorial_mul_factorial hk, Nat.sub_sub, ← sub_sub, ← sub_sub]
        have h1 : (p.2.factorial : ℝ) ≠ 0 := by exact_mod_cast p.2.factorial_ne_zero
        push_cast
        field_simp
      · rw [if_neg hs, if_neg (by omega), mul_zero]
    · rw [Nat.choose_eq_zero_of_lt (by omega), if_neg (c := p.2 + (L.map (·.2)).sum ≤ n) (by omega)]
      simp

theorem multi_eq (n : ℕ) (L : List (ℝ × ℕ)) : multi n 0 L = multinomial n L := by
  rw [multi_closed, sub_zero]
  rfl

/-- Limit of the multinomial law for many trials of small probabilities. -/
theorem multi_tendsto {L : List ((ℕ → ℝ) × ℝ × ℕ)} (hL : ∀ p ∈ L, Tendsto (fun t : ℕ => (t : ℝ) * p.1 t) atTop (𝓝 p.2.1)) {r : ℕ → ℝ} {R : ℝ}
    (hr : Tendsto (fun t : ℕ => (t : ℝ) * r t) atTop (𝓝 R)) (m : ℕ) :
    Tendsto (fun t : ℕ => multi (t - m) (r t) (L.map (fun p => (p.1 t, p.2.2)))) atTop
      (𝓝 (Real.exp (-(R + (L.map (·.2.1)).sum)) * (L.map (fun p => p.2.1 ^ p.2.2 / (p.2.2.factorial : ℝ))).prod)) := by
  induction L generalizing r R m with
  | nil =>
    simp only [List.map_nil, multi, List.sum_nil, add_zero, List.prod_nil, mul_one]
    have h0 := tendsto_zero_of_tendsto_mul_atTop hr
    have h1 : Tendsto (fun t : ℕ => (1 - r t) ^ t) atTop (𝓝 (Real.exp (-R))) :=
      Real.tendsto_one_add_pow_exp_of_tendsto (g := fun t => - r t) (by simpa using hr.neg)
    have h2 : Tendsto (fun t : ℕ => (1 - r t) ^ m) atTop (𝓝 1) := by
      simpa using (tendsto_const_nhds (x := (1 : ℝ)) |>.sub h0).pow m
    have h3 := h1.div h2 one_ne_zero
    rw [div_one] at h3
    refine h3.congr' ?_
    filter_upwards [eventually_ge_atTop m, h0.eventually (gt_mem_nhds (by norm_num : (0 : ℝ) < 1))] with t ht hlt
    have : (1 - r t) ≠ 0 := by linarith
    rw [pow_sub₀ _ this ht]
    rfl
  | cons p L ih =>
    have hp := hL p (List.mem_cons_self ..)
    have hz := tendsto_zero_of_tendsto_mul_atTop hp
    have ih := ih (fun q hq => hL q (List.mem_cons_of_mem _ hq)) (r := fun t => r t + p.1 t) (R := R + p.2.1)
      ((hr.add hp).congr fun t => by ring) (m + p.2.2)
    simp only [List.map_cons, multi, List.sum_cons, List.prod_cons]
    have h1 : Tendsto (fun t : ℕ => (((t - m).choose p.2.2 : ℕ) : ℝ) * p.1 t ^ p.2.2) atTop (𝓝 (p.2.1 ^ p.2.2 / (p.2.2.factorial : ℝ))) := by
      have h2 : Tendsto (fun t : ℕ => (t : ℝ) * p.1 (t + m)) atTop (𝓝 p.2.1) := by
        have h3 := (tendsto_add_atTop_iff_nat m).2 hp
        have h4 := (tendsto_add_atTop_iff_nat m).2 hz
        have h5 := h3.sub (h4.const_mul (m : ℝ))
        rw [mul_zero, sub_zero] at h5
        refine h5.congr fun t => ?_
        push_cast
        ring
      have h6 := (tendsto_choose_mul_pow_atTop p.2.2 h2).comp (tendsto_sub_atTop_nat m)
      refine h6.congr' ?_
      filter_upwards [eventually_ge_atTop m] with t ht
      simp only [Function.comp_apply]
      rw [Nat.sub_add_cancel ht]
    have h7 := h1.mul ih
    refine (h7.congr fun t => ?_).trans (le_of_eq ?_)
    · rw [Nat.sub_sub]
    · congr 1
      rw [add_assoc]
      ring

section
variable {Ω : Type} [MeasurableSpace Ω] {P : Measure Ω} {d : ℕ → Ω → ℝ}

abbrev Rel : Type := (ℝ × ℝ) × ℝ → (ℝ × ℝ) × ℝ → Prop

/-- The number of fibers of `T` in relation with `i`. -/
noncomputable def relCount (d : ℕ → Ω → ℝ) (n : ℕ) (R : Rel) (i : ℕ) (T : Finset ℕ) (ω : Ω) : ℕ := by
  classical exact (T.filter (fun j => ω ∈ relEvent d n R i j)).card

omit [MeasurableSpace Ω] in
theorem relCount_eq (n : ℕ) (R : Rel) (i : ℕ) (T : Finset ℕ) (ω : Ω) [DecidablePred (fun j => ω ∈ relEvent d n R i j)] :
    relCount d n R i T ω = (T.filter (fun j => ω ∈ relEvent d n R i j)).card := by
  unfold relCount
  congr!

theorem relCount_measurable (hd : UniformDraws P d) {R : Rel} {q : ℝ} (hR : FairRel R q) (n i : ℕ) (T : Finset ℕ) :
    Measurable (relCount d n R i T) := by
  classical
  have : relCount d n R i T = fun ω => ∑ j ∈ T, if ω ∈ relEvent d n R i j then 1 else 0 := by
    ext ω
    rw [relCount_eq, Finset.card_filter]
  rw [this]
  refine Finset.measurable_fun_sum T fun j _ => ?_
  exact Measurable.ite (relEvent_measurable hd hR n i j) measurable_const measurable_const

/-- The numbers of fibers in several exclusive relations with `i`. -/
theorem rel_multi (hd : UniformDraws P d) {n i : ℕ} (hi : i < n) {L : List (Rel × ℝ × ℕ)} (hL : ∀ p ∈ L, FairRel p.1 p.2.1)
    (hdis : L.Pairwise (fun p p' => ∀ y y', p.1 y y' → ¬ p'.1 y y')) {R₀ : Rel} {r : ℝ} (h₀ : FairRel R₀ r)
    (hdis₀ : ∀ p ∈ L, ∀ y y', R₀ y y' → ¬ p.1 y y') {W T : Finset ℕ} (hWT : Disjoint W T) (hT : ∀ j ∈ W ∪ T, j < n ∧ j ≠ i)
    {S : ℕ → Rel} {w : ℕ → ℝ} (hS : ∀ j ∈ W, FairRel (S j) (w j)) :
    P {ω | (∀ j ∈ W, ω ∈ relEvent d n (S j) i j) ∧ (∀ j ∈ T, ω ∉ relEvent d n R₀ i j) ∧ ∀ p ∈ L, relCount d n p.1 i T ω = p.2.2} =
      ENNReal.ofReal ((∏ j ∈ W, w j) * multi T.card r (L.map (·.2))) := by
  classical
  have := hd.indep.isProbabilityMeasure
  induction L generalizing R₀ r W T S w with
  | nil =>
    have hnW : ∀ j ∈ T, j ∉ W := fun j hj hj' => (Finset.disjoint_left.1 hWT) hj' hj
    have hfair : ∀ j ∈ W ∪ T, FairRel (fun y y' => if j ∈ W then S j y y' else ¬ R₀ y y') (if j ∈ W then w j else 1 - r) := by
      intro j hj
      by_cases hjW : j ∈ W
      · simpa [hjW] using hS j hjW
      · simpa [hjW] using h₀.not
    have h := rels_prob hd hi hfair hT
    rw [Finset.prod_union hWT, Finset.prod_congr rfl (g := w) (fun j hj => if_pos hj),
      Finset.prod_congr rfl (g := fun _ => 1 - r) (s₁ := T) (fun j hj => if_neg (hnW j hj)), Finset.prod_const] at h
    simp only [List.map_nil, multi]
    rw [← h]
    congr 1
    ext ω
    simp only [mem_ofPred_eq, List.not_mem_nil, false_implies, implies_true, and_true, Finset.mem_union]
    constructor
    · rintro ⟨h1, h2⟩ j (hj | hj)
      · have := h1 j hj
        simpa [relEvent, hj] using this
      · have := h2 j hj
        simpa [relEvent, hnW j hj] using this
    · intro h
      refine ⟨fun j hj => ?_, fun j hj => ?_⟩
      · have := h j (Or.inl hj)
        simpa [relEvent, hj] using this
      · have := h j (Or.inr hj)
        simpa [relEvent, hnW j hj] using this
  | cons p L ih =>
    obtain ⟨R, q, k⟩ := p
    rw [List.pairwise_cons] at hdis
    have hR : FairRel R q := hL _ (List.mem_cons_self ..)
    have hL' : ∀ p ∈ L, FairRel p.1 p.2.1 := fun p hp => hL p (List.mem_cons_of_mem _ hp)
    have h₀R : ∀ y y', R₀ y y' → ¬ R y y' := hdis₀ _ (List.mem_cons_self ..)
    have hor := h₀.or hR h₀R
    have hset : {ω | (∀ j ∈ W, ω ∈ relEvent d n (S j) i j) ∧ (∀ j ∈ T, ω ∉ relEvent d n R₀ i j) ∧
        ∀ p ∈ (R, q, k) :: L, relCount d n p.1 i T ω = p.2.2} =
        ⋃ U ∈ T.powersetCard k, {ω | (∀ j ∈ W ∪ U, ω ∈ relEvent d n (if j ∈ U then R else S j) i j) ∧
          (∀ j ∈ T \ U, ω ∉ relEvent d n (fun y y' => R₀ y y' ∨ R y y') i j) ∧ ∀ p ∈ L, relCount d n p.1 i (T \ U) ω = p.2.2} := by
      have hcount : ∀ {U : Finset ℕ} {ω : Ω}, U ⊆ T → (∀ j ∈ U, ω ∈ relEvent d n R i j) → ∀ p ∈ L,
          relCount d n p.1 i T ω = relCount d n p.1 i (T \ U) ω := by
        intro U ω hU h p hp
        rw [relCount_eq, relCount_eq]
        congr 1
        ext j
        simp only [Finset.mem_filter, Finset.mem_sdiff]
        refine ⟨fun ⟨h1, h2⟩ => ⟨⟨h1, fun hjU => hdis.1 p hp _ _ (h j hjU) h2⟩, h2⟩, fun ⟨⟨h1, _⟩, h2⟩ => ⟨h1, h2⟩⟩
      ext ω
      simp only [mem_iUnion, mem_ofPred_eq, exists_prop, Finset.mem_powersetCard, List.forall_mem_cons]
      constructor
      · rintro ⟨h1, h2, h3, h4⟩
        obtain ⟨U, hU⟩ : ∃ U, U = T.filter (fun j => ω ∈ relEvent d n R i j) := ⟨_, rfl⟩
        have hUT : U ⊆ T := hU ▸ Finset.filter_subset _ _
        have hm : ∀ j ∈ U, ω ∈ relEvent d n R i j := by
          intro j hj
          rw [hU, Finset.mem_filter] at hj
          exact hj.2
        refine ⟨U, ⟨hUT, ?_⟩, ?_, ?_, ?_⟩
        · rw [hU, ← relCount_eq]
          exact h3
        · intro j hj
          by_cases hjU : j ∈ U
          · rw [if_pos hjU]
            exact hm j hjU
          · rw [if_neg hjU]
            exact h1 j ((Finset.mem_union.1 hj).resolve_right hjU)
        · intro j hj hc
          obtain ⟨hjT, hjU⟩ := Finset.mem_sdiff.1 hj
          rcases hc with hc | hc
          · exact h2 j hjT hc
          · refine hjU ?_
            rw [hU, Finset.mem_filter]
            exact ⟨hjT, hc⟩
        · intro p hp
          rw [← hcount hUT hm p hp]
          exact h4 p hp
      · rintro ⟨U, ⟨hUT, hk⟩, h1, h2, h3⟩
        have hm : ∀ j ∈ U, ω ∈ relEvent d n R i j := by
          intro j hj
          have := h1 j (Finset.mem_union_right _ hj)
          rwa [if_pos hj] at this
        refine ⟨?_, ?_, ?_, ?_⟩
        · intro j hj
          have := h1 j (Finset.mem_union_left _ hj)
          rwa [if_neg (fun hjU => (Finset.disjoint_left.1 hWT) hj (hUT hjU))] at this
        · intro j hj hc
          by_cases hjU : j ∈ U
          · exact h₀R _ _ hc (hm j hjU)
          · exact h2 j (Finset.mem_sdiff.2 ⟨hj, hjU⟩) (Or.inl hc)
        · rw [← hk, relCount_eq]
          congr 1
          ext j
          rw [Finset.mem_filter]
          refine ⟨fun ⟨hj, hc⟩ => ?_, fun hj => ⟨hUT hj, hm j hj⟩⟩
          by_contra hjU
          exact h2 j (Finset.mem_sdiff.2 ⟨hj, hjU⟩) (Or.inr hc)
        · intro p hp
          rw [hcount hUT hm p hp]
          exact h3 p hp
    have hfair : ∀ U, U ⊆ T → ∀ j ∈ W ∪ U, FairRel (if j ∈ U then R else S j) (if j ∈ U then q else w j) := by
      intro U hU j hj
      by_cases hjU : j ∈ U
      · rw [if_pos hjU, if_pos hjU]
        exact hR
      · rw [if_neg hjU, if_neg hjU]
        exact hS j ((Finset.mem_union.1 hj).resolve_right hjU)
    rw [hset, measure_biUnion_finset]
    · have e1 : ∀ U ∈ T.powersetCard k, P {ω | (∀ j ∈ W ∪ U, ω ∈ relEvent d n (if j ∈ U then R else S j) i j) ∧
          (∀ j ∈ T \ U, ω ∉ relEvent d n (fun y y' => R₀ y y' ∨ R y y') i j) ∧ ∀ p ∈ L, relCount d n p.1 i (T \ U) ω = p.2.2} =
          ENNReal.ofReal ((∏ j ∈ W, w j) * q ^ k * multi (T.card - k) (r + q) (L.map (·.2))) := by
        intro U hU
        obtain ⟨hU, hk⟩ := Finset.mem_powersetCard.1 hU
        have hWU : Disjoint W U := hWT.mono_right hU
        rw [ih hL' hdis.2 hor ?_ ?_ ?_ (hfair U hU)]
        · rw [Finset.prod_union hWU, Finset.prod_congr rfl (g := fun _ => q) (s₁ := U) (fun j hj => if_pos hj), Finset.prod_const, hk,
            Finset.prod_congr rfl (g := w) (s₁ := W) (fun j hj => if_neg fun hjU => (Finset.disjoint_left.1 hWU) hj hjU),
            Finset.card_sdiff_of_subset hU, hk]
        · rintro p hp y y' (h | h)
          · exact hdis₀ p (List.mem_cons_of_mem _ hp) y y' h
          · exact hdis.1 p hp y y' h
        · rw [Finset.disjoint_union_left]
          exact ⟨hWT.mono_right Finset.sdiff_subset, Finset.disjoint_sdiff⟩
        · intro j hj
          refine hT j ?_
          simp only [Finset.mem_union, Finset.mem_sdiff] at hj ⊢
          rcases hj with (hj | hj) | hj
          · exact Or.inl hj
          · exact Or.inr (hU hj)
          · exact Or.inr hj.1
      rw [Finset.sum_congr rfl e1, Finset.sum_const, Finset.card_powersetCard, nsmul_eq_mul, ← ENNReal.ofReal_natCast,
        ← ENNReal.ofReal_mul (Nat.cast_nonneg _)]
      simp only [List.map_cons, multi]
      congr 1
      ring
    · intro U hU V hV hne
      rw [Function.onFun, disjoint_left]
      rintro ω ⟨h1, h2, -⟩ ⟨h1', h2', -⟩
      obtain ⟨hU, -⟩ := Finset.mem_powersetCard.1 hU
      obtain ⟨hV, -⟩ := Finset.mem_powersetCard.1 hV
      refine hne (Finset.ext fun j => ⟨fun hj => ?_, fun hj => ?_⟩)
      · by_contra hj'
        have := h1 j (Finset.mem_union_right _ hj)
        rw [if_pos hj] at this
        exact h2' j (Finset.mem_sdiff.2 ⟨hU hj, hj'⟩) (Or.inr this)
      · by_contra hj'
        have := h1' j (Finset.mem_union_right _ hj)
        rw [if_pos hj] at this
        exact h2 j (Finset.mem_sdiff.2 ⟨hV hj, hj'⟩) (Or.inr this)
    · intro U hU
      obtain ⟨hU, -⟩ := Finset.mem_powersetCard.1 hU
      have e2 : {ω | (∀ j ∈ W ∪ U, ω ∈ relEvent d n (if j ∈ U then R else S j) i j) ∧
          (∀ j ∈ T \ U, ω ∉ relEvent d n (fun y y' => R₀ y y' ∨ R y y') i j) ∧ ∀ p ∈ L, relCount d n p.1 i (T \ U) ω = p.2.2} =
          (⋂ j ∈ W ∪ U, relEvent d n (if j ∈ U then R else S j) i j) ∩ ((⋂ j ∈ T \ U, (relEvent d n (fun y y' => R₀ y y' ∨ R y y') i j)ᶜ) ∩
            ⋂ p ∈ {p | p ∈ L}, relCount d n p.1 i (T \ U) ⁻¹' {p.2.2}) := by
        ext ω
        simp only [mem_ofPred_eq, mem_inter_iff, mem_iInter, mem_compl_iff, mem_preimage, mem_singleton_iff]
      rw [e2]
      refine (Finset.measurableSet_biInter _ fun j hj => relEvent_measurable hd (hfair U hU j hj) n i j).inter
        ((Finset.measurableSet_biInter _ fun j _ => (relEvent_measurable hd hor n i j).compl).inter ?_)
      exact MeasurableSet.biInter (List.finite_toSet L).countable fun p hp =>
        relCount_measurable hd (hL' p hp) n i _ (measurableSet_singleton _)

end
end Fibermat
