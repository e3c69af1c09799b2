import Verif.Props.Piles

/-! # A pile chosen step by step in a random mat -/

namespace Fibermat
open Spec MeasureTheory ProbabilityTheory Set

noncomputable section

/-- From fiber `i` downwards: among the `t` fibers below `i`, add to the pile each fiber that crosses the last one chosen. -/
def greedy (X : ℕ → ℕ → Prop) (i : ℕ) : ℕ → List ℕ
  | 0 => [i]
  | t + 1 => open Classical in if X ((greedy X i t).headD i) (i - 1 - t) then (i - 1 - t) :: greedy X i t else greedy X i t

/-- The last fiber chosen. -/
def last (X : ℕ → ℕ → Prop) (i t : ℕ) : ℕ := (greedy X i t).headD i

theorem greedy_succ_pos {X : ℕ → ℕ → Prop} {i t : ℕ} (h : X (last X i t) (i - 1 - t)) : greedy X i (t + 1) = (i - 1 - t) :: greedy X i t := by
  rw [greedy]
  exact if_pos h

theorem greedy_succ_neg {X : ℕ → ℕ → Prop} {i t : ℕ} (h : ¬ X (last X i t) (i - 1 - t)) : greedy X i (t + 1) = greedy X i t := by
  rw [greedy]
  exact if_neg h

theorem greedy_ends (X : ℕ → ℕ → Prop) (i t : ℕ) : ∃ l, greedy X i t = l ++ [i] := by
  induction t with
  | zero => exact ⟨[], rfl⟩
  | succ t ih =>
    obtain ⟨l, hl⟩ := ih
    by_cases h : X (last X i t) (i - 1 - t)
    · exact ⟨(i - 1 - t) :: l, by rw [greedy_succ_pos h, hl]; rfl⟩
    · exact ⟨l, by rw [greedy_succ_neg h, hl]⟩

theorem last_cons (X : ℕ → ℕ → Prop) (i t : ℕ) : ∃ l, greedy X i t = last X i t :: l := by
  obtain ⟨l, hl⟩ := greedy_ends X i t
  unfold last
  rw [hl]
  cases l with
  | nil => exact ⟨[], rfl⟩
  | cons c l => exact ⟨l ++ [i], rfl⟩

theorem greedy_mem (X : ℕ → ℕ → Prop) {i t : ℕ} (ht : t ≤ i) : ∀ c ∈ greedy X i t, i - t ≤ c ∧ c ≤ i := by
  induction t with
  | zero => simp [greedy]
  | succ t ih =>
    have ih := ih (by omega)
    by_cases h : X (last X i t) (i - 1 - t)
    · rw [greedy_succ_pos h]
      intro c hc
      rcases List.mem_cons.1 hc with rfl | hc
      · omega
      · have := ih c hc
        omega
    · rw [greedy_succ_neg h]
      intro c hc
      have := ih c hc
      omega

theorem last_mem (X : ℕ → ℕ → Prop) {i t : ℕ} (ht : t ≤ i) : i - t ≤ last X i t ∧ last X i t ≤ i := by
  obtain ⟨l, hl⟩ := last_cons X i t
  exact greedy_mem X ht _ (by rw [hl]; exact List.mem_cons_self ..)

/-- The fibers chosen form a chain. -/
theorem greedy_chain (X : ℕ → ℕ → Prop) {i t : ℕ} (ht : t ≤ i) : (greedy X i t).IsChain (fun a b => a < b ∧ X b a) := by
  induction t with
  | zero => exact List.IsChain.singleton _
  | succ t ih =>
    have ih := ih (by omega)
    by_cases h : X (last X i t) (i - 1 - t)
    · obtain ⟨l, hl⟩ := last_cons X i t
      rw [greedy_succ_pos h]
      rw [hl] at ih ⊢
      refine List.isChain_cons_cons.2 ⟨⟨?_, h⟩, ih⟩
      have := last_mem X (i := i) (t := t) (by omega)
      omega
    · rw [greedy_succ_neg h]
      exact ih

/-- The choice depends only on the crossings of the fibers seen. -/
theorem greedy_congr {X Y : ℕ → ℕ → Prop} {i t : ℕ} (ht : t ≤ i)
    (h : ∀ a b, i - t ≤ a → a ≤ i → i - t ≤ b → b ≤ i → (X a b ↔ Y a b)) : greedy X i t = greedy Y i t := by
  induction t with
  | zero => rfl
  | succ t ih =>
    have ih := ih (by omega) fun a b h1 h2 h3 h4 => h a b (by omega) h2 (by omega) h4
    have hl : last X i t = last Y i t := by rw [last, last, ih]
    have hm := last_mem X (i := i) (t := t) (by omega)
    have hx := h (last X i t) (i - 1 - t) (by omega) hm.2 (by omega) (by omega)
    by_cases hX : X (last X i t) (i - 1 - t)
    · rw [greedy_succ_pos hX, greedy_succ_pos (hl ▸ hx.1 hX), ih]
    · rw [greedy_succ_neg hX, greedy_succ_neg (fun hY => hX (hx.2 (hl ▸ hY))), ih]

variable {Ω : Type} [MeasurableSpace Ω] {P : Measure Ω} {d : ℕ → Ω → ℝ}

/-- The crossings of a random mat. -/
def crossings (d : ℕ → Ω → ℝ) (l S : ℝ) (n : ℕ) (ω : Ω) (a b : ℕ) : Prop := ω ∈ crossEvent d l S Real.pi n (a, b)

omit [MeasurableSpace Ω] in
/-- An event on the crossings of a group of fibers is decided by the group. -/
theorem decided_pattern {l S : ℝ} {n : ℕ} {F : Finset ℕ} {Φ : (ℕ → ℕ → Prop) → Prop}
    (hΦ : ∀ X Y : ℕ → ℕ → Prop, (∀ a ∈ F, ∀ b ∈ F, (X a b ↔ Y a b)) → Φ X → Φ Y) : DecidedBy d n F {ω | Φ (crossings d l S n ω)} := by
  classical
  let pat : (F → (ℝ × ℝ) × ℝ) → (F × F → Prop) := fun v q => CrossFibers l S Real.pi (v q.1) (v q.2)
  have hpat : Measurable pat := by
    refine measurable_pi_iff.2 fun q => ?_
    refine measurableSet_setOfPred.1 ?_
    exact (measurableSet_crossFibers l S Real.pi).preimage (f := fun v : F → (ℝ × ℝ) × ℝ => (v q.1, v q.2)) (by fun_prop)
  let ext : (F × F → Prop) → ℕ → ℕ → Prop := fun f a b => ∃ (ha : a ∈ F) (hb : b ∈ F), f (⟨a, ha⟩, ⟨b, hb⟩)
  refine ⟨pat ⁻¹' {f | Φ (ext f)}, hpat (Set.toFinite _).measurableSet, ?_⟩
  ext ω
  have key : ∀ a ∈ F, ∀ b ∈ F, (crossings d l S n ω a b ↔ ext (pat (groupDraws d n F ω)) a b) := by
    intro a ha b hb
    exact ⟨fun h => ⟨ha, hb, h⟩, fun ⟨_, _, h⟩ => h⟩
  exact ⟨hΦ _ _ key, hΦ _ _ fun a ha b hb => (key a ha b hb).symm⟩

theorem DecidedBy.measurable (hd : UniformDraws P d) {n : ℕ} {F : Finset ℕ} {A : Set Ω} (h : DecidedBy d n F A) : MeasurableSet A := by
  obtain ⟨B, hB, rfl⟩ := h
  exact hd.group_measurable n F hB

/-- The event that the next fiber crosses the last one chosen. -/
def nextEvent (d : ℕ → Ω → ℝ) (l S : ℝ) (n i t : ℕ) : Set Ω := {ω | crossings d l S n ω (last (crossings d l S n ω) i t) (i - 1 - t)}

omit [MeasurableSpace Ω] in
/-- It is decided by the fibers seen. -/
theorem nextEvent_decided {l S : ℝ} {n i t : ℕ} (ht : t < i) : DecidedBy d n (Finset.Icc (i - 1 - t) i) (nextEvent d l S n i t) := by
  refine decided_pattern (Φ := fun X => X (last X i t) (i - 1 - t)) ?_
  intro X Y h hX
  have hc : ∀ a b, i - 1 - t ≤ a → a ≤ i → i - 1 - t ≤ b → b ≤ i → (X a b ↔ Y a b) :=
    fun a b h1 h2 h3 h4 => h a (Finset.mem_Icc.2 ⟨h1, h2⟩) b (Finset.mem_Icc.2 ⟨h3, h4⟩)
  have hl : last X i t = last Y i t := by
    rw [last, last, greedy_congr (X := X) (Y := Y) ht.le fun a b h1 h2 h3 h4 => hc a b (by omega) h2 (by omega) h4]
  have hm := last_mem X (i := i) (t := t) ht.le
  rw [← hl]
  exact (hc _ _ (by omega) hm.2 (by omega) (by omega)).1 hX

/-- Whatever happened before, the next fiber crosses the last one chosen with probability `p`. -/
theorem next_inter (hd : UniformDraws P d) {l S : ℝ} (hl : 0 ≤ l) (hS : 0 < S) (hlS : l ≤ S / 2) {n i t : ℕ} (hi : i < n) (ht : t < i)
    {A : Set Ω} (hA : DecidedBy d n (Finset.Icc (i - t) i) A) :
    P (nextEvent d l S n i t ∩ A) = ENNReal.ofReal (crossChance l S Real.pi) * P A := by
  classical
  have hdec : ∀ c, DecidedBy d n (Finset.Icc (i - t) i) {ω | last (crossings d l S n ω) i t = c} := by
    intro c
    refine decided_pattern (Φ := fun X => last X i t = c) ?_
    intro X Y h hX
    rw [← hX, last, last, greedy_congr (X := X) (Y := Y) ht.le
      fun a b h1 h2 h3 h4 => h a (Finset.mem_Icc.2 ⟨h1, h2⟩) b (Finset.mem_Icc.2 ⟨h3, h4⟩)]
  have hpart : ∀ B : Set Ω, B = ⋃ c ∈ Finset.Icc (i - t) i, ({ω | last (crossings d l S n ω) i t = c} ∩ B) := by
    intro B
    ext ω
    simp only [mem_iUnion, mem_inter_iff, mem_ofPred_eq, Finset.mem_Icc]
    exact ⟨fun h => ⟨_, last_mem _ ht.le, rfl, h⟩, fun ⟨_, _, _, h⟩ => h⟩
  have hdisj : ∀ B : Set Ω, (↑(Finset.Icc (i - t) i) : Set ℕ).PairwiseDisjoint (fun c => {ω | last (crossings d l S n ω) i t = c} ∩ B) := by
    intro B c _ c' _ hcc
    refine Set.disjoint_left.2 ?_
    rintro ω ⟨h1, -⟩ ⟨h2, -⟩
    exact hcc (h1.symm.trans h2)
  have hnm : MeasurableSet (nextEvent d l S n i t) := (nextEvent_decided ht).measurable hd
  have hAm := hA.measurable hd
  conv_lhs => rw [hpart (nextEvent d l S n i t ∩ A)]
  conv_rhs => rw [hpart A]
  rw [measure_biUnion_finset (hdisj _) fun c _ => ((hdec c).measurable hd).inter (hnm.inter hAm),
    measure_biUnion_finset (hdisj _) fun c _ => ((hdec c).measurable hd).inter hAm, Finset.mul_sum]
  refine Finset.sum_congr rfl fun c hc => ?_
  rw [← leaf_inter hd hl hS hlS (j := i - 1 - t) (by omega) (fun k hk => ?_) hc (fun h => ?_) ((hdec c).inter hA)]
  · congr 1
    ext ω
    simp only [nextEvent, mem_inter_iff, mem_ofPred_eq]
    constructor
    · rintro ⟨rfl, h, h'⟩
      exact ⟨h, rfl, h'⟩
    · rintro ⟨h, rfl, h'⟩
      exact ⟨rfl, h, h'⟩
  · have := (Finset.mem_Icc.1 hk).2
    omega
  · have := (Finset.mem_Icc.1 h).1
    omega

omit [MeasurableSpace Ω] in
/-- The number of fibers chosen. -/
theorem greedy_length (l S : ℝ) (n i t : ℕ) (ω : Ω) : ((greedy (crossings d l S n ω) i t).length : ℝ) =
    1 + ∑ r ∈ Finset.range t, (nextEvent d l S n i r).indicator (fun _ => (1 : ℝ)) ω := by
  induction t with
  | zero => simp [greedy]
  | succ t ih =>
    rw [Finset.sum_range_succ, ← add_assoc, ← ih]
    by_cases h : crossings d l S n ω (last (crossings d l S n ω) i t) (i - 1 - t)
    · rw [greedy_succ_pos h, indicator_of_mem (show ω ∈ nextEvent d l S n i t from h)]
      simp
    · rw [greedy_succ_neg h, indicator_of_notMem (show ω ∉ nextEvent d l S n i t from h), add_zero]

/-- The law of the number of fibers chosen. -/
theorem greedy_law (hd : UniformDraws P d) {l S : ℝ} (hl : 0 ≤ l) (hS : 0 < S) (hlS : l ≤ S / 2) {n i t : ℕ} (hi : i < n) (ht : t ≤ i) (k : ℕ) :
    P {ω | (greedy (crossings d l S n ω) i t).length = k + 1} = ENNReal.ofReal (binomial t (crossChance l S Real.pi) k) := by
  have := hd.indep.isProbabilityMeasure
  have hp0 : 0 ≤ crossChance l S Real.pi := crossChance_nonneg Real.pi_pos.le
  have hp1 := crossChance_le_one hd hl hS hlS
  have hdec : ∀ {t}, t ≤ i → ∀ k, DecidedBy d n (Finset.Icc (i - t) i) {ω | (greedy (crossings d l S n ω) i t).length = k} := by
    intro t ht k
    refine decided_pattern (Φ := fun X => (greedy X i t).length = k) ?_
    intro X Y h hX
    rw [← hX, greedy_congr (X := X) (Y := Y) ht fun a b h1 h2 h3 h4 => h a (Finset.mem_Icc.2 ⟨h1, h2⟩) b (Finset.mem_Icc.2 ⟨h3, h4⟩)]
  have hbin : ∀ t k, 0 ≤ binomial t (crossChance l S Real.pi) k := fun t k =>
    mul_nonneg (mul_nonneg (Nat.cast_nonneg _) (pow_nonneg hp0 _)) (pow_nonneg (sub_nonneg.2 hp1) _)
  induction t generalizing k with
  | zero =>
    cases k with
    | zero =>
      have : {ω | (greedy (crossings d l S n ω) i 0).length = 0 + 1} = univ := by
        ext ω
        simp [greedy]
      rw [this, measure_univ]
      simp [binomial]
    | succ k =>
      have : {ω | (greedy (crossings d l S n ω) i 0).length = k + 1 + 1} = ∅ := by
        ext ω
        simp [greedy]
      rw [this, measure_empty]
      simp [binomial]
  | succ t ih =>
    have ih := ih (by omega)
    have hnm : MeasurableSet (nextEvent d l S n i t) := (nextEvent_decided (by omega)).measurable hd
    have hin : ∀ k, P (nextEvent d l S n i t ∩ {ω | (greedy (crossings d l S n ω) i t).length = k}) = _ :=
      fun k => next_inter hd hl hS hlS hi (by omega) (hdec (by omega) k)
    have hout : ∀ k, P ({ω | (greedy (crossings d l S n ω) i t).length = k + 1} \ nextEvent d l S n i t) =
        ENNReal.ofReal ((1 - crossChance l S Real.pi) * binomial t (crossChance l S Real.pi) k) := by
      intro k
      have h2 : P ({ω | (greedy (crossings d l S n ω) i t).length = k + 1} ∩ nextEvent d l S n i t) +
          P ({ω | (greedy (crossings d l S n ω) i t).length = k + 1} \ nextEvent d l S n i t) =
          P {ω | (greedy (crossings d l S n ω) i t).length = k + 1} := measure_inter_add_diff _ hnm
      rw [inter_comm, hin, ih, ← ENNReal.ofReal_mul hp0] at h2
      rw [← ENNReal.add_right_inj (a := ENNReal.ofReal (crossChance l S Real.pi * binomial t (crossChance l S Real.pi) k)) ENNReal.ofReal_ne_top,
        h2, ← ENNReal.ofReal_add (mul_nonneg hp0 (hbin _ _)) (mul_nonneg (sub_nonneg.2 hp1) (hbin _ _))]
      congr 1
      ring
    have hsplit : {ω | (greedy (crossings d l S n ω) i (t + 1)).length = k + 1} =
        (nextEvent d l S n i t ∩ {ω | (greedy (crossings d l S n ω) i t).length = k}) ∪
        ({ω | (greedy (crossings d l S n ω) i t).length = k + 1} \ nextEvent d l S n i t) := by
      ext ω
      by_cases h : crossings d l S n ω (last (crossings d l S n ω) i t) (i - 1 - t)
      · have h' : ω ∈ nextEvent d l S n i t := h
        simp [greedy_succ_pos h, h']
      · have h' : ω ∉ nextEvent d l S n i t := h
        simp [greedy_succ_neg h, h']
    rw [hsplit, measure_union ?_ (((hdec (by omega) _).measurable hd).diff hnm), hin, hout]
    · cases k with
      | zero =>
        have : {ω | (greedy (crossings d l S n ω) i t).length = 0} = ∅ := by
          ext ω
          obtain ⟨l', hl'⟩ := greedy_ends (crossings d l S n ω) i t
          simp [hl']
        rw [this, measure_empty, mul_zero, zero_add]
        congr 1
        simp only [binomial, Nat.choose_zero_right, Nat.sub_zero]
        ring
      | succ k =>
        rw [ih, ← ENNReal.ofReal_mul hp0, ← ENNReal.ofReal_add (mul_nonneg hp0 (hbin _ _)) (mul_nonneg (sub_nonneg.2 hp1) (hbin _ _))]
        congr 1
        unfold binomial
        rw [Nat.choose_succ_succ']
        push_cast
        rcases Nat.lt_or_ge k t with hk | hk
        · rw [show t - k = (t - (k + 1)) + 1 by omega]
          ring
        · rw [Nat.choose_eq_zero_of_lt (by omega : t < k + 1)]
          push_cast
          ring
    · exact Set.disjoint_left.2 fun ω h1 h2 => h2.2 h1.1

variable {e s : ℕ} {a : MatArgs ℝ}

/-- The pile chosen step by step is below the top of its last fiber. -/
theorem greedy_top (hd : UniformDraws P d) (hs : a.seed ≠ none) (hpsi : a.psi = 0) (hS : 0 < a.size) (hl : a.length ≤ a.size / 2)
    (hπ : a.theta = Real.pi) {lp : Linprog ℝ} (hlp : GoodLinprog lp) {ω : Ω} {m : Mat ℝ} {s' : ℕ}
    (h : matNew (stream (fun k => d k ω)) Real.cos Real.sin e a s = .ok (m, s')) {net : Net ℝ}
    (hn : netNew m true = .ok net) {threshold : Option ℝ} {m' : Mat ℝ} {st : Net ℝ} (hst : stackNew lp m net threshold = .ok (m', st))
    {i : ℕ} (hi : i < a.n.toNat) :
    (greedy (crossings d a.length a.size a.n.toNat ω) i i).length * a.thickness ≤ topOf m' i := by
  obtain ⟨hgood, -, hlen, -⟩ := random_mat hd hs hpsi h
  have hlab := C06_labels hgood hn
  have hmem := greedy_mem (crossings d a.length a.size a.n.toNat ω) (le_refl i)
  have hchain := greedy_chain (crossings d a.length a.size a.n.toNat ω) (le_refl i)
  obtain ⟨c, hc⟩ := greedy_ends (crossings d a.length a.size a.n.toNat ω) i i
  rw [hc] at hmem hchain ⊢
  have hpile : PileOf net (c ++ [i]) := by
    unfold PileOf
    refine List.IsChain.imp_of_mem_imp ?_ hchain
    intro x y hx hy hxy
    refine ⟨hxy.1, ?_⟩
    have h1 := hmem x hx
    have h2 := hmem y hy
    rcases (random_linked hd hs hpsi hS hl hπ h hn hxy.1.ne' (by omega) (by omega)).2 hxy.2 with ⟨r, hr, hA, hB⟩ | hc
    · have := hlab r hr
      omega
    · exact hc
  have hup := (C122_pile hlp hgood hn hst (by omega : i < m.fibers.length)).2 ⟨c, hpile, rfl⟩
  refine le_trans (le_of_eq ?_) hup
  rw [pileThickness, List.map_congr_left (g := fun _ => a.thickness)]
  · simp
    ring
  · intro j hj
    exact random_thick hs h (by have := hmem j hj; omega)

/-- C122: fiber number `i` of a random stack is as high as `k + 1` fibers with a probability of at least that of `k` successes or more in `i` trials
of probability `p`. -/
theorem C122_lower (hd : UniformDraws P d) (hseed : GoodSeed a.seed) (hs : a.seed ≠ none) (hpos : PositiveArgs a)
    (hpsi : a.psi = 0) (hl : a.length ≤ a.size / 2) (hπ : a.theta = Real.pi) {lp : Linprog ℝ} (hlp : GoodLinprog lp)
    (threshold : Option ℝ) {i : ℕ} (hi : (i : ℤ) < a.n) (k : ℕ) :
    ENNReal.ofReal (∑ j ∈ Finset.Icc k i, binomial i (crossChance a.length a.size Real.pi) j) ≤
    P {ω | ∃ m s' net m' st, matNew (stream (fun k => d k ω)) Real.cos Real.sin e a s = .ok (m, s') ∧ netNew m true = .ok net ∧
      stackNew lp m net threshold = .ok (m', st) ∧ (k + 1) * a.thickness ≤ topOf m' i} := by
  have hS : 0 < a.size := by linarith [hpos.1]
  have hp0 : 0 ≤ crossChance a.length a.size Real.pi := crossChance_nonneg Real.pi_pos.le
  have hp1 := crossChance_le_one hd hpos.1.le hS hl
  have hlt : i < a.n.toNat := by omega
  have hbin : ∀ j, 0 ≤ binomial i (crossChance a.length a.size Real.pi) j := fun j =>
    mul_nonneg (mul_nonneg (Nat.cast_nonneg _) (pow_nonneg hp0 _)) (pow_nonneg (sub_nonneg.2 hp1) _)
  rw [ENNReal.ofReal_sum_of_nonneg fun j _ => hbin j]
  simp only [← greedy_law hd hpos.1.le hS hl hlt (le_refl i)]
  have hm : ∀ j, MeasurableSet {ω | (greedy (crossings d a.length a.size a.n.toNat ω) i i).length = j + 1} := by
    intro j
    refine (decided_pattern (F := Finset.Icc (i - i) i) (Φ := fun X => (greedy X i i).length = j + 1) ?_).measurable hd
    intro X Y h hX
    rw [← hX, greedy_congr (X := X) (Y := Y) le_rfl fun a b h1 h2 h3 h4 => h a (Finset.mem_Icc.2 ⟨h1, h2⟩) b (Finset.mem_Icc.2 ⟨h3, h4⟩)]
  rw [← measure_biUnion_finset ?_ fun j _ => hm j]
  · refine measure_mono ?_
    intro ω hω
    simp only [mem_iUnion, mem_ofPred_eq, Finset.mem_Icc] at hω
    obtain ⟨j, hj, hlen⟩ := hω
    obtain ⟨m, s', net, h, hn⟩ := C118_exists (e := e) (s := s) hd hseed (by omega) hS.le hpos true ω
    obtain ⟨hgood, -⟩ := random_mat hd hs hpsi h
    obtain ⟨m', st, mesh, hst, -⟩ := C27_mesh_of_stack hlp hgood hn threshold
    refine ⟨m, s', net, m', st, h, hn, hst, ?_⟩
    have ht := greedy_top hd hs hpsi hS hl hπ hlp h hn hst hlt
    rw [hlen] at ht
    refine le_trans (mul_le_mul_of_nonneg_right ?_ hpos.2.2.1.le) ht
    exact_mod_cast Nat.succ_le_succ hj.1
  · intro j _ j' _ hne
    refine Set.disjoint_left.2 fun ω h1 h2 => hne ?_
    have h3 : j + 1 = j' + 1 := h1.symm.trans h2
    omega

/-- C122: the mean height of the top of fiber number `i` is at least `1 + i p` thicknesses. -/
theorem C122_lower_mean (hd : UniformDraws P d) (hs : a.seed ≠ none) (hpos : PositiveArgs a) (hpsi : a.psi = 0) (hl : a.length ≤ a.size / 2)
    (hπ : a.theta = Real.pi) {lp : Linprog ℝ} (hlp : GoodLinprog lp) (threshold : Option ℝ) {i : ℕ} (hi : (i : ℤ) < a.n) {T : Ω → ℝ}
    (hT : ∀ ω, ∃ m s' net m' st, matNew (stream (fun k => d k ω)) Real.cos Real.sin e a s = .ok (m, s') ∧ netNew m true = .ok net ∧
      stackNew lp m net threshold = .ok (m', st) ∧ T ω = topOf m' i) :
    ENNReal.ofReal (a.thickness * (1 + i * crossChance a.length a.size Real.pi)) ≤ ∫⁻ ω, ENNReal.ofReal (T ω) ∂P := by
  have := hd.indep.isProbabilityMeasure
  have hS : 0 < a.size := by linarith [hpos.1]
  have hp0 : 0 ≤ crossChance a.length a.size Real.pi := crossChance_nonneg Real.pi_pos.le
  have hlt : i < a.n.toNat := by omega
  have hle : ∀ ω, ENNReal.ofReal a.thickness *
      (1 + ∑ r ∈ Finset.range i, (nextEvent d a.length a.size a.n.toNat i r).indicator (fun _ => (1 : ENNReal)) ω) ≤ ENNReal.ofReal (T ω) := by
    intro ω
    obtain ⟨m, s', net, m', st, h, hn, hst, hk⟩ := hT ω
    have ht := greedy_top hd hs hpsi hS hl hπ hlp h hn hst hlt
    rw [hk]
    refine le_trans (le_of_eq ?_) (ENNReal.ofReal_le_ofReal ht)
    rw [mul_comm _ a.thickness, ENNReal.ofReal_mul hpos.2.2.1.le, greedy_length, ENNReal.ofReal_add zero_le_one
      (Finset.sum_nonneg fun r _ => indicator_nonneg (fun _ _ => zero_le_one) _), ENNReal.ofReal_one,
      ENNReal.ofReal_sum_of_nonneg fun r _ => indicator_nonneg (fun _ _ => zero_le_one) _]
    congr 2
    refine Finset.sum_congr rfl fun r _ => ?_
    by_cases hr : ω ∈ nextEvent d a.length a.size a.n.toNat i r <;> simp [hr]
  refine le_trans (le_of_eq ?_) (lintegral_mono hle)
  have hm : ∀ r ∈ Finset.range i, MeasurableSet (nextEvent d a.length a.size a.n.toNat i r) :=
    fun r hr => (nextEvent_decided (Finset.mem_range.1 hr)).measurable hd
  rw [lintegral_const_mul' _ _ ENNReal.ofReal_ne_top, lintegral_add_left measurable_const, lintegral_const, measure_univ, mul_one,
    lintegral_finsetSum _ fun r hr => measurable_const.indicator (hm r hr), ENNReal.ofReal_mul hpos.2.2.1.le,
    ENNReal.ofReal_add zero_le_one (by positivity), ENNReal.ofReal_one]
  congr 2
  rw [Finset.sum_congr rfl (g := fun _ => ENNReal.ofReal (crossChance a.length a.size Real.pi))]
  · rw [Finset.sum_const, Finset.card_range, nsmul_eq_mul, ENNReal.ofReal_mul (Nat.cast_nonneg _), ENNReal.ofReal_natCast]
  · intro r hr
    rw [lintegral_indicator_const (hm r hr), one_mul]
    have := next_inter hd hpos.1.le hS hl hlt (Finset.mem_range.1 hr) decided_univ
    rwa [inter_univ, measure_univ, mul_one] at this

end
end Fibermat
