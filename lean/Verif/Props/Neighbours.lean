import Verif.Spec.Neighbours
import Verif.Props.ChanceVariance

/-! # C121: neighbours of a fiber in a random mat -/

namespace Fibermat
open Spec MeasureTheory ProbabilityTheory Set

section
variable {Ω : Type} [MeasurableSpace Ω] {P : Measure Ω} {d : ℕ → Ω → ℝ} {e s : ℕ} {a : MatArgs ℝ}

/-- The numbers drawn for a set of fibers. -/
def groupDraws (d : ℕ → Ω → ℝ) (n : ℕ) (F : Finset ℕ) (ω : Ω) : F → (ℝ × ℝ) × ℝ := fun k => fiberDraws d n k ω

theorem Spec.UniformDraws.group_measurable (hd : UniformDraws P d) (n : ℕ) (F : Finset ℕ) : Measurable (groupDraws d n F) :=
  measurable_pi_lambda _ fun k => hd.fiber_measurable n k

/-- The numbers of a fiber are independent of those of the others. -/
theorem Spec.UniformDraws.group_indep (hd : UniformDraws P d) {n j : ℕ} (hj : j < n) {F : Finset ℕ} (hF : ∀ k ∈ F, k < n) (hjF : j ∉ F) :
    IndepFun (fiberDraws d n j) (groupDraws d n F) P := by
  classical
  have hI := hd.indep.indepFun_finset {j, n + j, 3 * n + j} (F.biUnion fun k => {k, n + k, 3 * n + k}) (by
    refine Finset.disjoint_left.2 ?_
    intro k hk hk'
    simp only [Finset.mem_insert, Finset.mem_singleton, Finset.mem_biUnion] at hk hk'
    obtain ⟨m, hm, hk'⟩ := hk'
    have h1 := hF m hm
    have h2 : m ≠ j := fun h => hjF (h ▸ hm)
    omega) hd.measurable
  have hmem : ∀ (k : F) (c : ℕ), c = k.1 ∨ c = n + k.1 ∨ c = 3 * n + k.1 → c ∈ F.biUnion fun k => ({k, n + k, 3 * n + k} : Finset ℕ) := by
    intro k c hc
    simp only [Finset.mem_biUnion, Finset.mem_insert, Finset.mem_singleton]
    exact ⟨k.1, k.2, hc⟩
  exact hI.comp (φ := fun f : ({j, n + j, 3 * n + j} : Finset ℕ) → ℝ => ((f ⟨j, by simp⟩, f ⟨n + j, by simp⟩), f ⟨3 * n + j, by simp⟩))
    (ψ := fun f : (F.biUnion fun k => ({k, n + k, 3 * n + k} : Finset ℕ) : Finset ℕ) → ℝ => fun k : F =>
      ((f ⟨k.1, hmem k _ (Or.inl rfl)⟩, f ⟨n + k.1, hmem k _ (Or.inr (Or.inl rfl))⟩), f ⟨3 * n + k.1, hmem k _ (Or.inr (Or.inr rfl))⟩))
    (by fun_prop) (by fun_prop)

/-- A fiber `j` crosses a fiber `i` of a group `F` independently of all that happens in the group. -/
theorem crossEvent_leaf (hd : UniformDraws P d) {l S : ℝ} (hl : 0 ≤ l) (hS : 0 < S) (hlS : l ≤ S / 2) {n i j : ℕ} (hj : j < n)
    {F : Finset ℕ} (hF : ∀ k ∈ F, k < n) (hi : i ∈ F) (hjF : j ∉ F) {B : Set (F → (ℝ × ℝ) × ℝ)} (hB : MeasurableSet B) :
    P (crossEvent d l S Real.pi n (i, j) ∩ groupDraws d n F ⁻¹' B) =
      ENNReal.ofReal (crossChance l S Real.pi) * P (groupDraws d n F ⁻¹' B) := by
  have := hd.indep.isProbabilityMeasure
  have hI := hd.group_indep hj hF hjF
  have hX := hd.fiber_measurable n j
  have hZ := hd.group_measurable n F
  let C : Set (((ℝ × ℝ) × ℝ) × (F → (ℝ × ℝ) × ℝ)) := {v | CrossFibers l S Real.pi (v.2 ⟨i, hi⟩) v.1 ∧ v.2 ∈ B}
  have hC : MeasurableSet C := by
    have h1 := (measurableSet_crossFibers l S Real.pi).preimage
      (f := fun v : ((ℝ × ℝ) × ℝ) × (F → (ℝ × ℝ) × ℝ) => (v.2 ⟨i, hi⟩, v.1)) (by fun_prop)
    exact h1.inter (hB.preimage measurable_snd)
  have e1 : P (crossEvent d l S Real.pi n (i, j) ∩ groupDraws d n F ⁻¹' B) =
      P.map (fun ω => (fiberDraws d n j ω, groupDraws d n F ω)) C := by
    rw [Measure.map_apply (hX.prodMk hZ) hC]
    rfl
  rw [e1, hI.map_prod_eq_prod_map_map hX.aemeasurable hZ.aemeasurable, hd.fiber_law hj]
  have : IsProbabilityMeasure (P.map (groupDraws d n F)) := Measure.isProbabilityMeasure_map hZ.aemeasurable
  rw [Measure.prod_apply_symm hC, lintegral_map (measurable_measure_prodMk_right hC) hZ]
  have hBm : MeasurableSet (groupDraws d n F ⁻¹' B) := hZ hB
  have e2 : ∀ ω, ((volume.restrict (Ico (0 : ℝ) 1)).prod (volume.restrict (Ico (0 : ℝ) 1))).prod (volume.restrict (Ico (0 : ℝ) 1))
      ((fun y => (y, groupDraws d n F ω)) ⁻¹' C) =
      (groupDraws d n F ⁻¹' B).indicator (fun _ => ENNReal.ofReal (crossChance l S Real.pi)) ω := by
    intro ω
    by_cases hω : ω ∈ groupDraws d n F ⁻¹' B
    · rw [indicator_of_mem hω, ← crossFibers_given hl hS hlS (fiberDraws d n i ω) (hd.range _ _).1 (hd.range _ _).2.le]
      congr 1
      ext y
      exact ⟨fun h => h.1, fun h => ⟨h, hω⟩⟩
    · rw [indicator_of_notMem hω]
      have : (fun y => (y, groupDraws d n F ω)) ⁻¹' C = ∅ := by
        ext y
        exact ⟨fun h => hω h.2, fun h => h.elim⟩
      rw [this, measure_empty]
  simp only [e2]
  rw [lintegral_indicator_const hBm]

/-- An event is decided by the fibers of a group. -/
def DecidedBy (d : ℕ → Ω → ℝ) (n : ℕ) (F : Finset ℕ) (A : Set Ω) : Prop := ∃ B, MeasurableSet B ∧ A = groupDraws d n F ⁻¹' B

omit [MeasurableSpace Ω] in
theorem DecidedBy.inter {n : ℕ} {F : Finset ℕ} {A A' : Set Ω} (h : DecidedBy d n F A) (h' : DecidedBy d n F A') : DecidedBy d n F (A ∩ A') := by
  obtain ⟨B, hB, rfl⟩ := h
  obtain ⟨B', hB', rfl⟩ := h'
  exact ⟨B ∩ B', hB.inter hB', rfl⟩

omit [MeasurableSpace Ω] in
theorem DecidedBy.compl {n : ℕ} {F : Finset ℕ} {A : Set Ω} (h : DecidedBy d n F A) : DecidedBy d n F Aᶜ := by
  obtain ⟨B, hB, rfl⟩ := h
  exact ⟨Bᶜ, hB.compl, rfl⟩

omit [MeasurableSpace Ω] in
theorem decided_univ {n : ℕ} {F : Finset ℕ} : DecidedBy d n F univ := ⟨univ, .univ, rfl⟩

omit [MeasurableSpace Ω] in
theorem decided_cross {l S θ : ℝ} {n i j : ℕ} {F : Finset ℕ} (hi : i ∈ F) (hj : j ∈ F) : DecidedBy d n F (crossEvent d l S θ n (i, j)) :=
  ⟨{v | CrossFibers l S θ (v ⟨i, hi⟩) (v ⟨j, hj⟩)}, (measurableSet_crossFibers l S θ).preimage
    (f := fun v : F → (ℝ × ℝ) × ℝ => (v ⟨i, hi⟩, v ⟨j, hj⟩)) (by fun_prop), rfl⟩

theorem leaf_inter (hd : UniformDraws P d) {l S : ℝ} (hl : 0 ≤ l) (hS : 0 < S) (hlS : l ≤ S / 2) {n i j : ℕ} (hj : j < n)
    {F : Finset ℕ} (hF : ∀ k ∈ F, k < n) (hi : i ∈ F) (hjF : j ∉ F) {A : Set Ω} (hA : DecidedBy d n F A) :
    P (crossEvent d l S Real.pi n (i, j) ∩ A) = ENNReal.ofReal (crossChance l S Real.pi) * P A := by
  obtain ⟨B, hB, rfl⟩ := hA
  exact crossEvent_leaf hd hl hS hlS hj hF hi hjF hB

/-! ### Pairs without cycle -/

/-- The event that all pairs of a list cross. -/
def allCross (d : ℕ → Ω → ℝ) (l S : ℝ) (n : ℕ) : List (ℕ × ℕ) → Set Ω
  | [] => univ
  | p :: t => crossEvent d l S Real.pi n p ∩ allCross d l S n t

omit [MeasurableSpace Ω] in
theorem decided_allCross {l S : ℝ} {n : ℕ} {F : Finset ℕ} {t : List (ℕ × ℕ)} (h : ∀ p ∈ t, p.1 ∈ F ∧ p.2 ∈ F) :
    DecidedBy d n F (allCross d l S n t) := by
  induction t with
  | nil => exact decided_univ
  | cons p t ih => exact (decided_cross (h p (by simp)).1 (h p (by simp)).2).inter (ih fun q hq => h q (by simp [hq]))

theorem forest_prob (hd : UniformDraws P d) {l S : ℝ} (hl : 0 ≤ l) (hS : 0 < S) (hlS : l ≤ S / 2) {n : ℕ} {t : List (ℕ × ℕ)}
    (hf : Forest t) (hn : ∀ p ∈ t, p.1 < n ∧ p.2 < n) : P (allCross d l S n t) = ENNReal.ofReal (crossChance l S Real.pi) ^ t.length := by
  classical
  have := hd.indep.isProbabilityMeasure
  have grp : ∀ (i j : ℕ) (t : List (ℕ × ℕ)), i ≠ j → i < n → j < n → (∀ p ∈ t, p.1 < n ∧ p.2 < n) → (∀ p ∈ t, j ≠ p.1 ∧ j ≠ p.2) →
      P (crossEvent d l S Real.pi n (i, j) ∩ allCross d l S n t) = ENNReal.ofReal (crossChance l S Real.pi) * P (allCross d l S n t) := by
    intro i j t hij hi hj hn hjt
    refine leaf_inter hd hl hS hlS hj (F := (Finset.range n).erase j) ?_ ?_ ?_ (decided_allCross ?_)
    · intro k hk
      exact Finset.mem_range.1 (Finset.mem_of_mem_erase hk)
    · exact Finset.mem_erase.2 ⟨hij, Finset.mem_range.2 hi⟩
    · simp
    · intro p hp
      exact ⟨Finset.mem_erase.2 ⟨(hjt p hp).1.symm, Finset.mem_range.2 (hn p hp).1⟩,
        Finset.mem_erase.2 ⟨(hjt p hp).2.symm, Finset.mem_range.2 (hn p hp).2⟩⟩
  induction hf with
  | nil => simp [allCross]
  | @left i j t hij hit _ ih =>
    have h0 := hn (i, j) (by simp)
    have ht : ∀ p ∈ t, p.1 < n ∧ p.2 < n := fun p hp => hn p (by simp [hp])
    simp only [allCross, List.length_cons, pow_succ]
    rw [crossEvent_swap, grp j i t hij.symm h0.2 h0.1 ht hit, ih ht, mul_comm]
  | @right i j t hij hjt _ ih =>
    have h0 := hn (i, j) (by simp)
    have ht : ∀ p ∈ t, p.1 < n ∧ p.2 < n := fun p hp => hn p (by simp [hp])
    simp only [allCross, List.length_cons, pow_succ]
    rw [grp i j t hij h0.1 h0.2 ht hjt, ih ht, mul_comm]

/-! ### Stars -/

/-- The event that the fibers of `T` that fiber `i` crosses are those of `U`. -/
def starEvent (d : ℕ → Ω → ℝ) (l S : ℝ) (n i : ℕ) (T U : Finset ℕ) : Set Ω :=
  {ω | ∀ j ∈ T, ω ∈ crossEvent d l S Real.pi n (i, j) ↔ j ∈ U}

theorem crossChance_le_one (hd : UniformDraws P d) {l S : ℝ} (hl : 0 ≤ l) (hS : 0 < S) (hlS : l ≤ S / 2) : crossChance l S Real.pi ≤ 1 := by
  have := hd.indep.isProbabilityMeasure
  have h := crossEvent_prob hd hl hS hlS (n := 2) (p := (0, 1)) (by norm_num) (by norm_num)
  have h1 : ENNReal.ofReal (crossChance l S Real.pi) ≤ 1 := h ▸ prob_le_one
  exact ENNReal.ofReal_le_one.1 h1

omit [MeasurableSpace Ω] in
theorem decided_star {l S : ℝ} {n i : ℕ} {F T U : Finset ℕ} (hi : i ∈ F) (hT : T ⊆ F) : DecidedBy d n F (starEvent d l S n i T U) := by
  classical
  induction T using Finset.induction_on with
  | empty =>
    have : starEvent d l S n i ∅ U = univ := by
      ext ω
      simp [starEvent]
    rw [this]
    exact decided_univ
  | @insert j T hj ih =>
    have ih := ih fun k hk => hT (Finset.mem_insert_of_mem hk)
    have hc : DecidedBy d n F (crossEvent d l S Real.pi n (i, j)) := decided_cross hi (hT (Finset.mem_insert_self _ _))
    by_cases hU : j ∈ U
    · have : starEvent d l S n i (insert j T) U = crossEvent d l S Real.pi n (i, j) ∩ starEvent d l S n i T U := by
        ext ω
        simp [starEvent, hU]
      rw [this]
      exact hc.inter ih
    · have : starEvent d l S n i (insert j T) U = (crossEvent d l S Real.pi n (i, j))ᶜ ∩ starEvent d l S n i T U := by
        ext ω
        simp [starEvent, hU]
      rw [this]
      exact hc.compl.inter ih

theorem star_prob (hd : UniformDraws P d) {l S : ℝ} (hl : 0 ≤ l) (hS : 0 < S) (hlS : l ≤ S / 2) {n i : ℕ} (hi : i < n) {T U : Finset ℕ}
    (hT : ∀ j ∈ T, j < n ∧ j ≠ i) (hU : U ⊆ T) : P (starEvent d l S n i T U) =
      ENNReal.ofReal (crossChance l S Real.pi ^ U.card * (1 - crossChance l S Real.pi) ^ (T.card - U.card)) := by
  classical
  have := hd.indep.isProbabilityMeasure
  have hp0 : 0 ≤ crossChance l S Real.pi := crossChance_nonneg Real.pi_pos.le
  have hp1 := crossChance_le_one hd hl hS hlS
  induction T using Finset.induction_on generalizing U with
  | empty =>
    have : starEvent d l S n i ∅ U = univ := by
      ext ω
      simp [starEvent]
    rw [this, Finset.subset_empty.1 hU]
    simp
  | @insert j T hj ih =>
    have hT' : ∀ j ∈ T, j < n ∧ j ≠ i := fun k hk => hT k (Finset.mem_insert_of_mem hk)
    have hji := hT j (Finset.mem_insert_self _ _)
    have hleaf : ∀ V, P (crossEvent d l S Real.pi n (i, j) ∩ starEvent d l S n i T V) =
        ENNReal.ofReal (crossChance l S Real.pi) * P (starEvent d l S n i T V) := by
      intro V
      refine leaf_inter hd hl hS hlS hji.1 (F := insert i T) ?_ (Finset.mem_insert_self _ _) ?_
        (decided_star (Finset.mem_insert_self _ _) (Finset.subset_insert _ _))
      · intro k hk
        rcases Finset.mem_insert.1 hk with rfl | hk
        · exact hi
        · exact (hT' k hk).1
      · rw [Finset.mem_insert]
        exact fun h => h.elim hji.2 hj
    by_cases hjU : j ∈ U
    · have hU' : U.erase j ⊆ T := by
        intro k hk
        have := hU (Finset.mem_of_mem_erase hk)
        exact (Finset.mem_insert.1 this).resolve_left (Finset.ne_of_mem_erase hk)
      have e1 : starEvent d l S n i (insert j T) U = crossEvent d l S Real.pi n (i, j) ∩ starEvent d l S n i T (U.erase j) := by
        ext ω
        simp only [starEvent, Finset.forall_mem_insert, hjU, iff_true, mem_inter_iff, mem_ofPred_eq, Finset.mem_erase]
        refine and_congr_right fun _ => forall_congr' fun k => forall_congr' fun hk => ?_
        have : k ≠ j := fun h => hj (h ▸ hk)
        simp [this]
      have hc : U.card = (U.erase j).card + 1 := by
        rw [Finset.card_erase_of_mem hjU]
        have := Finset.card_pos.2 ⟨j, hjU⟩
        omega
      rw [e1, hleaf, ih hT' hU', ← ENNReal.ofReal_mul hp0, Finset.card_insert_of_notMem hj, hc, Nat.add_sub_add_right, pow_succ]
      congr 1
      ring
    · have hU' : U ⊆ T := by
        intro k hk
        refine (Finset.mem_insert.1 (hU hk)).resolve_left ?_
        rintro rfl
        exact hjU hk
      have e1 : starEvent d l S n i (insert j T) U = starEvent d l S n i T U \ crossEvent d l S Real.pi n (i, j) := by
        ext ω
        simp only [starEvent, Finset.forall_mem_insert, hjU, iff_false, mem_diff, mem_ofPred_eq]
        exact and_comm
      have h2 : P (starEvent d l S n i T U ∩ crossEvent d l S Real.pi n (i, j)) + P (starEvent d l S n i T U \ crossEvent d l S Real.pi n (i, j)) =
          P (starEvent d l S n i T U) := measure_inter_add_diff _ (crossEvent_measurable hd l S Real.pi n (i, j))
      have hc := Finset.card_le_card hU'
      rw [inter_comm, hleaf, ih hT' hU'] at h2
      rw [e1, Finset.card_insert_of_notMem hj, show T.card + 1 - U.card = (T.card - U.card) + 1 by omega]
      have hq : 0 ≤ crossChance l S Real.pi ^ U.card * (1 - crossChance l S Real.pi) ^ (T.card - U.card) :=
        mul_nonneg (pow_nonneg hp0 _) (pow_nonneg (sub_nonneg.2 hp1) _)
      rw [← ENNReal.ofReal_mul hp0] at h2
      rw [← ENNReal.add_right_inj (a := ENNReal.ofReal (crossChance l S Real.pi * (crossChance l S Real.pi ^ U.card *
        (1 - crossChance l S Real.pi) ^ (T.card - U.card)))) ENNReal.ofReal_ne_top, h2, ← ENNReal.ofReal_add (mul_nonneg hp0 hq)
        (mul_nonneg (pow_nonneg hp0 _) (pow_nonneg (sub_nonneg.2 hp1) _))]
      congr 1
      ring

/-! ### The network computed by the program -/

/-- Two fibers of a random mat are linked exactly when they cross. -/
theorem random_linked (hd : UniformDraws P d) (hs : a.seed ≠ none) (hpsi : a.psi = 0) (hS : 0 < a.size) (hl : a.length ≤ a.size / 2)
    (hπ : a.theta = Real.pi) {ω : Ω} {m : Mat ℝ} {s' : ℕ}
    (h : matNew (stream (fun k => d k ω)) Real.cos Real.sin e a s = .ok (m, s')) {net : Net ℝ}
    (hn : netNew m true = .ok net) {i j : ℕ} (hij : i ≠ j) (hi : i < a.n.toNat) (hj : j < a.n.toNat) :
    Linked net i j ↔ ω ∈ crossEvent d a.length a.size Real.pi a.n.toNat (i, j) := by
  obtain ⟨hgood, -⟩ := random_mat hd hs hpsi h
  have hlab := C06_labels hgood hn
  have key : ∀ i j : ℕ, i < j → j < a.n.toNat → (Linked net i j ↔ ω ∈ crossEvent d a.length a.size Real.pi a.n.toNat (i, j)) := by
    intro i j hij hj
    have h1 := random_connected hd hs hpsi hS hl h hn hij hj
    rw [hπ] at h1
    have h2 : ¬ AreConnected net j i := by
      rintro ⟨r, hr, hA, hB⟩
      have := hlab r hr
      omega
    unfold Linked
    rw [or_iff_left h2, h1]
    rfl
  rcases Nat.lt_or_gt_of_ne hij with h' | h'
  · exact key i j h' hj
  · rw [crossEvent_swap, ← key j i h' hi]
    exact or_comm

/-- C121: in a random mat of fibers of all directions in a periodic box, given pairs of fibers without cycle are all connected with
probability `p ^ (number of pairs)`. -/
theorem C121_forest (hd : UniformDraws P d) (hseed : GoodSeed a.seed) (hs : a.seed ≠ none) (hn : 0 < a.n) (hpos : PositiveArgs a)
    (hpsi : a.psi = 0) (hl : a.length ≤ a.size / 2) (hπ : a.theta = Real.pi) {t : List (ℕ × ℕ)} (hf : Forest t)
    (ht : ∀ p ∈ t, (p.1 : ℤ) < a.n ∧ (p.2 : ℤ) < a.n) :
    P {ω | ∃ m s' net, matNew (stream (fun k => d k ω)) Real.cos Real.sin e a s = .ok (m, s') ∧ netNew m true = .ok net ∧
      ∀ p ∈ t, Linked net p.1 p.2} = ENNReal.ofReal (crossChance a.length a.size Real.pi) ^ t.length := by
  have hS : 0 < a.size := by linarith [hpos.1]
  have ht' : ∀ p ∈ t, p.1 < a.n.toNat ∧ p.2 < a.n.toNat := fun p hp => by
    have := ht p hp
    omega
  have hne : ∀ p ∈ t, p.1 ≠ p.2 := by
    clear ht ht'
    induction hf with
    | nil => simp
    | left h _ _ ih => simpa using ⟨h, by simpa using ih⟩
    | right h _ _ ih => simpa using ⟨h, by simpa using ih⟩
  have hall : ∀ ω, ω ∈ allCross d a.length a.size a.n.toNat t ↔ ∀ p ∈ t, ω ∈ crossEvent d a.length a.size Real.pi a.n.toNat p := by
    intro ω
    clear hne ht' ht hf
    induction t with
    | nil => simp [allCross]
    | cons p t ih => simp [allCross, ih]
  rw [← forest_prob hd hpos.1.le hS hl hf ht']
  congr 1
  ext ω
  rw [hall]
  constructor
  · rintro ⟨m, s', net, h, hnet, hc⟩ p hp
    exact (random_linked hd hs hpsi hS hl hπ h hnet (hne p hp) (ht' p hp).1 (ht' p hp).2).1 (hc p hp)
  · intro hc
    obtain ⟨m, s', net, h, hnet⟩ := C118_exists (e := e) (s := s) hd hseed hn hS.le hpos true ω
    exact ⟨m, s', net, h, hnet, fun p hp => (random_linked hd hs hpsi hS hl hπ h hnet (hne p hp) (ht' p hp).1 (ht' p hp).2).2 (hc p hp)⟩

/-- The connections of a fiber counted by its neighbours. -/
theorem degree_card {m : Mat ℝ} (h : GoodMat m) {periodic : Bool} {net : Net ℝ} (hn : netNew m periodic = .ok net)
    {n : ℕ} (hlen : m.fibers.length = n) (i : ℕ) [DecidablePred (fun j : ℕ => Linked net i j)] :
    degree net i = (((Finset.range n).erase i).filter (fun j => Linked net i j)).card := by
  classical
  have hlab := C06_labels h hn
  have hinc := C06_increasing h hn
  let other : NetRow ℝ → ℕ := fun r => if r.A = (i : ℤ) then r.B.toNat else r.A.toNat
  have hnd : ((net.rows.filter (fun r => decide (r.A ≠ r.B ∧ (r.A = (i : ℤ) ∨ r.B = (i : ℤ))))).map other).Nodup := by
    unfold List.Nodup
    rw [List.pairwise_map]
    refine List.Pairwise.imp_of_mem ?_ (hinc.filter _)
    intro r q hr hq hrq e
    obtain ⟨hr, hr'⟩ := List.mem_filter.1 hr
    obtain ⟨hq, hq'⟩ := List.mem_filter.1 hq
    have h1 := hlab r hr
    have h2 := hlab q hq
    simp only [decide_eq_true_eq] at hr' hq'
    simp only [other] at e
    split_ifs at e <;> omega
  unfold degree
  rw [← List.length_map (f := other), ← List.toFinset_card_of_nodup hnd]
  congr 1
  ext j
  simp only [List.mem_toFinset, List.mem_map, List.mem_filter, decide_eq_true_eq, Finset.mem_filter, Finset.mem_erase, Finset.mem_range]
  constructor
  · rintro ⟨r, ⟨hr, hr1, hr2⟩, rfl⟩
    have h1 := hlab r hr
    simp only [other]
    split_ifs with hA
    · exact ⟨⟨by omega, by omega⟩, Or.inl ⟨r, hr, hA, by omega⟩⟩
    · exact ⟨⟨by omega, by omega⟩, Or.inr ⟨r, hr, by omega, by omega⟩⟩
  · rintro ⟨⟨h1, h2⟩, ⟨r, hr, hA, hB⟩ | ⟨r, hr, hA, hB⟩⟩
    · exact ⟨r, ⟨hr, by omega, Or.inl hA⟩, by simp only [other]; rw [if_pos hA]; omega⟩
    · refine ⟨r, ⟨hr, by omega, Or.inr hB⟩, ?_⟩
      simp only [other]
      rw [if_neg (by omega)]
      omega

/-- C121: in a random mat of fibers of all directions in a periodic box, the number of connections of a given fiber has the binomial
law of `n - 1` trials. -/
theorem C121_binomial (hd : UniformDraws P d) (hseed : GoodSeed a.seed) (hs : a.seed ≠ none) (hpos : PositiveArgs a)
    (hpsi : a.psi = 0) (hl : a.length ≤ a.size / 2) (hπ : a.theta = Real.pi) {i : ℕ} (hi : (i : ℤ) < a.n) (k : ℕ) :
    P {ω | ∃ m s' net, matNew (stream (fun k => d k ω)) Real.cos Real.sin e a s = .ok (m, s') ∧ netNew m true = .ok net ∧
      degree net i = k} = ENNReal.ofReal (binomial (a.n.toNat - 1) (crossChance a.length a.size Real.pi) k) := by
  classical
  have := hd.indep.isProbabilityMeasure
  have hS : 0 < a.size := by linarith [hpos.1]
  have hi' : i < a.n.toNat := by omega
  generalize hT : (Finset.range a.n.toNat).erase i = T
  have hTc : T.card = a.n.toNat - 1 := by
    rw [← hT, Finset.card_erase_of_mem (Finset.mem_range.2 hi'), Finset.card_range]
  have hTm : ∀ j ∈ T, j < a.n.toNat ∧ j ≠ i := by
    intro j hj
    rw [← hT] at hj
    exact ⟨Finset.mem_range.1 (Finset.mem_of_mem_erase hj), Finset.ne_of_mem_erase hj⟩
  have hp0 : 0 ≤ crossChance a.length a.size Real.pi := crossChance_nonneg Real.pi_pos.le
  have hp1 := crossChance_le_one hd hpos.1.le hS hl
  have hset : {ω | ∃ m s' net, matNew (stream (fun k => d k ω)) Real.cos Real.sin e a s = .ok (m, s') ∧ netNew m true = .ok net ∧
      degree net i = k} = ⋃ U ∈ T.powersetCard k, starEvent d a.length a.size a.n.toNat i T U := by
    ext ω
    simp only [mem_iUnion, mem_ofPred_eq, exists_prop, starEvent, Finset.mem_powersetCard]
    have hdeg : ∀ {m s' net}, matNew (stream (fun k => d k ω)) Real.cos Real.sin e a s = .ok (m, s') → netNew m true = .ok net →
        degree net i = (T.filter (fun j => ω ∈ crossEvent d a.length a.size Real.pi a.n.toNat (i, j))).card := by
      intro m s' net h hnet
      obtain ⟨hgood, -, hlen, -⟩ := random_mat hd hs hpsi h
      rw [degree_card hgood hnet hlen, hT]
      congr 1
      refine Finset.filter_congr fun j hj => ?_
      exact random_linked hd hs hpsi hS hl hπ h hnet (hTm j hj).2.symm hi' (hTm j hj).1
    constructor
    · rintro ⟨m, s', net, h, hnet, hk⟩
      refine ⟨T.filter (fun j => ω ∈ crossEvent d a.length a.size Real.pi a.n.toNat (i, j)), ⟨Finset.filter_subset _ _, ?_⟩, ?_⟩
      · rw [← hdeg h hnet, hk]
      · intro j hj
        simp [hj]
    · rintro ⟨U, ⟨hU, hUc⟩, hω⟩
      obtain ⟨m, s', net, h, hnet⟩ := C118_exists (e := e) (s := s) hd hseed (by omega) hS.le hpos true ω
      refine ⟨m, s', net, h, hnet, ?_⟩
      rw [hdeg h hnet, ← hUc]
      congr 1
      ext j
      rw [Finset.mem_filter]
      exact ⟨fun hj => (hω j hj.1).1 hj.2, fun hj => ⟨hU hj, (hω j (hU hj)).2 hj⟩⟩
  rw [hset, measure_biUnion_finset]
  · rw [Finset.sum_congr rfl (g := fun _ => ENNReal.ofReal (crossChance a.length a.size Real.pi ^ k *
      (1 - crossChance a.length a.size Real.pi) ^ (a.n.toNat - 1 - k)))]
    · rw [Finset.sum_const, Finset.card_powersetCard, hTc, nsmul_eq_mul, ← ENNReal.ofReal_natCast, ← ENNReal.ofReal_mul (by positivity)]
      unfold binomial
      congr 1
      ring
    · intro U hU
      obtain ⟨hU, hUc⟩ := Finset.mem_powersetCard.1 hU
      rw [star_prob hd hpos.1.le hS hl hi' hTm hU, hUc, hTc]
  · intro U hU V hV hUV
    refine Set.disjoint_left.2 fun ω h1 h2 => hUV ?_
    obtain ⟨hU, -⟩ := Finset.mem_powersetCard.1 hU
    obtain ⟨hV, -⟩ := Finset.mem_powersetCard.1 hV
    ext j
    exact ⟨fun hj => (h2 j (hU hj)).1 ((h1 j (hU hj)).2 hj), fun hj => (h1 j (hV hj)).1 ((h2 j (hV hj)).2 hj)⟩
  · intro U _
    obtain ⟨B, hB, hE⟩ := decided_star (d := d) (l := a.length) (S := a.size) (n := a.n.toNat) (i := i) (F := insert i T) (T := T) (U := U)
      (Finset.mem_insert_self _ _) (Finset.subset_insert _ _)
    rw [hE]
    exact hd.group_measurable _ _ hB

/-- C121: the probability that a given fiber is connected to no other. -/
theorem C121_isolated (hd : UniformDraws P d) (hseed : GoodSeed a.seed) (hs : a.seed ≠ none) (hpos : PositiveArgs a)
    (hpsi : a.psi = 0) (hl : a.length ≤ a.size / 2) (hπ : a.theta = Real.pi) {i : ℕ} (hi : (i : ℤ) < a.n) :
    P {ω | ∃ m s' net, matNew (stream (fun k => d k ω)) Real.cos Real.sin e a s = .ok (m, s') ∧ netNew m true = .ok net ∧
      ∀ j : ℕ, j ≠ i → ¬ Linked net i j} = ENNReal.ofReal ((1 - 2 * a.length ^ 2 / (Real.pi * a.size ^ 2)) ^ (a.n.toNat - 1)) := by
  classical
  have h := C121_binomial (e := e) (s := s) hd hseed hs hpos hpsi hl hπ hi 0
  simp only [binomial, Nat.choose_zero_right, Nat.cast_one, pow_zero, one_mul, Nat.sub_zero, C118_isotropic] at h
  rw [← h]
  congr 1
  ext ω
  simp only [mem_ofPred_eq]
  refine exists_congr fun m => exists_congr fun s' => exists_congr fun net => and_congr_right fun hm => and_congr_right fun hnet => ?_
  obtain ⟨hgood, -, hlen, -⟩ := random_mat hd hs hpsi hm
  have hlab := C06_labels hgood hnet
  rw [degree_card hgood hnet hlen, Finset.card_eq_zero, Finset.filter_eq_empty_iff]
  constructor
  · intro h j hj
    exact h j (Finset.ne_of_mem_erase hj)
  · intro h j hj hc
    refine h (Finset.mem_erase.2 ⟨hj, Finset.mem_range.2 ?_⟩) hc
    rcases hc with ⟨r, hr, hA, hB⟩ | ⟨r, hr, hA, hB⟩ <;> have := hlab r hr <;> omega

/-- The number of rows as a sum of events. -/
theorem rows_memLp (hd : UniformDraws P d) (hs : a.seed ≠ none) (hn : 0 < a.n) (hpos : PositiveArgs a)
    (hpsi : a.psi = 0) (hl : a.length ≤ a.size / 2) (hπ : a.theta = Real.pi) {N : Ω → Net ℝ}
    (hN : ∀ ω, ∃ m s', matNew (stream (fun k => d k ω)) Real.cos Real.sin e a s = .ok (m, s') ∧ netNew m true = .ok (N ω)) :
    MemLp (fun ω => ((N ω).rows.length : ℝ)) 2 P := by
  classical
  have := hd.indep.isProbabilityMeasure
  have hS : 0 < a.size := by linarith [hpos.1]
  generalize hT : (Finset.range a.n.toNat ×ˢ Finset.range a.n.toNat).filter (fun p => p.1 < p.2) = T
  have hTm : ∀ p ∈ T, p.1 < p.2 ∧ p.2 < a.n.toNat := by
    intro p hp
    rw [← hT] at hp
    simp only [Finset.mem_filter, Finset.mem_product, Finset.mem_range] at hp
    exact ⟨hp.2, hp.1.2⟩
  have hE := crossEvent_measurable hd a.length a.size Real.pi a.n.toNat
  have hlen : (fun ω => ((N ω).rows.length : ℝ)) = (fun _ => (a.n.toNat : ℝ)) +
      ∑ p ∈ T, (crossEvent d a.length a.size Real.pi a.n.toNat p).indicator (fun _ => (1 : ℝ)) := by
    ext ω
    obtain ⟨m, s', h, hnet⟩ := hN ω
    obtain ⟨hgood, -, hlen, -⟩ := random_mat hd hs hpsi h
    rw [rows_card hgood hnet hlen, hT, Finset.card_filter, Pi.add_apply, Finset.sum_apply]
    push_cast
    congr 1
    refine Finset.sum_congr rfl fun p hp => ?_
    have := random_connected hd hs hpsi hS hl h hnet (hTm p hp).1 (hTm p hp).2
    rw [hπ] at this
    simp only [indicator, this]
    rfl
  have hm : ∀ p ∈ T, MemLp ((crossEvent d a.length a.size Real.pi a.n.toNat p).indicator (fun _ => (1 : ℝ))) 2 P :=
    fun p _ => memLp_indicator_const 2 (hE p) 1 (Or.inr (measure_ne_top _ _))
  have h1 := memLp_finsetSum' T hm
  have h2 : MemLp (fun _ : Ω => (a.n.toNat : ℝ)) 2 P := memLp_const _
  have h3 := h2.add h1
  rw [← hlen] at h3
  exact h3

/-- C121: the fraction of pairs of fibers that are connected is seldom far from `p` (Chebyshev's inequality with the variance of
C118); the bound goes to zero when the number of fibers grows. -/
theorem C121_concentration (hd : UniformDraws P d) (hseed : GoodSeed a.seed) (hs : a.seed ≠ none) (hn : 2 ≤ a.n) (hpos : PositiveArgs a)
    (hpsi : a.psi = 0) (hl : a.length ≤ a.size / 2) (hπ : a.theta = Real.pi) {N : Ω → Net ℝ}
    (hN : ∀ ω, ∃ m s', matNew (stream (fun k => d k ω)) Real.cos Real.sin e a s = .ok (m, s') ∧ netNew m true = .ok (N ω)) {c : ℝ} (hc : 0 < c) :
    P {ω | c ≤ |(((N ω).rows.length : ℝ) - a.n) / (a.n * (a.n - 1) / 2) - crossChance a.length a.size Real.pi|} ≤
      ENNReal.ofReal (crossChance a.length a.size Real.pi * (1 - crossChance a.length a.size Real.pi) / (c ^ 2 * (a.n * (a.n - 1) / 2))) := by
  have := hd.indep.isProbabilityMeasure
  have hn2 : (2 : ℝ) ≤ a.n := by exact_mod_cast hn
  have hm : (0 : ℝ) < a.n * (a.n - 1) / 2 := by
    have : (0 : ℝ) < a.n * (a.n - 1) := mul_pos (by linarith) (by linarith)
    linarith
  generalize hM : (a.n * (a.n - 1) / 2 : ℝ) = M at hm
  have h := meas_ge_le_variance_div_sq (rows_memLp (e := e) (s := s) hd hs (by omega) hpos hpsi hl hπ hN) (mul_pos hc hm)
  rw [C118_variance (e := e) (s := s) hd hs (by omega) hpos hpsi hl hπ hN,
    C118_mean (e := e) (s := s) hd hseed hs (by omega) hpos hpsi hl (hπ ▸ Real.pi_pos) hπ.le hN, hM, hπ] at h
  have e1 : {ω | c ≤ |(((N ω).rows.length : ℝ) - a.n) / M - crossChance a.length a.size Real.pi|} =
      {ω | c * M ≤ |((N ω).rows.length : ℝ) - (a.n + M * crossChance a.length a.size Real.pi)|} := by
    ext ω
    simp only [mem_ofPred_eq]
    have : (((N ω).rows.length : ℝ) - a.n) / M - crossChance a.length a.size Real.pi =
        (((N ω).rows.length : ℝ) - (a.n + M * crossChance a.length a.size Real.pi)) / M := by
      field_simp
      ring
    rw [this, abs_div, abs_of_pos hm, le_div_iff₀ hm]
  rw [e1]
  refine h.trans_eq ?_
  congr 1
  field_simp

end
end Fibermat
