import Verif.Props.NeighbourNodes
import Verif.Spec.Piles
import Mathlib.Data.Finset.Sort

/-! # C122: piles of fibers and the height of the stack -/

namespace Fibermat
open Spec MeasureTheory ProbabilityTheory Set

section
variable {K : Type} [Field K] [LinearOrder K] [IsStrictOrderedRing K]

theorem pile_append {net : Net K} {l : List ℕ} {i j : ℕ} (h : PileOf net (l ++ [i])) (hij : i < j) (hc : AreConnected net i j) :
    PileOf net (l ++ [i] ++ [j]) := by
  unfold PileOf at *
  rw [List.isChain_append]
  refine ⟨h, by simp, ?_⟩
  intro x hx y hy
  simp at hx hy
  subst hx hy
  exact ⟨hij, hc⟩

theorem pileThickness_append (m : Mat K) (l : List ℕ) (i : ℕ) : pileThickness m (l ++ [i]) = pileThickness m l + thick m i := by
  simp [pileThickness]

/-- C122: the top of a fiber of the stack is the largest thickness of a pile of connected fibers that ends with it. -/
theorem C122_pile [FloorRing K] {lp : Linprog K} (hlp : GoodLinprog lp) {m : Mat K} (h : GoodMat m) {periodic : Bool} {net : Net K}
    (hn : netNew m periodic = .ok net) {threshold : Option K} {m' : Mat K} {st : Net K}
    (hst : stackNew lp m net threshold = .ok (m', st)) {i : ℕ} (hi : i < m.fibers.length) :
    IsGreatest {t | ∃ l, PileOf net (l ++ [i]) ∧ t = pileThickness m (l ++ [i])} (topOf m' i) := by
  obtain ⟨hchk, ho, -⟩ := netNew_over h hn
  obtain ⟨hlen, hlow, hsame, -⟩ := stack_lowest hlp h hchk ho hst
  have hsup := C20_supported hlp h hchk ho hst
  have hth := same_thick hsame
  constructor
  · induction i using Nat.strong_induction_on with
    | _ i ih =>
      rcases hsup i hi with e | ⟨r, hr, hAB, hB, e⟩
      · refine ⟨[], by simp [PileOf], ?_⟩
        simp only [topOf, pileThickness, List.nil_append, List.map_cons, List.map_nil, List.sum_cons, List.sum_nil, hth, e]
        ring
      · have ho' := ho r hr
        obtain ⟨l, hl, hs⟩ := ih r.A.toNat (by omega) (by omega)
        refine ⟨l ++ [r.A.toNat], pile_append hl (by omega) ⟨r, hr, by omega, hB⟩, ?_⟩
        rw [pileThickness_append, ← hs]
        simp only [topOf, e, hth, hB, Int.toNat_natCast]
        ring
  · rintro t ⟨l, hl, rfl⟩
    induction l using List.reverseRecOn generalizing i with
    | nil =>
      have := hlow.1.floor i hi
      simp only [topOf, pileThickness, List.nil_append, List.map_cons, List.map_nil, List.sum_cons, List.sum_nil, hth]
      linarith
    | append_singleton l j ih =>
      unfold PileOf at hl
      rw [List.isChain_append] at hl
      obtain ⟨hl, -, hji⟩ := hl
      obtain ⟨hlt, r, hr, hA, hB⟩ := hji j (by simp) i (by simp)
      have := ih (i := j) (by omega) hl
      have hg := hlow.1.gap r hr (by omega)
      rw [hA, hB, Int.toNat_natCast, Int.toNat_natCast] at hg
      rw [pileThickness_append]
      simp only [topOf, hth] at *
      linarith

end

/-- The successive pairs of a list. -/
def steps (l : List ℕ) : List (ℕ × ℕ) := l.zip l.tail

theorem steps_length (l : List ℕ) : (steps l).length = l.length - 1 := by
  simp [steps]

theorem steps_mem {l : List ℕ} {p : ℕ × ℕ} (h : p ∈ steps l) : p.1 ∈ l ∧ p.2 ∈ l := by
  obtain ⟨h1, h2⟩ := List.of_mem_zip h
  exact ⟨h1, List.mem_of_mem_tail h2⟩

theorem steps_cons (i j : ℕ) (l : List ℕ) : steps (i :: j :: l) = (i, j) :: steps (j :: l) := rfl

theorem steps_lt {l : List ℕ} (h : l.Pairwise (· < ·)) : ∀ p ∈ steps l, p.1 < p.2 := by
  induction l with
  | nil => simp [steps]
  | cons i l ih =>
    cases l with
    | nil => simp [steps]
    | cons j t =>
      rw [List.pairwise_cons] at h
      intro p hp
      rw [steps_cons] at hp
      rcases List.mem_cons.1 hp with rfl | hp
      · exact h.1 _ (by simp)
      · exact ih h.2 p hp

theorem steps_forest {l : List ℕ} (h : l.Pairwise (· < ·)) : Forest (steps l) := by
  induction l with
  | nil => exact .nil
  | cons i l ih =>
    cases l with
    | nil => exact .nil
    | cons j t =>
      rw [List.pairwise_cons] at h
      rw [steps_cons]
      refine .left (h.1 j (by simp)).ne ?_ (ih h.2)
      intro p hp
      exact ⟨(h.1 _ (steps_mem hp).1).ne, (h.1 _ (steps_mem hp).2).ne⟩

theorem pile_iff {K : Type} {net : Net K} {l : List ℕ} :
    PileOf net l ↔ l.Pairwise (· < ·) ∧ ∀ p ∈ steps l, AreConnected net p.1 p.2 := by
  unfold PileOf
  constructor
  · intro h
    refine ⟨List.isChain_iff_pairwise.1 (h.imp fun _ _ hij => hij.1), ?_⟩
    induction l with
    | nil => simp [steps]
    | cons i l ih =>
      cases l with
      | nil => simp [steps]
      | cons j t =>
        rw [List.isChain_cons_cons] at h
        intro p hp
        rw [steps_cons] at hp
        rcases List.mem_cons.1 hp with rfl | hp
        · exact h.1.2
        · exact ih h.2 p hp
  · rintro ⟨h1, h2⟩
    induction l with
    | nil => simp
    | cons i l ih =>
      cases l with
      | nil => simp
      | cons j t =>
        rw [List.pairwise_cons] at h1
        rw [List.isChain_cons_cons]
        rw [steps_cons] at h2
        exact ⟨⟨h1.1 j (by simp), h2 (i, j) (by simp)⟩, ih h1.2 fun p hp => h2 p (by simp [hp])⟩

section
variable {Ω : Type} [MeasurableSpace Ω] {P : Measure Ω} {d : ℕ → Ω → ℝ} {e s : ℕ} {a : MatArgs ℝ}

omit [MeasurableSpace Ω] in
theorem mem_allCross {l S : ℝ} {n : ℕ} {t : List (ℕ × ℕ)} {ω : Ω} :
    ω ∈ allCross d l S n t ↔ ∀ p ∈ t, ω ∈ crossEvent d l S Real.pi n p := by
  induction t with
  | nil => simp [allCross]
  | cons p t ih => simp [allCross, ih]

theorem allCross_measurable (hd : UniformDraws P d) (l S : ℝ) (n : ℕ) (t : List (ℕ × ℕ)) : MeasurableSet (allCross d l S n t) := by
  induction t with
  | nil => exact .univ
  | cons p t ih => exact (crossEvent_measurable hd l S Real.pi n p).inter ih

/-- The event that some `k + 1` fibers form a pile. -/
def pileEvent (d : ℕ → Ω → ℝ) (l S : ℝ) (n k : ℕ) : Set Ω :=
  ⋃ U ∈ (Finset.range n).powersetCard (k + 1), allCross d l S n (steps U.sort)

theorem pileEvent_measurable (hd : UniformDraws P d) (l S : ℝ) (n k : ℕ) : MeasurableSet (pileEvent d l S n k) :=
  Finset.measurableSet_biUnion _ fun U _ => allCross_measurable hd l S n _

theorem sort_lt (U : Finset ℕ) : U.sort.Pairwise (· < ·) := Finset.sortedLT_sort U |>.pairwise

theorem pile_prob (hd : UniformDraws P d) {l S : ℝ} (hl : 0 ≤ l) (hS : 0 < S) (hlS : l ≤ S / 2) {n k : ℕ} {U : Finset ℕ}
    (hU : U ∈ (Finset.range n).powersetCard (k + 1)) :
    P (allCross d l S n (steps U.sort)) = ENNReal.ofReal (crossChance l S Real.pi ^ k) := by
  obtain ⟨h1, h2⟩ := Finset.mem_powersetCard.1 hU
  rw [forest_prob hd hl hS hlS (steps_forest (sort_lt U)), steps_length, Finset.length_sort, h2, Nat.add_sub_cancel,
    ENNReal.ofReal_pow (crossChance_nonneg Real.pi_pos.le)]
  intro p hp
  have := steps_mem hp
  simp only [Finset.mem_sort] at this
  exact ⟨Finset.mem_range.1 (h1 this.1), Finset.mem_range.1 (h1 this.2)⟩

theorem pileEvent_prob (hd : UniformDraws P d) {l S : ℝ} (hl : 0 ≤ l) (hS : 0 < S) (hlS : l ≤ S / 2) (n k : ℕ) :
    P (pileEvent d l S n k) ≤ ENNReal.ofReal (n.choose (k + 1) * crossChance l S Real.pi ^ k) := by
  refine (measure_biUnion_finset_le _ _).trans_eq ?_
  rw [Finset.sum_congr rfl fun U hU => pile_prob hd hl hS hlS hU, Finset.sum_const, Finset.card_powersetCard, Finset.card_range,
    nsmul_eq_mul, ← ENNReal.ofReal_natCast, ← ENNReal.ofReal_mul (by positivity)]

/-- A pile of at least `k + 1` fibers puts the outcome in `pileEvent`. -/
theorem mem_pileEvent (hd : UniformDraws P d) (hs : a.seed ≠ none) (hpsi : a.psi = 0) (hS : 0 < a.size) (hl : a.length ≤ a.size / 2)
    (hπ : a.theta = Real.pi) {ω : Ω} {m : Mat ℝ} {s' : ℕ}
    (h : matNew (stream (fun k => d k ω)) Real.cos Real.sin e a s = .ok (m, s')) {net : Net ℝ}
    (hn : netNew m true = .ok net) {l : List ℕ} (hp : PileOf net l) (hln : ∀ i ∈ l, i < a.n.toNat) {k : ℕ} (hk : k + 1 ≤ l.length) :
    ω ∈ pileEvent d a.length a.size a.n.toNat k := by
  have hp' : PileOf net (l.drop (l.length - (k + 1))) := List.IsChain.drop hp _
  obtain ⟨hsort, hcon⟩ := pile_iff.1 hp'
  generalize hq : l.drop (l.length - (k + 1)) = q at hsort hcon
  have hlen : q.length = k + 1 := by
    rw [← hq, List.length_drop]
    omega
  have hqn : ∀ i ∈ q, i < a.n.toNat := fun i hi => hln i (List.mem_of_mem_drop (hq ▸ hi))
  have hnd : q.Nodup := hsort.imp fun hab => hab.ne
  have hU : q.toFinset.sort = q := (List.toFinset_sort _ hnd).2 (hsort.imp fun hab => hab.le)
  refine mem_iUnion₂.2 ⟨q.toFinset, Finset.mem_powersetCard.2 ⟨?_, ?_⟩, ?_⟩
  · intro i hi
    exact Finset.mem_range.2 (hqn i (List.mem_toFinset.1 hi))
  · rw [List.toFinset_card_of_nodup hnd, hlen]
  · rw [hU, mem_allCross]
    intro p hp
    have := steps_mem hp
    exact (random_linked hd hs hpsi hS hl hπ h hn (steps_lt hsort p hp).ne (hqn _ this.1) (hqn _ this.2)).1 (Or.inl (hcon p hp))

omit [MeasurableSpace Ω] in
theorem random_thick (hs : a.seed ≠ none) {ω : Ω} {m : Mat ℝ} {s' : ℕ}
    (h : matNew (stream (fun k => d k ω)) Real.cos Real.sin e a s = .ok (m, s')) {j : ℕ} (hj : j < a.n.toNat) : thick m j = a.thickness := by
  obtain ⟨k, hk⟩ := Option.ne_none_iff_exists'.1 hs
  obtain ⟨hlen, hcol, -⟩ := C05_columns _ _ _ e a k hk s _ h
  have hj' : j < m.fibers.length := by simpa [hlen] using hj
  have := hcol j hj'
  simp only at this
  rw [thick, List.getElem?_eq_getElem hj']
  exact this.2.2.2.2.2.1

/-- The top of a fiber of a random stack: so many thicknesses as the fibers of some pile. -/
theorem random_top (hd : UniformDraws P d) (hs : a.seed ≠ none) (hpsi : a.psi = 0) (hS : 0 < a.size) (hl : a.length ≤ a.size / 2)
    (hπ : a.theta = Real.pi) {lp : Linprog ℝ} (hlp : GoodLinprog lp) {ω : Ω} {m : Mat ℝ} {s' : ℕ}
    (h : matNew (stream (fun k => d k ω)) Real.cos Real.sin e a s = .ok (m, s')) {net : Net ℝ}
    (hn : netNew m true = .ok net) {threshold : Option ℝ} {m' : Mat ℝ} {st : Net ℝ} (hst : stackNew lp m net threshold = .ok (m', st))
    {i : ℕ} (hi : i < a.n.toNat) :
    ∃ c : ℕ, topOf m' i = c * a.thickness ∧ c ≤ a.n.toNat ∧ ∀ k, k + 1 ≤ c → ω ∈ pileEvent d a.length a.size a.n.toNat k := by
  obtain ⟨hgood, -, hlen, -⟩ := random_mat hd hs hpsi h
  obtain ⟨⟨l, hl', htop⟩, -⟩ := C122_pile hlp hgood hn hst (by omega : i < m.fibers.length)
  have hsort := (pile_iff.1 hl').1
  have hle : ∀ j ∈ l ++ [i], j < a.n.toNat := by
    intro j hj
    rw [List.pairwise_append] at hsort
    rcases List.mem_append.1 hj with hj | hj
    · have := hsort.2.2 j hj i (by simp)
      omega
    · rw [List.mem_singleton.1 hj]
      exact hi
  refine ⟨(l ++ [i]).length, ?_, ?_, fun k hk => mem_pileEvent hd hs hpsi hS hl hπ h hn hl' hle hk⟩
  · rw [htop, pileThickness, List.map_congr_left (g := fun _ => a.thickness)]
    · simp
      ring
    · intro j hj
      exact random_thick hs h (hle j hj)
  · have hnd : (l ++ [i]).Nodup := hsort.imp fun hab => hab.ne
    rw [← List.toFinset_card_of_nodup hnd, ← Finset.card_range a.n.toNat]
    exact Finset.card_le_card fun j hj => Finset.mem_range.2 (hle j (List.mem_toFinset.1 hj))

/-- C122: the probability that the stack of a random mat is as high as `k + 1` fibers. -/
theorem C122_tail (hd : UniformDraws P d) (hs : a.seed ≠ none) (hpos : PositiveArgs a) (hpsi : a.psi = 0) (hl : a.length ≤ a.size / 2)
    (hπ : a.theta = Real.pi) {lp : Linprog ℝ} (hlp : GoodLinprog lp) (threshold : Option ℝ) (k : ℕ) :
    P {ω | ∃ m s' net m' st, matNew (stream (fun k => d k ω)) Real.cos Real.sin e a s = .ok (m, s') ∧ netNew m true = .ok net ∧
      stackNew lp m net threshold = .ok (m', st) ∧ ∃ i : ℕ, (i : ℤ) < a.n ∧ (k + 1) * a.thickness ≤ topOf m' i} ≤
      ENNReal.ofReal (a.n.toNat.choose (k + 1) * crossChance a.length a.size Real.pi ^ k) := by
  have hS : 0 < a.size := by linarith [hpos.1]
  refine (measure_mono ?_).trans (pileEvent_prob hd hpos.1.le hS hl a.n.toNat k)
  rintro ω ⟨m, s', net, m', st, h, hn, hst, i, hi, hk⟩
  obtain ⟨c, hc, -, hev⟩ := random_top hd hs hpsi hS hl hπ hlp h hn hst (by omega : i < a.n.toNat)
  refine hev k ?_
  rw [hc] at hk
  have := le_of_mul_le_mul_right hk hpos.2.2.1
  exact_mod_cast this

/-- C122: the mean height of the stack of a random mat, or of any fiber of it. -/
theorem C122_mean (hd : UniformDraws P d) (hs : a.seed ≠ none) (hpos : PositiveArgs a) (hpsi : a.psi = 0) (hl : a.length ≤ a.size / 2)
    (hπ : a.theta = Real.pi) {lp : Linprog ℝ} (hlp : GoodLinprog lp) (threshold : Option ℝ) {T : Ω → ℝ}
    (hT : ∀ ω, ∃ m s' net m' st, matNew (stream (fun k => d k ω)) Real.cos Real.sin e a s = .ok (m, s') ∧ netNew m true = .ok net ∧
      stackNew lp m net threshold = .ok (m', st) ∧ ∃ i : ℕ, (i : ℤ) < a.n ∧ T ω = topOf m' i) (c : ℕ) :
    ∫⁻ ω, ENNReal.ofReal (T ω) ∂P ≤ ENNReal.ofReal (a.thickness *
      (c + ∑ k ∈ Finset.Ico c a.n.toNat, a.n.toNat.choose (k + 1) * crossChance a.length a.size Real.pi ^ k)) := by
  classical
  have := hd.indep.isProbabilityMeasure
  have hS : 0 < a.size := by linarith [hpos.1]
  have hp0 : 0 ≤ crossChance a.length a.size Real.pi := crossChance_nonneg Real.pi_pos.le
  have hle : ∀ ω, ENNReal.ofReal (T ω) ≤ ENNReal.ofReal a.thickness *
      (c + ∑ k ∈ Finset.Ico c a.n.toNat, (pileEvent d a.length a.size a.n.toNat k).indicator (fun _ => (1 : ENNReal)) ω) := by
    intro ω
    obtain ⟨m, s', net, m', st, h, hn, hst, i, hi, hk⟩ := hT ω
    obtain ⟨q, hq, hqn, hev⟩ := random_top hd hs hpsi hS hl hπ hlp h hn hst (by omega : i < a.n.toNat)
    rw [hk, hq, mul_comm, ENNReal.ofReal_mul hpos.2.2.1.le, ENNReal.ofReal_natCast]
    refine mul_le_mul_right ?_ _
    rcases le_total q c with hqc | hqc
    · exact le_trans (by exact_mod_cast hqc) le_self_add
    · have : (q : ENNReal) = c + ∑ k ∈ Finset.Ico c q, (1 : ENNReal) := by
        rw [Finset.sum_const, Nat.card_Ico, nsmul_eq_mul, mul_one]
        exact_mod_cast (by omega : q = c + (q - c))
      rw [this]
      refine add_le_add_right ?_ _
      refine (Finset.sum_le_sum (g := fun k => (pileEvent d a.length a.size a.n.toNat k).indicator (fun _ => (1 : ENNReal)) ω) ?_).trans
        (Finset.sum_le_sum_of_subset (Finset.Ico_subset_Ico_right hqn))
      intro k hk
      rw [Finset.mem_Ico] at hk
      rw [indicator_of_mem (hev k (by omega))]
  refine (lintegral_mono hle).trans ?_
  have hmeas : ∀ k, Measurable ((pileEvent d a.length a.size a.n.toNat k).indicator (fun _ => (1 : ENNReal))) :=
    fun k => measurable_const.indicator (pileEvent_measurable hd _ _ _ _)
  rw [lintegral_const_mul' _ _ ENNReal.ofReal_ne_top, lintegral_add_left measurable_const, lintegral_const, measure_univ, mul_one,
    lintegral_finsetSum _ fun k _ => hmeas k, ENNReal.ofReal_mul hpos.2.2.1.le,
    ENNReal.ofReal_add (by positivity) (Finset.sum_nonneg fun k _ => by positivity), ENNReal.ofReal_natCast,
    ENNReal.ofReal_sum_of_nonneg fun k _ => by positivity]
  refine mul_le_mul_right (add_le_add_right (Finset.sum_le_sum fun k _ => ?_) _) _
  rw [lintegral_indicator_const (pileEvent_measurable hd _ _ _ _), one_mul]
  exact pileEvent_prob hd hpos.1.le hS hl _ _

/-- C122: the mean number of piles of `k + 1` fibers. -/
theorem C122_count (hd : UniformDraws P d) (hs : a.seed ≠ none) (hpos : PositiveArgs a) (hpsi : a.psi = 0) (hl : a.length ≤ a.size / 2)
    (hπ : a.theta = Real.pi) {N : Ω → Net ℝ}
    (hN : ∀ ω, ∃ m s', matNew (stream (fun k => d k ω)) Real.cos Real.sin e a s = .ok (m, s') ∧ netNew m true = .ok (N ω)) (k : ℕ) :
    ∫ ω, (pileCount (N ω) a.n.toNat (k + 1) : ℝ) ∂P = a.n.toNat.choose (k + 1) * crossChance a.length a.size Real.pi ^ k := by
  classical
  have := hd.indep.isProbabilityMeasure
  have hS : 0 < a.size := by linarith [hpos.1]
  have hp0 : 0 ≤ crossChance a.length a.size Real.pi := crossChance_nonneg Real.pi_pos.le
  have hcount : ∀ ω, (pileCount (N ω) a.n.toNat (k + 1) : ℝ) = ∑ U ∈ (Finset.range a.n.toNat).powersetCard (k + 1),
      (allCross d a.length a.size a.n.toNat (steps U.sort)).indicator (fun _ => (1 : ℝ)) ω := by
    intro ω
    obtain ⟨m, s', h, hnet⟩ := hN ω
    obtain ⟨hgood, -⟩ := random_mat hd hs hpsi h
    have hlab := C06_labels hgood hnet
    unfold pileCount
    rw [Finset.card_filter]
    push_cast
    refine Finset.sum_congr rfl fun U hU => ?_
    have hmem : ∀ p ∈ steps U.sort, p.1 < a.n.toNat ∧ p.2 < a.n.toNat := by
      intro p hp
      have := steps_mem hp
      simp only [Finset.mem_sort] at this
      exact ⟨Finset.mem_range.1 ((Finset.mem_powersetCard.1 hU).1 this.1), Finset.mem_range.1 ((Finset.mem_powersetCard.1 hU).1 this.2)⟩
    have hiff : PileOf (N ω) U.sort ↔ ω ∈ allCross d a.length a.size a.n.toNat (steps U.sort) := by
      rw [pile_iff, mem_allCross]
      refine ⟨fun hp p hps => ?_, fun hp => ⟨sort_lt U, fun p hps => ?_⟩⟩
      · exact (random_linked hd hs hpsi hS hl hπ h hnet (steps_lt (sort_lt U) p hps).ne (hmem p hps).1 (hmem p hps).2).1 (Or.inl (hp.2 p hps))
      · have hlt := steps_lt (sort_lt U) p hps
        rcases (random_linked hd hs hpsi hS hl hπ h hnet hlt.ne (hmem p hps).1 (hmem p hps).2).2 (hp p hps) with hc | ⟨r, hr, hA, hB⟩
        · exact hc
        · have := hlab r hr
          omega
    simp only [indicator, hiff]
  simp only [hcount]
  rw [integral_finsetSum _ fun U _ => (integrable_const _).indicator (allCross_measurable hd _ _ _ _)]
  rw [Finset.sum_congr rfl (g := fun _ => crossChance a.length a.size Real.pi ^ k)]
  · rw [Finset.sum_const, Finset.card_powersetCard, Finset.card_range, nsmul_eq_mul]
  · intro U hU
    rw [integral_indicator_const _ (allCross_measurable hd _ _ _ _), smul_eq_mul, mul_one, measureReal_def, pile_prob hd hpos.1.le hS hl hU,
      ENNReal.toReal_ofReal (by positivity)]

/-- A fiber lies on the floor when no fiber of smaller number is connected to it. -/
theorem floor_iff {K : Type} [Field K] [LinearOrder K] [IsStrictOrderedRing K] [FloorRing K] {lp : Linprog K} (hlp : GoodLinprog lp)
    {m : Mat K} (h : GoodMat m) {periodic : Bool} {net : Net K}
    (hn : netNew m periodic = .ok net) {threshold : Option K} {m' : Mat K} {st : Net K}
    (hst : stackNew lp m net threshold = .ok (m', st)) {i : ℕ} (hi : i < m.fibers.length) :
    heightOf m' i = thick m' i / 2 ↔ ∀ j < i, ¬ AreConnected net j i := by
  obtain ⟨hchk, ho, -⟩ := netNew_over h hn
  obtain ⟨hlen, hlow, hsame, -⟩ := stack_lowest hlp h hchk ho hst
  have hth := same_thick hsame
  constructor
  · rintro e j hj ⟨r, hr, hA, hB⟩
    have hg := hlow.1.gap r hr (by omega)
    have hf := hlow.1.floor j (by omega)
    rw [hA, hB, Int.toNat_natCast, Int.toNat_natCast, e, hth] at hg
    have hpos : 0 < thick m j := by
      have hj' : j < m.fibers.length := by omega
      obtain ⟨S, -, hf⟩ := h.size
      have := (hf _ (List.getElem_mem hj')).h
      simpa [thick, List.getElem?_eq_getElem hj'] using this
    linarith
  · intro hno
    rcases C20_supported hlp h hchk ho hst i hi with e | ⟨r, hr, hAB, hB, -⟩
    · rw [e, hth]
    · have := ho r hr
      exact absurd ⟨r, hr, by omega, hB⟩ (hno r.A.toNat (by omega))

theorem random_floor (hd : UniformDraws P d) (hs : a.seed ≠ none) (hpsi : a.psi = 0) (hS : 0 < a.size) (hl : a.length ≤ a.size / 2)
    (hπ : a.theta = Real.pi) {lp : Linprog ℝ} (hlp : GoodLinprog lp) {ω : Ω} {m : Mat ℝ} {s' : ℕ}
    (h : matNew (stream (fun k => d k ω)) Real.cos Real.sin e a s = .ok (m, s')) {net : Net ℝ}
    (hn : netNew m true = .ok net) {threshold : Option ℝ} {m' : Mat ℝ} {st : Net ℝ} (hst : stackNew lp m net threshold = .ok (m', st))
    {i : ℕ} (hi : i < a.n.toNat) :
    heightOf m' i = thick m' i / 2 ↔ ω ∈ starEvent d a.length a.size a.n.toNat i (Finset.range i) ∅ := by
  obtain ⟨hgood, -, hlen, -⟩ := random_mat hd hs hpsi h
  have hlab := C06_labels hgood hn
  rw [floor_iff hlp hgood hn hst (by omega : i < m.fibers.length)]
  unfold starEvent
  simp only [Finset.mem_range, Finset.notMem_empty, iff_false, mem_ofPred_eq]
  refine forall_congr' fun j => forall_congr' fun hj => not_congr ?_
  rw [← random_linked hd hs hpsi hS hl hπ h hn (by omega : i ≠ j) hi (by omega)]
  refine ⟨Or.inr, ?_⟩
  rintro (⟨r, hr, hA, hB⟩ | hc)
  · have := hlab r hr
    omega
  · exact hc

/-- C122: fiber number `i` of a random stack lies on the floor with probability `(1 - p) ^ i`. -/
theorem C122_floor (hd : UniformDraws P d) (hseed : GoodSeed a.seed) (hs : a.seed ≠ none) (hpos : PositiveArgs a)
    (hpsi : a.psi = 0) (hl : a.length ≤ a.size / 2) (hπ : a.theta = Real.pi) {lp : Linprog ℝ} (hlp : GoodLinprog lp)
    (threshold : Option ℝ) {i : ℕ} (hi : (i : ℤ) < a.n) :
    P {ω | ∃ m s' net m' st, matNew (stream (fun k => d k ω)) Real.cos Real.sin e a s = .ok (m, s') ∧ netNew m true = .ok net ∧
      stackNew lp m net threshold = .ok (m', st) ∧ heightOf m' i = a.thickness / 2} =
      ENNReal.ofReal ((1 - crossChance a.length a.size Real.pi) ^ i) := by
  have hS : 0 < a.size := by linarith [hpos.1]
  have h := star_prob hd hpos.1.le hS hl (by omega : i < a.n.toNat) (T := Finset.range i) (U := ∅)
    (fun j hj => by rw [Finset.mem_range] at hj; omega) (Finset.empty_subset _)
  rw [Finset.card_empty, pow_zero, one_mul, Nat.sub_zero, Finset.card_range] at h
  rw [← h]
  congr 1
  ext ω
  rw [mem_ofPred_eq]
  have key : ∀ {m s' net m' st}, matNew (stream (fun k => d k ω)) Real.cos Real.sin e a s = .ok (m, s') → netNew m true = .ok net →
      stackNew lp m net threshold = .ok (m', st) → thick m' i = a.thickness := by
    intro m s' net m' st h hn hst
    obtain ⟨hgood, -⟩ := random_mat hd hs hpsi h
    obtain ⟨hchk, ho, -⟩ := netNew_over hgood hn
    obtain ⟨-, -, hsame, -⟩ := stack_lowest hlp hgood hchk ho hst
    rw [same_thick hsame, random_thick hs h (by omega)]
  constructor
  · rintro ⟨m, s', net, m', st, h, hn, hst, hf⟩
    rw [← key h hn hst] at hf
    exact (random_floor hd hs hpsi hS hl hπ hlp h hn hst (by omega)).1 hf
  · intro hw
    obtain ⟨m, s', net, h, hn⟩ := C118_exists (e := e) (s := s) hd hseed (by omega) hS.le hpos true ω
    obtain ⟨hgood, -⟩ := random_mat hd hs hpsi h
    obtain ⟨m', st, mesh, hst, -⟩ := C27_mesh_of_stack hlp hgood hn threshold
    refine ⟨m, s', net, m', st, h, hn, hst, ?_⟩
    rw [← key h hn hst]
    exact (random_floor hd hs hpsi hS hl hπ hlp h hn hst (by omega)).2 hw

/-- C122: the mean number of fibers of a random stack that lie on the floor. -/
theorem C122_floor_mean (hd : UniformDraws P d) (hs : a.seed ≠ none) (hpos : PositiveArgs a)
    (hpsi : a.psi = 0) (hl : a.length ≤ a.size / 2) (hπ : a.theta = Real.pi) {lp : Linprog ℝ} (hlp : GoodLinprog lp)
    {threshold : Option ℝ} {M : Ω → Mat ℝ}
    (hM : ∀ ω, ∃ m s' net st, matNew (stream (fun k => d k ω)) Real.cos Real.sin e a s = .ok (m, s') ∧ netNew m true = .ok net ∧
      stackNew lp m net threshold = .ok (M ω, st)) :
    ∫ ω, (floorCount (M ω) : ℝ) ∂P =
      (1 - (1 - 2 * a.length ^ 2 / (Real.pi * a.size ^ 2)) ^ a.n.toNat) / (2 * a.length ^ 2 / (Real.pi * a.size ^ 2)) := by
  classical
  have := hd.indep.isProbabilityMeasure
  have hS : 0 < a.size := by linarith [hpos.1]
  have hcount : ∀ ω, (floorCount (M ω) : ℝ) = ∑ i ∈ Finset.range a.n.toNat,
      (starEvent d a.length a.size a.n.toNat i (Finset.range i) ∅).indicator (fun _ => (1 : ℝ)) ω := by
    intro ω
    obtain ⟨m, s', net, st, h, hn, hst⟩ := hM ω
    obtain ⟨hgood, -, hlen, -⟩ := random_mat hd hs hpsi h
    obtain ⟨hchk, ho, -⟩ := netNew_over hgood hn
    obtain ⟨hlen', -⟩ := stack_lowest hlp hgood hchk ho hst
    rw [floorCount, Finset.card_filter, hlen', hlen]
    push_cast
    refine Finset.sum_congr rfl fun i hi => ?_
    have := random_floor hd hs hpsi hS hl hπ hlp h hn hst (Finset.mem_range.1 hi)
    simp only [indicator, this]
  have hp1 : 0 ≤ 1 - crossChance a.length a.size Real.pi := by linarith [crossChance_le_one hd hpos.1.le hS hl]
  have hmeas : ∀ i, MeasurableSet (starEvent d a.length a.size a.n.toNat i (Finset.range i) ∅) := by
    intro i
    obtain ⟨B, hB, he⟩ := decided_star (d := d) (l := a.length) (S := a.size) (n := a.n.toNat) (i := i) (F := insert i (Finset.range i))
      (T := Finset.range i) (U := ∅) (Finset.mem_insert_self _ _) (Finset.subset_insert _ _)
    rw [he]
    exact hd.group_measurable _ _ hB
  simp only [hcount]
  rw [integral_finsetSum _ fun i _ => (integrable_const _).indicator (hmeas i)]
  rw [Finset.sum_congr rfl (g := fun i => (1 - crossChance a.length a.size Real.pi) ^ i)]
  · have hp : 0 < crossChance a.length a.size Real.pi := by
      rw [C118_isotropic]
      have := Real.pi_pos
      have := hpos.1
      positivity
    rw [geom_sum_eq (by intro h; linarith), ← C118_isotropic]
    rw [div_eq_div_iff (fun h => by linarith) hp.ne']
    ring
  · intro i hi
    rw [Finset.mem_range] at hi
    have h := star_prob hd hpos.1.le hS hl hi (T := Finset.range i) (U := ∅)
      (fun j hj => by rw [Finset.mem_range] at hj; omega) (Finset.empty_subset _)
    rw [Finset.card_empty, pow_zero, one_mul, Nat.sub_zero, Finset.card_range] at h
    rw [integral_indicator_const _ (hmeas i), smul_eq_mul, mul_one, measureReal_def, h, ENNReal.toReal_ofReal (by positivity)]

end
end Fibermat
