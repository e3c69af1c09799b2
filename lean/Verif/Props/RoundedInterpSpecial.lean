import Verif.Props.RoundedInterp

/-! # C95: interpolated results as computed, special cases -/

set_option linter.unusedSectionVars false

namespace Fibermat
open Spec
variable {K : Type} [Field K] [LinearOrder K] [IsStrictOrderedRing K] {fl : K → K} {u : K}

theorem rounds_id : Rounds (id : K → K) 0 := ⟨fun _ _ h => h, fun _ => rfl, fun a => by simp⟩

theorem linspaceR_id {n : ℕ} (hn : 2 ≤ n) : linspaceR (id : K → K) n = linspace n := by
  unfold linspaceR linspace
  apply List.map_congr_left
  intro k hk
  rw [if_neg (by omega)]
  split_ifs with h
  · rw [← knot_last hn]
    congr 1
    omega
  · simp [knot, div_eq_mul_inv]

theorem segmentR_id {xl xh yl yh t x0 y0 : K} (h : xl < xh) : segmentR (id : K → K) xl xh (.fin yl) (.fin yh) t x0 (.fin y0) =
    .fin ((yh - yl) / (xh - xl) * (t - x0) + y0) := by
  have hd : xh - xl ≠ 0 := (sub_pos.2 h).ne'
  have e6 : (Cell.fin (yh - yl) / Cell.fin (id (xh - xl)) : Cell K) = .fin ((yh - yl) / (xh - xl)) := by
    show (if xh - xl = 0 then _ else _) = _
    rw [if_neg hd]
    rfl
  have e7 : ((Cell.fin yh - Cell.fin yl : Cell K)).round id = .fin (yh - yl) := by
    show Cell.fin (yh + -yl) = _
    rw [sub_eq_add_neg]
  unfold segmentR
  simp only [e7, e6]
  rfl

theorem knots_exact {n : ℕ} (hn : 2 ≤ n) : Knots n (knot n : ℕ → K) :=
  ⟨hn, fun _ _ hab _ => (knot_lt hn).2 hab, knot_zero n, knot_last hn⟩

theorem getLastD_fin {y : List K} (hy : y ≠ []) : (y.map Cell.fin).getLastD .nan = .fin (y.getLastD 0) := by
  obtain ⟨l, a, rfl⟩ := List.eq_nil_or_concat y |>.resolve_left hy
  simp

theorem interp1dR_exact (rows : Bool) (kind : Kind) {n : ℕ} (hn : 2 ≤ n) (y : List K) (hy : y.length = n) (fill t : K) :
    interp1dR id rows kind (linspace n) (y.map Cell.fin) (.fin fill) t = .fin (interp1d kind (linspace n) y fill t) := by
  unfold interp1dR
  by_cases hin : t < (linspace n : List K).headD 0 ∨ (linspace n : List K).getLastD 0 < t
  · rw [if_pos hin]
    unfold interp1d
    rw [if_pos hin]
  · rw [if_neg hin]
    have hin' := hin
    rw [linspace_head hn, linspace_last hn] at hin'
    push Not at hin'
    cases kind with
    | previous =>
      obtain ⟨c1, c2⟩ := count_le hn t
      unfold interp1d
      rw [if_neg hin]
      simp only
      rw [getD_map_fin (by omega)]
    | linear =>
      obtain ⟨i, hi, ha, hb, hlow, hseg⟩ := (knots_exact (K := K) hn).segment id hin'.1 hin'.2
      obtain ⟨c1, c2, c3, c4⟩ := hseg (y.map Cell.fin)
      have hlt : (knot n i : K) < knot n (i + 1) := (knot_lt hn).2 (by omega)
      have hD : (knot n (i + 1) : K) - knot n i ≠ 0 := (sub_pos.2 hlt).ne'
      obtain ⟨j, hj, ja, jb, je⟩ := interp_linear hn hin'.1 hin'.2
      have hval : interp1d .linear (linspace n) y fill t = (y.getD (i + 1) 0 - y.getD i 0) / (knot n (i + 1) - knot n i) * (t - knot n i) + y.getD i 0 := by
        rcases lt_trichotomy i j with h | h | h
        · have e : t = knot n (i + 1) := le_antisymm hb ((knot_le hn).2 (by omega) |>.trans ja)
          rw [e, interp_knot .linear hn hi y fill hy, div_mul_cancel₀ _ hD]
          ring
        · subst h
          rw [je y fill hy]
          field_simp
          ring
        · have e : t = knot n i := le_antisymm (jb.trans ((knot_le hn).2 (by omega))) ha
          rw [e, interp_knot .linear hn (by omega) y fill hy]
          ring
      rw [getD_map_fin (by omega), getD_map_fin (by omega)] at c1 c4
      rw [getD_map_fin (by omega)] at c2 c3
      rw [segmentR_id hlt] at c1
      have hl : (linspace n : List K) = (List.range n).map (knot n) := rfl
      rw [← hl] at c1 c2 c3 c4
      rw [hval]
      cases rows with
      | true => simp only [if_true]; exact c1
      | false =>
        simp only [Bool.false_eq_true, if_false]
        by_cases hA : t = knot n i
        · rw [c2 hA, hA]; simp
        · by_cases hB : t = knot n (i + 1)
          · rw [c3 hB, hB, div_mul_cancel₀ _ hD]; simp
          · rw [c4 (lt_of_le_of_ne ha (Ne.symm hA)) (lt_of_le_of_ne hb hB)]
            unfold Knots.between
            rw [segmentR_id hlt]

/-- C95: without rounding, the computed values of finite data are those of `Verif/Model/Interp.lean` (C51-C55), for rows and for vectors. -/
theorem C95_exact (rows : Bool) (kind : Kind) (y : List K) (hy : 2 ≤ y.length) (size : Option ℕ) (hs : ∀ k, size = some k → 2 ≤ k) (t : K) :
    interpolateR id rows kind (y.map Cell.fin) size t = .fin (interpolate kind y size t) := by
  have hN : 2 ≤ sampleCount y.length size := by
    cases size with
    | none => exact hy
    | some k => exact hs k rfl
  have he : sampleCount y.length size = samples y size := by cases size <;> rfl
  rw [interpolateR_eq, interpolate_eq, List.length_map, linspaceR_id hN, linspaceR_id hy, ← he,
    getLastD_fin (by intro h; rw [h] at hy; simp at hy)]
  have : ((linspace (sampleCount y.length size)).map (interp1dR id rows kind (linspace y.length) (y.map Cell.fin) (.fin (y.getLastD 0)))) =
      ((linspace (sampleCount y.length size)).map (interp1d kind (linspace y.length) y (y.getLastD 0))).map Cell.fin := by
    rw [List.map_map]
    apply List.map_congr_left
    intro x _
    exact interp1dR_exact rows kind hy y rfl _ x
  rw [this]
  exact interp1dR_exact rows kind hN _ (by simp [linspace]) _ t

theorem interp1dR_previous {n : ℕ} {kn : ℕ → K} (h : Knots n kn) (fl : K → K) (rows : Bool) (y : List (Cell K)) (fill : Cell K) {t : K} {k : ℕ}
    (hk : k < n) (h0 : 0 ≤ t) (h1 : t ≤ 1) (ha : kn k ≤ t) (hb : k + 1 < n → t < kn (k + 1)) :
    interp1dR fl rows .previous ((List.range n).map kn) y fill t = y.getD k .nan := by
  have hin : ¬ (t < ((List.range n).map kn).headD 0 ∨ ((List.range n).map kn).getLastD 0 < t) := by
    rw [h.headD, h.getLastD]; push Not; exact ⟨h0, h1⟩
  unfold interp1dR
  rw [if_neg hin]
  simp only
  rw [h.count_le_eq hk ha hb]
  congr 1

/-- C95: the masks and errors, interpolated by steps, are exactly the recorded ones, whatever they are: the value at a time is that of the
last sample not after it. -/
theorem C95_steps (hr : Rounds fl u) {n : ℕ} (hn : 2 ≤ n) (hnu : 4 * n * u ≤ 1) :
    ∃ kn : ℕ → K, kn 0 = 0 ∧ kn (n - 1) = 1 ∧ (∀ a b, a < b → b < n → kn a < kn b) ∧
      ∀ (k : ℕ) (t : K), k < n → 0 ≤ t → t ≤ 1 → kn k ≤ t → (k + 1 < n → t < kn (k + 1)) →
        ∀ (rows : Bool) (y : List (Cell K)), y.length = n → interpolateR fl rows .previous y none t = y.getD k .nan := by
  obtain ⟨kn, hk, ek⟩ := linspaceR_knots hr hn hnu
  refine ⟨kn, hk.zero, hk.last, hk.mono, ?_⟩
  intro k t hkn h0 h1 ha hb rows y hy
  rw [interpolateR_eq]
  simp only [sampleCount]
  rw [hy, ek, interp1dR_previous hk fl rows _ _ hkn h0 h1 ha hb, List.getD_eq_getElem?_getD]
  simp only [List.getElem?_map, List.getElem?_range hkn, Option.map_some, Option.getD_some]
  exact interp1dR_previous hk fl rows y _ hkn (hk.mem hkn).1 (hk.mem hkn).2 le_rfl (fun h => hk.mono _ _ (by omega) h)

theorem segment_inf (fl : K → K) (xl xh t x0 : K) (y0 : Cell K) : segmentR fl xl xh .pinf .pinf t x0 y0 = .nan := rfl

theorem segment_nan (fl : K → K) (xl xh t x0 : K) (yl : Cell K) : segmentR fl xl xh .nan yl t x0 .nan = .nan := by
  unfold segmentR
  have : (yl - .nan : Cell K) = .nan := by cases yl <;> rfl
  rw [this]
  rfl

theorem getD_replicate {n k : ℕ} (hk : k < n) (c : Cell K) : (List.replicate n c).getD k .nan = c := by
  simp [List.getD_eq_getElem?_getD, List.getElem?_replicate, hk]

theorem interp1dR_inf {n : ℕ} {kn : ℕ → K} (h : Knots n kn) (fl : K → K) (fill : Cell K) {t : K} (h0 : 0 ≤ t) (h1 : t ≤ 1) :
    interp1dR fl true .linear ((List.range n).map kn) (List.replicate n .pinf) fill t = .nan ∧
    interp1dR fl false .linear ((List.range n).map kn) (List.replicate n .pinf) fill t = .pinf ∧
    interp1dR fl true .linear ((List.range n).map kn) (List.replicate n .nan) fill t = .nan := by
  have hin : ¬ (t < ((List.range n).map kn).headD 0 ∨ ((List.range n).map kn).getLastD 0 < t) := by
    rw [h.headD, h.getLastD]; push Not; exact ⟨h0, h1⟩
  obtain ⟨i, hi, ha, hb, hlow, hseg⟩ := h.segment fl h0 h1
  unfold interp1dR
  simp only [if_neg hin]
  obtain ⟨c1, c2, c3, c4⟩ := hseg (List.replicate n .pinf)
  rw [getD_replicate (by omega), getD_replicate (by omega)] at c1 c4
  rw [getD_replicate (by omega)] at c2 c3
  refine ⟨?_, ?_, ?_⟩
  · simp only [if_true]
    rw [c1]; exact segment_inf ..
  · simp only [Bool.false_eq_true, if_false]
    by_cases hA : t = kn i
    · exact c2 hA
    · by_cases hB : t = kn (i + 1)
      · exact c3 hB
      · rw [c4 (lt_of_le_of_ne ha (Ne.symm hA)) (lt_of_le_of_ne hb hB)]
        unfold Knots.between
        simp only [segment_inf, if_true]
  · simp only [if_true]
    rw [(hseg (List.replicate n .nan)).1, getD_replicate (by omega), getD_replicate (by omega)]
    exact segment_nan ..

/-- C95: an infinite bound that is stored in rows comes back as NaN at every time between 0 and 1, the recorded times included (in a vector it
would come back as infinity). -/
theorem C95_infinite (hr : Rounds fl u) {n : ℕ} (hn : 2 ≤ n) (size : Option ℕ) (hs : ∀ k, size = some k → 2 ≤ k)
    (hnu : 4 * n * u ≤ 1) (hsu : ∀ k, size = some k → 4 * k * u ≤ 1) {t : K} (h0 : 0 ≤ t) (h1 : t ≤ 1) {y : List (Cell K)} (hy : y.length = n)
    (hinf : ∀ c ∈ y, c = .pinf) :
    interpolateR fl true .linear y size t = .nan ∧ interpolateR fl false .linear y size t = .pinf := by
  obtain ⟨kn, hk, ek⟩ := linspaceR_knots hr hn hnu
  have hN : 2 ≤ sampleCount n size ∧ 4 * (sampleCount n size : K) * u ≤ 1 := by
    cases size with
    | none => exact ⟨hn, hnu⟩
    | some k => exact ⟨hs k rfl, hsu k rfl⟩
  obtain ⟨kN, hK, eK⟩ := linspaceR_knots hr hN.1 hN.2
  have hrep : y = List.replicate n .pinf := by rw [← hy]; exact List.eq_replicate_of_mem hinf
  rw [interpolateR_eq, interpolateR_eq, hy, ek, eK, hrep]
  have hlist : ∀ (rows : Bool) (c fill : Cell K), (∀ x, 0 ≤ x → x ≤ 1 → interp1dR fl rows .linear ((List.range n).map kn) (List.replicate n .pinf) fill x = c) →
      ((List.range (sampleCount n size)).map kN).map (interp1dR fl rows .linear ((List.range n).map kn) (List.replicate n .pinf) fill) =
        List.replicate (sampleCount n size) c := by
    intro rows c fill hc
    rw [List.eq_replicate_iff]
    refine ⟨by simp, ?_⟩
    intro b hb
    obtain ⟨x, hx, rfl⟩ := List.mem_map.1 hb
    obtain ⟨j, hj, rfl⟩ := List.mem_map.1 hx
    have := hK.mem (List.mem_range.1 hj)
    exact hc _ this.1 this.2
  rw [hlist true .nan _ (fun x a b => (interp1dR_inf hk fl _ a b).1), hlist false .pinf _ (fun x a b => (interp1dR_inf hk fl _ a b).2.1)]
  exact ⟨(interp1dR_inf hK fl _ h0 h1).2.2, (interp1dR_inf hK fl _ h0 h1).2.1⟩

theorem linspaceR_one (fl : K → K) : linspaceR fl 1 = [0] := rfl

theorem segment_same (hr : Rounds fl u) (hu : u < 1) {xl xh v : K} (hx : xl < xh) (hv : fl v = v) (t : K) :
    segmentR fl xl xh (.fin v) (.fin v) t xl (.fin v) = .fin v := by
  have hd : fl (xh - xl) ≠ 0 := by
    have hD : 0 < xh - xl := by linarith
    have := abs_le.1 (hr.err (xh - xl))
    rw [abs_of_pos hD] at this
    intro h0
    rw [h0] at this
    nlinarith [this.1]
  have e7 : ((Cell.fin v - Cell.fin v : Cell K)).round fl = .fin 0 := by
    show Cell.fin (fl (v + -v)) = _
    rw [add_neg_cancel, hr.zero]
  have e6 : (Cell.fin 0 / Cell.fin (fl (xh - xl)) : Cell K) = .fin 0 := by
    show (if fl (xh - xl) = 0 then _ else _) = _
    rw [if_neg hd, zero_div]
  unfold segmentR
  simp only [e7, e6]
  show Cell.fin (fl (fl (fl 0 * fl (t - xl)) + v)) = _
  rw [hr.zero, zero_mul, hr.zero, zero_add, hv]

theorem interp_point (hr : Rounds fl u) (c fill : Cell K) (t : K) :
    interp1dR fl true .linear [0] [c] fill t = (if t = 0 then .nan else fill) ∧
    interp1dR fl false .linear [0] [c] fill t = (if t = 0 then c else fill) := by
  by_cases ht : t = 0
  · subst ht
    constructor
    · have : interp1dR fl true .linear [0] [c] fill 0 = segmentR fl 0 0 c c 0 0 c := by
        simp [interp1dR, callLinearR]
      rw [this, if_pos rfl]
      unfold segmentR
      have e : (Cell.fin (fl ((0 : K) - 0)) : Cell K) = .fin 0 := by rw [sub_zero, hr.zero]
      cases c with
      | fin v =>
        have e7 : ((Cell.fin v - Cell.fin v : Cell K)).round fl = .fin 0 := by
          show Cell.fin (fl (v + -v)) = _
          rw [add_neg_cancel, hr.zero]
        have e6 : (Cell.fin 0 / Cell.fin 0 : Cell K) = .nan := by
          show (if (0 : K) = 0 then _ else _) = _
          rw [if_pos rfl, if_pos rfl]
        simp only [e7, e, e6]
        rfl
      | pinf => rfl
      | ninf => rfl
      | nan => rfl
    · simp [interp1dR, npInterpR]
  · have hin : t < ([0] : List K).headD 0 ∨ ([0] : List K).getLastD 0 < t := by
      simpa using lt_or_gt_of_ne ht
    unfold interp1dR
    simp only [if_pos hin, if_neg ht]
    exact ⟨trivial, trivial⟩

/-- C95: a history of one record, not resampled: stored in rows it is NaN at 0, elsewhere it is the record (vectors: everywhere). -/
theorem C95_single (hr : Rounds fl u) (c : Cell K) (t : K) :
    interpolateR fl true .linear [c] none t = (if t = 0 then .nan else c) ∧ interpolateR fl false .linear [c] none t = c := by
  rw [interpolateR_eq, interpolateR_eq]
  simp only [sampleCount, List.length_singleton, linspaceR_one, List.map_cons, List.map_nil]
  refine ⟨(interp_point hr _ _ t).1, ?_⟩
  rw [(interp_point hr _ _ t).2, (interp_point hr _ _ 0).2]
  split_ifs <;> simp

/-- C95: a history of one record, resampled: stored in rows it is NaN up to the second sample (with two samples: at all times, the end
included), then the record. -/
theorem C95_single_resampled (hr : Rounds fl u) (hu : u < 1) {m : ℕ} (hm : 2 ≤ m) (hmu : 4 * m * u ≤ 1) {v : K} (hv : fl v = v) (t : K) :
    interpolateR fl true .linear [.fin v] (some m) t = (if 0 ≤ t ∧ t ≤ (linspaceR fl m).getD 1 0 then .nan else .fin v) ∧
    interpolateR fl false .linear [.fin v] (some m) t = .fin v := by
  obtain ⟨kn, hk, ek⟩ := linspaceR_knots hr hm hmu
  rw [interpolateR_eq, interpolateR_eq]
  simp only [sampleCount, List.length_singleton, linspaceR_one, ek, Knots.getD (by omega : 1 < m)]
  have hl : ((List.range m).map kn).map (interp1dR fl true .linear [0] [.fin v] (([.fin v] : List (Cell K)).getLastD .nan)) =
      (List.range m).map (fun j => if j = 0 then Cell.nan else .fin v) := by
    rw [List.map_map]
    apply List.map_congr_left
    intro j hj
    simp only [Function.comp]
    rw [(interp_point hr _ _ _).1]
    by_cases h : j = 0
    · rw [h, hk.zero]; simp
    · have := hk.mono 0 j (by omega) (List.mem_range.1 hj)
      rw [hk.zero] at this
      rw [if_neg this.ne', if_neg h]
      rfl
  have hl' : ((List.range m).map kn).map (interp1dR fl false .linear [0] [.fin v] (([.fin v] : List (Cell K)).getLastD .nan)) =
      List.replicate m (.fin v) := by
    rw [List.eq_replicate_iff]
    refine ⟨by simp, ?_⟩
    intro b hb
    obtain ⟨x, -, rfl⟩ := List.mem_map.1 hb
    rw [(interp_point hr _ _ _).2]
    split_ifs <;> rfl
  rw [hl, hl']
  by_cases hin : t < 0 ∨ 1 < t
  · have hin' : t < ((List.range m).map kn).headD 0 ∨ ((List.range m).map kn).getLastD 0 < t := by rw [hk.headD, hk.getLastD]; exact hin
    have hnot : ¬ (0 ≤ t ∧ t ≤ kn 1) := by
      rintro ⟨a, b⟩
      have := (hk.mem (by omega : 1 < m)).2
      rcases hin with h | h <;> linarith
    unfold interp1dR
    simp only [if_pos hin', if_neg hnot]
    exact ⟨rfl, rfl⟩
  · push Not at hin
    have hin' : ¬ (t < ((List.range m).map kn).headD 0 ∨ ((List.range m).map kn).getLastD 0 < t) := by
      rw [hk.headD, hk.getLastD]; push Not; exact hin
    obtain ⟨i, hi, ha, hb, hlow, hseg⟩ := hk.segment fl hin.1 hin.2
    have hlt : kn i < kn (i + 1) := hk.mono _ _ (by omega) hi
    unfold interp1dR
    simp only [if_neg hin', if_true, Bool.false_eq_true, if_false]
    constructor
    · rw [(hseg _).1]
      have g : ∀ k, k < m → ((List.range m).map (fun j => if j = 0 then (Cell.nan : Cell K) else .fin v)).getD k .nan = if k = 0 then .nan else .fin v := by
        intro k hkm
        simp [List.getD_eq_getElem?_getD, hkm]
      rw [g _ (by omega), g _ hi]
      by_cases h : i = 0
      · subst h
        have hc : 0 ≤ t ∧ t ≤ kn 1 := ⟨hin.1, hb⟩
        simp only [if_pos hc, if_true]
        exact segment_nan ..
      · have h1 : kn 1 ≤ kn i := hk.le (by omega) (by omega)
        have h2 : kn i < t := hlow.resolve_right (fun hh => h hh.2)
        have hc : ¬ (0 ≤ t ∧ t ≤ kn 1) := by rintro ⟨-, hh⟩; linarith
        simp only [if_neg hc, if_neg h, if_neg (Nat.succ_ne_zero i)]
        exact segment_same hr hu hlt hv t
    · obtain ⟨-, c2, c3, c4⟩ := hseg (List.replicate m (.fin v))
      rw [getD_replicate (by omega), getD_replicate (by omega)] at c4
      rw [getD_replicate (by omega)] at c2 c3
      by_cases hA : t = kn i
      · exact c2 hA
      · by_cases hB : t = kn (i + 1)
        · exact c3 hB
        · rw [c4 (lt_of_le_of_ne ha (Ne.symm hA)) (lt_of_le_of_ne hb hB)]
          unfold Knots.between
          rw [segment_same hr hu hlt hv t]

/-- C95: resampling to one sample keeps only the last record: rows are NaN at 0 and the last record at all other times. -/
theorem C95_one_sample (hr : Rounds fl u) (y : List (Cell K)) {t : K} :
    interpolateR fl true .linear y (some 1) t = if t = 0 then .nan else y.getLastD .nan := by
  rw [interpolateR_eq]
  simp only [sampleCount, linspaceR_one, List.map_cons, List.map_nil]
  exact (interp_point hr _ _ t).1

/-- C95: outside [0, 1] the value is the last record, exactly, on both sides. -/
theorem C95_outside (hr : Rounds fl u) (rows : Bool) (kind : Kind) {n : ℕ} (hn : 2 ≤ n) (size : Option ℕ) (hs : ∀ k, size = some k → 2 ≤ k)
    (hnu : 4 * n * u ≤ 1) (hsu : ∀ k, size = some k → 4 * k * u ≤ 1) {t : K} (ht : t < 0 ∨ 1 < t) {y : List (Cell K)} (hy : y.length = n) :
    interpolateR fl rows kind y size t = y.getLastD .nan := by
  have hN : 2 ≤ sampleCount n size ∧ 4 * (sampleCount n size : K) * u ≤ 1 := by
    cases size with
    | none => exact ⟨hn, hnu⟩
    | some k => exact ⟨hs k rfl, hsu k rfl⟩
  obtain ⟨kN, hK, eK⟩ := linspaceR_knots hr hN.1 hN.2
  rw [interpolateR_eq, hy, eK]
  have hin' : t < ((List.range (sampleCount n size)).map kN).headD 0 ∨ ((List.range (sampleCount n size)).map kN).getLastD 0 < t := by
    rw [hK.headD, hK.getLastD]; exact ht
  unfold interp1dR
  rw [if_pos hin']

end Fibermat
