import Verif.Spec.Loads
import Verif.Props.Stack

/-! # Lemmas on the loads of stacked fibers -/

set_option linter.unusedSectionVars false

namespace Fibermat
open Spec
variable {K : Type} [Field K] [LinearOrder K] [IsStrictOrderedRing K]

/-- Labels of row `k`. -/
def rowA (rows : List (NetRow K)) (k : ℕ) : Int := ((rows[k]?).map (·.A)).getD (-1)
def rowB (rows : List (NetRow K)) (k : ℕ) : Int := ((rows[k]?).map (·.B)).getD (-1)

theorem zip_sum (rows : List (NetRow K)) (g : NetRow K → K → K) : ∀ (F : List K), F.length = rows.length →
    ((rows.zip F).map (fun p => g p.1 p.2)).sum =
      ∑ k ∈ Finset.range rows.length, ((rows[k]?).map (fun r => g r (comp F k))).getD 0 := by
  induction rows with
  | nil => intro F _; simp
  | cons r t ih =>
    intro F hF
    cases F with
    | nil => simp at hF
    | cons v F =>
      rw [List.zip_cons_cons, List.map_cons, List.sum_cons, ih F (by simpa using hF), List.length_cons, Finset.sum_range_succ']
      simp only [List.getElem?_cons_succ, List.getElem?_cons_zero, Option.map_some, Option.getD_some]
      rw [add_comm]
      rfl

theorem filter_sum (L : List (NetRow K × K)) (p : NetRow K × K → Prop) [DecidablePred p] :
    ((L.filter (fun x => p x)).map (·.2)).sum = (L.map (fun x => if p x then x.2 else 0)).sum := by
  induction L with
  | nil => rfl
  | cons a t ih =>
    by_cases h : p a
    · simp [List.filter_cons, h, ih]
    · simp [List.filter_cons, h, ih]

theorem pressOn_eq {rows : List (NetRow K)} {F : List K} (hF : F.length = rows.length) (i : ℕ) :
    pressOn rows F i = ∑ k ∈ Finset.range rows.length, if rowA rows k = (i : Int) then comp F k else 0 := by
  unfold pressOn
  rw [filter_sum, zip_sum rows (fun r v => if r.A = (i : Int) then v else 0) F hF]
  apply Finset.sum_congr rfl
  intro k hk
  simp [rowA, List.getElem?_eq_getElem (Finset.mem_range.1 hk)]

theorem pressUnder_eq {rows : List (NetRow K)} {F : List K} (hF : F.length = rows.length) (i : ℕ) :
    pressUnder rows F i = ∑ k ∈ Finset.range rows.length, if rowB rows k = (i : Int) then comp F k else 0 := by
  unfold pressUnder
  rw [filter_sum, zip_sum rows (fun r v => if r.B = (i : Int) then v else 0) F hF]
  apply Finset.sum_congr rfl
  intro k hk
  simp [rowB, List.getElem?_eq_getElem (Finset.mem_range.1 hk)]

/-- Sum over labels of the forces with that label. -/
theorem label_sum (N : ℕ) (lab : ℕ → Int) (F : ℕ → K) (s : Finset ℕ) :
    ∑ j ∈ s, ∑ k ∈ Finset.range N, (if lab k = (j : Int) then F k else 0) =
      ∑ k ∈ Finset.range N, if 0 ≤ lab k ∧ (lab k).toNat ∈ s then F k else 0 := by
  rw [Finset.sum_comm]
  apply Finset.sum_congr rfl
  intro k _
  by_cases h : 0 ≤ lab k
  · have : ∀ j : ℕ, (lab k = (j : Int)) ↔ ((lab k).toNat = j) := fun j => by omega
    simp only [this, Finset.sum_ite_eq, h, true_and]
  · have : ∀ j : ℕ, ¬ (lab k = (j : Int)) := fun j => by omega
    simp [this, h]

theorem comp_nonneg {F : List K} (h : ∀ v ∈ F, 0 ≤ v) (k : ℕ) : 0 ≤ comp F k := by
  unfold comp
  rw [List.getD_eq_getElem?_getD]
  cases e : F[k]? with
  | none => simp
  | some v => simpa using h v (List.mem_of_getElem? e)

theorem row_labels {n : ℕ} {rows : List (NetRow K)} (ho : ∀ r ∈ rows, 0 ≤ r.A ∧ r.A < r.B ∧ r.B < (n : Int)) {k : ℕ} (hk : k < rows.length) :
    0 ≤ rowA rows k ∧ rowA rows k < rowB rows k ∧ rowB rows k < (n : Int) := by
  simp only [rowA, rowB, List.getElem?_eq_getElem hk, Option.map_some, Option.getD_some]
  exact ho _ (List.getElem_mem hk)

/-- The floor carries the whole weight. -/
theorem held_total {m : Mat K} {rows : List (NetRow K)} {F : List K} {N : ℕ → K} (h : Held m rows F N)
    (ho : ∀ r ∈ rows, 0 ≤ r.A ∧ r.A < r.B ∧ r.B < (m.fibers.length : Int)) :
    ∑ i ∈ Finset.range m.fibers.length, N i = ∑ i ∈ Finset.range m.fibers.length, weight m i := by
  have e : ∑ i ∈ Finset.range m.fibers.length, (weight m i + pressOn rows F i) =
      ∑ i ∈ Finset.range m.fibers.length, (pressUnder rows F i + N i) :=
    Finset.sum_congr rfl (fun i hi => h.balance i (Finset.mem_range.1 hi))
  rw [Finset.sum_add_distrib, Finset.sum_add_distrib] at e
  have e1 : ∑ i ∈ Finset.range m.fibers.length, pressOn rows F i = ∑ i ∈ Finset.range m.fibers.length, pressUnder rows F i := by
    simp only [pressOn_eq h.size, pressUnder_eq h.size]
    rw [label_sum, label_sum]
    apply Finset.sum_congr rfl
    intro k hk
    have := row_labels ho (Finset.mem_range.1 hk)
    rw [if_pos ⟨this.1, Finset.mem_range.2 (by omega)⟩, if_pos ⟨by omega, Finset.mem_range.2 (by omega)⟩]
  linarith

/-- A fiber carries at most the weight of the fibers that come after it. -/
theorem held_bound {m : Mat K} {rows : List (NetRow K)} {F : List K} {N : ℕ → K} (h : Held m rows F N)
    (ho : ∀ r ∈ rows, 0 ≤ r.A ∧ r.A < r.B ∧ r.B < (m.fibers.length : Int)) (i : ℕ) :
    0 ≤ pressOn rows F i ∧ pressOn rows F i ≤ ∑ j ∈ Finset.Ioo i m.fibers.length, weight m j := by
  have hF := comp_nonneg h.push
  refine ⟨?_, ?_⟩
  · rw [pressOn_eq h.size]
    exact Finset.sum_nonneg (fun k _ => by split_ifs <;> [exact hF k; exact le_rfl])
  have e : ∑ j ∈ Finset.Ioo i m.fibers.length, (weight m j + pressOn rows F j) =
      ∑ j ∈ Finset.Ioo i m.fibers.length, (pressUnder rows F j + N j) :=
    Finset.sum_congr rfl (fun j hj => h.balance j (Finset.mem_Ioo.1 hj).2)
  rw [Finset.sum_add_distrib, Finset.sum_add_distrib] at e
  have e1 : pressOn rows F i + ∑ j ∈ Finset.Ioo i m.fibers.length, pressOn rows F j ≤
      ∑ j ∈ Finset.Ioo i m.fibers.length, pressUnder rows F j := by
    simp only [pressOn_eq h.size, pressUnder_eq h.size]
    rw [label_sum, label_sum, ← Finset.sum_add_distrib]
    apply Finset.sum_le_sum
    intro k hk
    have hl := row_labels ho (Finset.mem_range.1 hk)
    have hk0 := hF k
    by_cases hA : rowA rows k = (i : Int)
    · rw [if_pos hA, if_neg (by rw [Finset.mem_Ioo]; omega), if_pos ⟨by omega, Finset.mem_Ioo.2 (by omega)⟩]
      simp
    · rw [if_neg hA, zero_add]
      by_cases hA2 : 0 ≤ rowA rows k ∧ (rowA rows k).toNat ∈ Finset.Ioo i m.fibers.length
      · rw [if_pos hA2, if_pos ⟨by omega, Finset.mem_Ioo.2 (by have := Finset.mem_Ioo.1 hA2.2; omega)⟩]
      · rw [if_neg hA2]
        split_ifs <;> [exact hk0; exact le_rfl]
  have e2 : 0 ≤ ∑ j ∈ Finset.Ioo i m.fibers.length, N j := Finset.sum_nonneg (fun j hj => h.floor j (Finset.mem_Ioo.1 hj).2)
  linarith

/-- Forces that pass the weight of every fiber down its chosen support. -/
theorem support_flow (N : ℕ) (A B : ℕ → Int) (s : ℕ → Option ℕ)
    (hs : ∀ i k, s i = some k → k < N ∧ B k = (i : Int) ∧ A k < (i : Int) ∧ 0 ≤ A k) (n : ℕ) :
    ∀ w : ℕ → K, (∀ i, i < n → 0 ≤ w i) → ∃ F : ℕ → K, (∀ k, 0 ≤ F k) ∧ (∀ k, F k ≠ 0 → ∃ i, i < n ∧ s i = some k) ∧
      ∀ i, i < n → (s i ≠ none → w i + ∑ k ∈ Finset.range N, (if A k = (i : Int) then F k else 0) =
          ∑ k ∈ Finset.range N, (if B k = (i : Int) then F k else 0)) ∧
        (s i = none → ∑ k ∈ Finset.range N, (if B k = (i : Int) then F k else 0) = 0) := by
  induction n with
  | zero => intro w _; exact ⟨fun _ => 0, fun _ => le_rfl, fun k hk => absurd rfl hk, by omega⟩
  | succ n ih =>
    intro w hw
    cases hn : s n with
    | none =>
      obtain ⟨F, h1, h2, h3⟩ := ih w (fun i hi => hw i (by omega))
      refine ⟨F, h1, fun k hk => ?_, ?_⟩
      · obtain ⟨i, hi, e⟩ := h2 k hk; exact ⟨i, by omega, e⟩
      · intro i hi
        by_cases hin : i = n
        · subst hin
          refine ⟨fun h => absurd hn h, fun _ => Finset.sum_eq_zero (fun k _ => ?_)⟩
          split_ifs with hB
          · by_contra hne
            obtain ⟨j, hj, e⟩ := h2 k hne
            have := (hs j k e).2.1
            omega
          · rfl
        · exact h3 i (by omega)
    | some k0 =>
      obtain ⟨hk0, hB0, hA0, hA0'⟩ := hs n k0 hn
      obtain ⟨F, h1, h2, h3⟩ := ih (fun i => w i + if A k0 = (i : Int) then w n else 0) (fun i hi => by
        have := hw i (by omega); have := hw n (by omega)
        show 0 ≤ w i + if A k0 = (i : Int) then w n else 0
        split_ifs <;> linarith)
      have hwn := hw n (by omega)
      have split : ∀ (lab : ℕ → Int) (i : ℕ), ∑ k ∈ Finset.range N, (if lab k = (i : Int) then (F k + if k = k0 then w n else 0) else 0) =
          ∑ k ∈ Finset.range N, (if lab k = (i : Int) then F k else 0) + if lab k0 = (i : Int) then w n else 0 := by
        intro lab i
        have : ∀ k, (if lab k = (i : Int) then (F k + if k = k0 then w n else 0) else 0) =
            (if lab k = (i : Int) then F k else 0) + if k = k0 then (if lab k0 = (i : Int) then w n else 0) else 0 := by
          intro k
          by_cases hk : k = k0
          · subst hk; split_ifs <;> simp
          · simp [hk]
        simp only [this, Finset.sum_add_distrib, Finset.sum_ite_eq', Finset.mem_range, hk0, if_true]
      refine ⟨fun k => F k + if k = k0 then w n else 0, fun k => ?_, fun k hk => ?_, ?_⟩
      · have := h1 k
        show 0 ≤ F k + if k = k0 then w n else 0
        split_ifs <;> linarith
      · by_cases hkk : k = k0
        · exact ⟨n, by omega, by rw [hkk]; exact hn⟩
        · simp only [hkk, if_false, add_zero] at hk
          obtain ⟨i, hi, e⟩ := h2 k hk; exact ⟨i, by omega, e⟩
      · intro i hi
        simp only [split]
        by_cases hin : i = n
        · subst hin
          refine ⟨fun _ => ?_, fun h => absurd h (by rw [hn]; simp)⟩
          have z1 : ∑ k ∈ Finset.range N, (if A k = (i : Int) then F k else 0) = 0 := Finset.sum_eq_zero (fun k _ => by
            split_ifs with hA
            · by_contra hne
              obtain ⟨j, hj, e⟩ := h2 k hne
              have := (hs j k e).2.2.1
              omega
            · rfl)
          have z2 : ∑ k ∈ Finset.range N, (if B k = (i : Int) then F k else 0) = 0 := Finset.sum_eq_zero (fun k _ => by
            split_ifs with hB
            · by_contra hne
              obtain ⟨j, hj, e⟩ := h2 k hne
              have := (hs j k e).2.1
              omega
            · rfl)
          rw [z1, z2, if_neg (by omega), if_pos hB0]
          ring
        · obtain ⟨a1, a2⟩ := h3 i (by omega)
          rw [if_neg (c := B k0 = (i : Int)) (by omega)]
          refine ⟨fun h => ?_, fun h => by rw [a2 h]; simp⟩
          have := a1 h
          rw [add_zero, ← this]
          ring

end Fibermat
