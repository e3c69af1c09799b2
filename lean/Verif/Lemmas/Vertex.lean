import Verif.Lemmas.Loads

/-! # Lemmas on extreme systems of forces -/

set_option linter.unusedSectionVars false

namespace Fibermat
open Spec
variable {K : Type} [Field K] [LinearOrder K] [IsStrictOrderedRing K]

/-- Sum of the forces with a label. -/
def at' (r : ℕ) (lab : ℕ → Int) (F : ℕ → K) (i : ℕ) : K := ∑ k ∈ Finset.range r, if lab k = (i : Int) then F k else 0

/-- Forces `F` and reactions `N` in balance with the weights; `T`: contacts that touch, `L`: fibers on the floor. -/
structure Bal (r n : ℕ) (A B : ℕ → Int) (T L : ℕ → Prop) (w F N : ℕ → K) : Prop where
  push : ∀ k, k < r → 0 ≤ F k
  touch : ∀ k, k < r → F k ≠ 0 → T k
  floor : ∀ i, i < n → 0 ≤ N i
  lies : ∀ i, i < n → N i ≠ 0 → L i
  balance : ∀ i, i < n → w i + at' r A F i = at' r B F i + N i

/-- Contacts of a pile: lower label first, positive weights, a fiber on the floor touches nothing below. -/
structure Pile (r n : ℕ) (A B : ℕ → Int) (T L : ℕ → Prop) (w : ℕ → K) : Prop where
  labels : ∀ k, k < r → 0 ≤ A k ∧ A k < B k ∧ B k < (n : Int)
  weight : ∀ i, i < n → 0 < w i
  low : ∀ k i, k < r → T k → B k = ((i : ℕ) : Int) → ¬ L i

theorem at_add (r : ℕ) (lab : ℕ → Int) (F G : ℕ → K) (i : ℕ) : at' r lab (fun k => F k + G k) i = at' r lab F i + at' r lab G i := by
  unfold at'
  rw [← Finset.sum_add_distrib]
  exact Finset.sum_congr rfl (fun k _ => by split_ifs <;> simp)

theorem at_mul (r : ℕ) (lab : ℕ → Int) (c : K) (F : ℕ → K) (i : ℕ) : at' r lab (fun k => c * F k) i = c * at' r lab F i := by
  unfold at'
  rw [Finset.mul_sum]
  exact Finset.sum_congr rfl (fun k _ => by split_ifs <;> simp)

theorem at_single {r : ℕ} (lab : ℕ → Int) {k0 : ℕ} (hk : k0 < r) (i : ℕ) :
    at' r lab (fun k => if k = k0 then (1 : K) else 0) i = if lab k0 = (i : Int) then 1 else 0 := by
  unfold at'
  rw [Finset.sum_eq_single k0]
  · simp
  · intro k _ hne; simp [hne]
  · intro h; exact absurd (Finset.mem_range.2 hk) h

theorem at_nonneg {r : ℕ} {lab : ℕ → Int} {F : ℕ → K} (h : ∀ k, k < r → 0 ≤ F k) (i : ℕ) : 0 ≤ at' r lab F i :=
  Finset.sum_nonneg (fun k hk => by split_ifs <;> [exact h k (Finset.mem_range.1 hk); exact le_rfl])

theorem at_pos {r : ℕ} {lab : ℕ → Int} {F : ℕ → K} {i : ℕ} (h : 0 < at' r lab F i) : ∃ k, k < r ∧ lab k = (i : Int) ∧ F k ≠ 0 := by
  by_contra hc
  push Not at hc
  have : at' r lab F i = 0 := Finset.sum_eq_zero (fun k hk => by
    split_ifs with hl
    · exact hc k (Finset.mem_range.1 hk) hl
    · rfl)
  exact absurd this h.ne'

theorem at_zero {r : ℕ} {lab : ℕ → Int} {F : ℕ → K} {i : ℕ} (h : ∀ k, k < r → lab k = (i : Int) → F k = 0) : at' r lab F i = 0 :=
  Finset.sum_eq_zero (fun k hk => by
    split_ifs with hl
    · exact h k (Finset.mem_range.1 hk) hl
    · rfl)

theorem at_one {r : ℕ} {lab : ℕ → Int} {F : ℕ → K} {i k0 : ℕ} (hk : k0 < r) (hl : lab k0 = (i : Int))
    (h : ∀ k, k < r → lab k = (i : Int) → k ≠ k0 → F k = 0) : at' r lab F i = F k0 := by
  unfold at'
  rw [Finset.sum_eq_single k0]
  · simp [hl]
  · intro k hk' hne
    split_ifs with hl'
    · exact h k (Finset.mem_range.1 hk') hl' hne
    · rfl
  · intro h; exact absurd (Finset.mem_range.2 hk) h

section
variable {r n : ℕ} {A B : ℕ → Int} {T L : ℕ → Prop} {w F N : ℕ → K}

/-- A fiber above the floor is held by a loaded contact. -/
theorem bal_held (hp : Pile r n A B T L w) (h : Bal r n A B T L w F N) {i : ℕ} (hi : i < n) (hL : ¬ L i) :
    ∃ k, k < r ∧ B k = (i : Int) ∧ F k ≠ 0 := by
  apply at_pos
  have h0 : N i = 0 := by by_contra hc; exact hL (h.lies i hi hc)
  have := h.balance i hi
  have := hp.weight i hi
  have := at_nonneg (lab := A) h.push i
  linarith

theorem bal_low (hp : Pile r n A B T L w) (h : Bal r n A B T L w F N) {i : ℕ} (hL : L i) {k : ℕ} (hk : k < r)
    (hB : B k = (i : Int)) : F k = 0 := by
  by_contra hc
  exact hp.low k i hk (h.touch k hk hc) hB hL

theorem bal_floor (hp : Pile r n A B T L w) (h : Bal r n A B T L w F N) {i : ℕ} (hi : i < n) (hL : L i) : 0 < N i := by
  have h1 : at' r B F i = 0 := at_zero (fun k hk hB => bal_low hp h hL hk hB)
  have := h.balance i hi
  have := hp.weight i hi
  have := at_nonneg (lab := A) h.push i
  linarith

/-- A unit force going down from fiber `j` to the floor through loaded contacts. -/
theorem chain_down (hp : Pile r n A B T L w) (h : Bal r n A B T L w F N) (j : ℕ) : j < n →
    ∃ φ : ℕ → K, (∀ k, φ k ≠ 0 → k < r ∧ F k ≠ 0 ∧ B k ≤ (j : Int)) ∧
      ∀ i, i < n → ¬ L i → at' r B φ i - at' r A φ i = if i = j then 1 else 0 := by
  classical
  induction j using Nat.strong_induction_on with
  | _ j ih =>
    intro hj
    by_cases hL : L j
    · refine ⟨fun _ => 0, fun k hk => absurd rfl hk, fun i _ hLi => ?_⟩
      rw [if_neg (by rintro rfl; exact hLi hL), at_zero (fun _ _ _ => rfl), at_zero (fun _ _ _ => rfl), sub_zero]
    · obtain ⟨k0, hk0, hB, hF⟩ := bal_held hp h hj hL
      obtain ⟨hA0, hAB, -⟩ := hp.labels k0 hk0
      obtain ⟨ψ, h1, h2⟩ := ih (A k0).toNat (by omega) (by omega)
      refine ⟨fun k => ψ k + if k = k0 then 1 else 0, ?_, ?_⟩
      · intro k hk
        by_cases e : k = k0
        · subst e; exact ⟨hk0, hF, by omega⟩
        · simp only [e, if_false, add_zero] at hk
          obtain ⟨a, b, c⟩ := h1 k hk
          exact ⟨a, b, by omega⟩
      · intro i hi hLi
        rw [at_add, at_add, at_single B hk0, at_single A hk0]
        have := h2 i hi hLi
        have e1 : (B k0 = (i : Int)) ↔ i = j := by omega
        have e2 : (A k0 = (i : Int)) ↔ i = (A k0).toNat := by omega
        simp only [e1, e2]
        linarith

theorem small_step (r : ℕ) (c e : ℕ → K) : ∃ ε : K, 0 < ε ∧ ∀ k, k < r → 0 < c k → ε * |e k| ≤ c k := by
  induction r with
  | zero => exact ⟨1, one_pos, by omega⟩
  | succ r ih =>
    obtain ⟨ε, h0, h⟩ := ih
    by_cases hc : 0 < c r
    · have hd : 0 < |e r| + 1 := by positivity
      refine ⟨min ε (c r / (|e r| + 1)), lt_min h0 (by positivity), ?_⟩
      intro k hk hck
      rcases Nat.lt_succ_iff_lt_or_eq.1 hk with hk | rfl
      · exact (mul_le_mul_of_nonneg_right (min_le_left _ _) (abs_nonneg _)).trans (h k hk hck)
      · refine (mul_le_mul_of_nonneg_right (min_le_right _ _) (abs_nonneg _)).trans ?_
        rw [div_mul_eq_mul_div, div_le_iff₀ hd]
        nlinarith [abs_nonneg (e k)]
    · refine ⟨ε, h0, ?_⟩
      intro k hk hck
      rcases Nat.lt_succ_iff_lt_or_eq.1 hk with hk | rfl
      · exact h k hk hck
      · exact absurd hck hc

/-- When a fiber rests on two loaded contacts the forces can be shifted both ways. -/
theorem bal_shift (hp : Pile r n A B T L w) (h : Bal r n A B T L w F N) {k1 k2 : ℕ} (hk1 : k1 < r) (hk2 : k2 < r) (hne : k1 ≠ k2)
    (hB : B k1 = B k2) (hF1 : F k1 ≠ 0) (hF2 : F k2 ≠ 0) :
    ∃ (D : ℕ → K) (N1 N2 : ℕ → K), D k1 ≠ 0 ∧ Bal r n A B T L w (fun k => F k + D k) N1 ∧ Bal r n A B T L w (fun k => F k - D k) N2 := by
  classical
  obtain ⟨a1, b1, c1⟩ := hp.labels k1 hk1
  obtain ⟨a2, b2, c2⟩ := hp.labels k2 hk2
  obtain ⟨φ1, f1, g1⟩ := chain_down hp h (A k1).toNat (by omega)
  obtain ⟨φ2, f2, g2⟩ := chain_down hp h (A k2).toNat (by omega)
  let D : ℕ → K := fun k => (φ1 k + if k = k1 then 1 else 0) + -1 * (φ2 k + if k = k2 then 1 else 0)
  have hD1 : D k1 = 1 := by
    have e1 : φ1 k1 = 0 := by by_contra hc; have := (f1 k1 hc).2.2; omega
    have e2 : φ2 k1 = 0 := by by_contra hc; have := (f2 k1 hc).2.2; omega
    simp [D, e1, e2, hne]
  have hDs : ∀ k, D k ≠ 0 → k < r ∧ F k ≠ 0 := by
    intro k hk
    by_contra hc
    apply hk
    have e1 : φ1 k = 0 := by by_contra hc'; exact hc ⟨(f1 k hc').1, (f1 k hc').2.1⟩
    have e2 : φ2 k = 0 := by by_contra hc'; exact hc ⟨(f2 k hc').1, (f2 k hc').2.1⟩
    have e3 : k ≠ k1 := by rintro rfl; exact hc ⟨hk1, hF1⟩
    have e4 : k ≠ k2 := by rintro rfl; exact hc ⟨hk2, hF2⟩
    simp [D, e1, e2, e3, e4]
  have hnet : ∀ i, i < n → ¬ L i → at' r B D i - at' r A D i = 0 := by
    intro i hi hL
    have p1 := g1 i hi hL
    have p2 := g2 i hi hL
    simp only [D]
    simp only [at_add, at_mul, at_single _ hk1, at_single _ hk2]
    have q1 : (A k1 = (i : Int)) ↔ i = (A k1).toNat := by omega
    have q2 : (A k2 = (i : Int)) ↔ i = (A k2).toNat := by omega
    simp only [q1, q2, hB]
    linarith
  obtain ⟨ε1, he1, hs1⟩ := small_step r F D
  obtain ⟨ε2, he2, hs2⟩ := small_step n N (fun i => at' r A D i - at' r B D i)
  have key : ∀ ε : K, |ε| ≤ ε1 → |ε| ≤ ε2 → Bal r n A B T L w (fun k => F k + ε * D k) (fun i => N i + ε * (at' r A D i - at' r B D i)) := by
    intro ε h1 h2
    refine ⟨?_, ?_, ?_, ?_, ?_⟩
    · intro k hk
      by_cases hd : D k = 0
      · simp only [hd, mul_zero, add_zero]; exact h.push k hk
      · have hpos : 0 < F k := lt_of_le_of_ne (h.push k hk) (Ne.symm (hDs k hd).2)
        have := hs1 k hk hpos
        have h3 : |ε * D k| ≤ F k := by rw [abs_mul]; exact (mul_le_mul_of_nonneg_right h1 (abs_nonneg _)).trans this
        linarith [(abs_le.1 h3).1]
    · intro k hk hne
      by_cases hd : D k = 0
      · simp only [hd, mul_zero, add_zero] at hne; exact h.touch k hk hne
      · exact h.touch k hk (hDs k hd).2
    · intro i hi
      by_cases hL : L i
      · have := hs2 i hi (bal_floor hp h hi hL)
        have h3 : |ε * (at' r A D i - at' r B D i)| ≤ N i := by
          rw [abs_mul]; exact (mul_le_mul_of_nonneg_right h2 (abs_nonneg _)).trans this
        linarith [(abs_le.1 h3).1]
      · have := hnet i hi hL
        rw [show at' r A D i - at' r B D i = 0 by linarith, mul_zero, add_zero]
        exact h.floor i hi
    · intro i hi hne
      by_contra hL
      apply hne
      have := hnet i hi hL
      rw [show at' r A D i - at' r B D i = 0 by linarith, mul_zero, add_zero]
      by_contra hc
      exact hL (h.lies i hi hc)
    · intro i hi
      rw [at_add, at_add, at_mul, at_mul]
      have := h.balance i hi
      linarith
  have hmin : 0 < min ε1 ε2 := lt_min he1 he2
  have k1' := key (min ε1 ε2) (by rw [abs_of_pos hmin]; exact min_le_left _ _) (by rw [abs_of_pos hmin]; exact min_le_right _ _)
  have k2' := key (-min ε1 ε2) (by rw [abs_neg, abs_of_pos hmin]; exact min_le_left _ _)
    (by rw [abs_neg, abs_of_pos hmin]; exact min_le_right _ _)
  refine ⟨fun k => min ε1 ε2 * D k, _, fun i => N i + -min ε1 ε2 * (at' r A D i - at' r B D i), ?_, k1', ?_⟩
  · simp only [hD1, mul_one]; exact hmin.ne'
  · simpa [sub_eq_add_neg] using k2'

/-- Two systems of forces carried by the same contacts, one for each fiber, are equal. -/
theorem bal_unique (hp : Pile r n A B T L w) {F1 F2 N1 N2 : ℕ → K} (h1 : Bal r n A B T L w F1 N1) (h2 : Bal r n A B T L w F2 N2)
    {C : ℕ → Prop} (hC1 : ∀ k, k < r → F1 k ≠ 0 → C k) (hC2 : ∀ k, k < r → F2 k ≠ 0 → C k)
    (hone : ∀ k k', k < r → k' < r → C k → C k' → B k = B k' → k = k') : ∀ k, k < r → F1 k = F2 k := by
  have main : ∀ t k, k < r → (n : Int) - B k ≤ (t : ℕ) → F1 k = F2 k := by
    intro t
    induction t with
    | zero => intro k hk hb; have := (hp.labels k hk).2.2; omega
    | succ t ih =>
      intro k hk hb
      obtain ⟨a0, ab, bn⟩ := hp.labels k hk
      by_cases hc : C k
      · have hi : (B k).toNat < n := by omega
        have hBi : B k = (((B k).toNat : ℕ) : Int) := by omega
        by_cases hL : L (B k).toNat
        · rw [bal_low hp h1 hL hk hBi, bal_low hp h2 hL hk hBi]
        · have z1 : N1 (B k).toNat = 0 := by by_contra hc; exact hL (h1.lies _ hi hc)
          have z2 : N2 (B k).toNat = 0 := by by_contra hc; exact hL (h2.lies _ hi hc)
          have e1 := h1.balance _ hi
          have e2 := h2.balance _ hi
          rw [z1, at_one (lab := B) hk hBi (fun k' hk' hl hne => by
            by_contra hcc; exact hne (hone k' k hk' hk (hC1 k' hk' hcc) hc (by rw [hl, ← hBi])))] at e1
          rw [z2, at_one (lab := B) hk hBi (fun k' hk' hl hne => by
            by_contra hcc; exact hne (hone k' k hk' hk (hC2 k' hk' hcc) hc (by rw [hl, ← hBi])))] at e2
          have ea : at' r A F1 (B k).toNat = at' r A F2 (B k).toNat := by
            refine Finset.sum_congr rfl (fun k' hk' => ?_)
            split_ifs with hl
            · have hk'' := Finset.mem_range.1 hk'
              have := hp.labels k' hk''
              exact ih k' hk'' (by omega)
            · rfl
          linarith
      · have z1 : F1 k = 0 := by by_contra hcc; exact hc (hC1 k hk hcc)
        have z2 : F2 k = 0 := by by_contra hcc; exact hc (hC2 k hk hcc)
        rw [z1, z2]
  intro k hk
  have := hp.labels k hk
  exact main n k hk (by omega)

end
end Fibermat
