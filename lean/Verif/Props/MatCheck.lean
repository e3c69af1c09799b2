import Verif.Lemmas.Mat
import Mathlib.Analysis.Real.Sqrt

/-! # C01, C02: `Mat.check` -/

namespace Fibermat
open Spec
variable {K : Type} [Field K] [LinearOrder K]

theorem skip_iff {K : Type} (a : Attrs K) : a.skip = true ↔ Spec.Skipped a := by
  obtain ⟨n, s, p, c⟩ := a
  cases c with
  | none => simp [Attrs.skip, Spec.Skipped]
  | some b => cases b <;> simp [Attrs.skip, Spec.Skipped]

/-- `Mat.check` written as one decision: each branch with its condition in terms of the spec. -/
theorem matCheck_cases [IsStrictOrderedRing K] (f : MatFrame K) :
    (Skipped f.attrs ∧ matCheck f = .ok ()) ∨
    (¬ Skipped f.attrs ∧ ¬ HasColumns matCols f.columns ∧ matCheck f = .error .keyError) ∨
    (¬ Skipped f.attrs ∧ HasColumns matCols f.columns ∧
      (f.attrs.n = none ∨ f.attrs.size = none) ∧ matCheck f = .error .attributeError) ∨
    (¬ Skipped f.attrs ∧ HasColumns matCols f.columns ∧ ∃ n S, f.attrs.n = some n ∧ f.attrs.size = some S ∧
      ((n ≠ f.rows.length ∧ matCheck f = .error .valueError) ∨
       (n = f.rows.length ∧ ¬ LabelsInOrder f.rows ∧ matCheck f = .error .indexError) ∨
       (n = f.rows.length ∧ LabelsInOrder f.rows ∧ ¬ (∀ r ∈ f.rows, GoodMatRow S r.2) ∧
          matCheck f = .error .valueError) ∨
       (n = f.rows.length ∧ LabelsInOrder f.rows ∧ (∀ r ∈ f.rows, GoodMatRow S r.2) ∧
          matCheck f = .ok ()))) := by
  by_cases hs : Skipped f.attrs
  · left
    exact ⟨hs, by simp [matCheck, (skip_iff _).2 hs]⟩
  have hs' : f.attrs.skip = false := by
    rw [← Bool.not_eq_true]; exact fun h => hs ((skip_iff _).1 h)
  right
  by_cases hc : HasColumns matCols f.columns
  swap
  · left
    refine ⟨hs, hc, ?_⟩
    have : matColumns.all (· ∈ f.columns) = false := by
      rw [← Bool.not_eq_true]; exact fun h => hc (by simpa [HasColumns, matColumns, matCols] using h)
    simp [matCheck, hs', this]
  have hc' : matColumns.all (· ∈ f.columns) = true := by simpa [HasColumns, matColumns, matCols] using hc
  right
  rcases hn : f.attrs.n with _ | n
  · left
    exact ⟨hs, hc, Or.inl rfl, by simp [matCheck, hs', hc', hn]⟩
  rcases hS : f.attrs.size with _ | S
  · left
    exact ⟨hs, hc, Or.inr rfl, by simp [matCheck, hs', hc', hn, hS]⟩
  right
  refine ⟨hs, hc, n, S, rfl, rfl, ?_⟩
  by_cases h1 : (f.rows.length : Int) = n
  swap
  · left
    exact ⟨fun h => h1 h.symm, by simp [matCheck, hs', hc', hn, hS, h1]⟩
  right
  by_cases h2 : LabelsInOrder f.rows
  swap
  · left
    refine ⟨h1.symm, h2, ?_⟩
    have h3 : f.rows.map Prod.fst ≠ arange f.rows.length := fun h => h2 ((labels_iff _).1 h)
    simp [matCheck, hs', hc', hn, hS, h1, h3]
  right
  have h3 : f.rows.map Prod.fst = arange f.rows.length := (labels_iff _).2 h2
  have key := goodRows_iff S f.rows
  have hm : matCheck f = if !(f.rows.map Prod.snd).all dimsOk then .error .valueError
      else if !(f.rows.map Prod.snd).all (boxOk S) then .error .valueError
      else if !(f.rows.map Prod.snd).all normOk then .error .valueError
      else if !(f.rows.map Prod.snd).all moduliOk then .error .valueError else .ok () := by
    simp [matCheck, hs', hc', hn, hS, h1, h3, arange_length, npUnique_arange]
  by_cases h5 : ∀ r ∈ f.rows, GoodMatRow S r.2
  · right
    refine ⟨h1.symm, h2, h5, ?_⟩
    obtain ⟨⟨a, b⟩, c, d⟩ := key.2 h5
    rw [hm, a, b, c, d]; rfl
  · left
    refine ⟨h1.symm, h2, h5, ?_⟩
    rw [hm]
    by_contra hcon
    apply h5
    apply key.1
    revert hcon
    cases (f.rows.map Prod.snd).all dimsOk <;> cases (f.rows.map Prod.snd).all (boxOk S) <;>
      cases (f.rows.map Prod.snd).all normOk <;> cases (f.rows.map Prod.snd).all moduliOk <;> simp

/-- **C01.** `Mat.check` returns True exactly on frames flagged `skip_check` and on valid frames. -/
theorem C01_matCheck_iff [IsStrictOrderedRing K] (f : MatFrame K) :
    matCheck f = .ok () ↔ Skipped f.attrs ∨ ValidMat f := by
  rcases matCheck_cases f with h | h | h | ⟨hs, hc, n, S, hn, hS, h⟩
  · simp [h]
  · constructor
    · intro h'; rw [h.2.2] at h'; cases h'
    · rintro (h' | h')
      · exact absurd h' h.1
      · exact absurd h'.columns h.2.1
  · constructor
    · intro h'; rw [h.2.2.2] at h'; cases h'
    · rintro (h' | h')
      · exact absurd h' h.1
      · obtain ⟨S, hS, _⟩ := h'.size
        have hn := h'.n
        rcases h.2.2.1 with h0 | h0 <;> simp_all
  · constructor
    · intro h'
      rcases h with h | h | h | h
      · rw [h.2] at h'; cases h'
      · rw [h.2.2] at h'; cases h'
      · rw [h.2.2.2] at h'; cases h'
      · exact Or.inr ⟨hc, by rw [hn, h.1], h.2.1, S, hS, h.2.2.1⟩
    · rintro (h' | h')
      · exact absurd h' hs
      · have hn' := h'.n
        obtain ⟨S', hS', hr⟩ := h'.size
        have e1 : n = f.rows.length := by rw [hn] at hn'; exact Option.some.inj hn'
        have e2 : S = S' := by rw [hS] at hS'; exact Option.some.inj hS'
        subst e2
        rcases h with h | h | h | h
        · exact absurd e1 h.1
        · exact absurd h'.labels h.2.1
        · exact absurd hr h.2.2.1
        · exact h.2.2.2

/-- **C01** (consequence). A NaN in any of the columns other than `z` is rejected. -/
theorem C01_nan_rejected [IsStrictOrderedRing K] (f : MatFrame K) (hs : ¬ Skipped f.attrs)
    (p : Int × MatRow (Cell K)) (hp : p ∈ f.rows)
    (hnan : p.2.l = .nan ∨ p.2.b = .nan ∨ p.2.h = .nan ∨ p.2.x = .nan ∨ p.2.y = .nan ∨ p.2.u = .nan ∨
      p.2.v = .nan ∨ p.2.w = .nan ∨ p.2.G = .nan ∨ p.2.E = .nan) :
    matCheck f ≠ .ok () := by
  rw [Ne, C01_matCheck_iff]
  rintro (h | h)
  · exact hs h
  obtain ⟨S, _, hr⟩ := h.size
  have g := hr p hp
  have hP : ¬ Positive (Cell.nan : Cell K) := by simp [Positive]
  have hB : ∀ lo hi : K, ¬ Between lo hi (Cell.nan : Cell K) := by simp [Between]
  rcases hnan with h | h | h | h | h | h | h | h | h | h
  · exact hP (h ▸ g.l)
  · exact hP (h ▸ g.b)
  · exact hP (h ▸ g.h)
  · exact hB _ _ (h ▸ g.x)
  · exact hB _ _ (h ▸ g.y)
  · obtain ⟨a, b, c, h1, _⟩ := g.dir; rw [h] at h1; cases h1
  · obtain ⟨a, b, c, _, h1, _⟩ := g.dir; rw [h] at h1; cases h1
  · obtain ⟨a, b, c, _, _, h1, _⟩ := g.dir; rw [h] at h1; cases h1
  · exact hP (h ▸ g.G)
  · exact hP (h ▸ g.E)

/-- The orientation condition read over the reals: the Euclidean length differs from 1 by at most `1e-5 + 1e-8`
(`np.allclose(norm, 1)`). -/
theorem C01_unit_iff_sqrt (u v w : ℝ) :
    UnitUpTo (1 / 10 ^ 5 + 1 / 10 ^ 8) (.fin u) (.fin v) (.fin w) ↔
      |Real.sqrt (u ^ 2 + v ^ 2 + w ^ 2) - 1| ≤ 1 / 10 ^ 5 + 1 / 10 ^ 8 := by
  have hs : 0 ≤ u ^ 2 + v ^ 2 + w ^ 2 := by positivity
  simp only [UnitUpTo, Cell.fin.injEq, exists_and_left, exists_eq_left']
  rw [abs_le, ← Real.sqrt_le_left (by norm_num),
    ← Real.le_sqrt' (x := 1 - (1 / 10 ^ 5 + 1 / 10 ^ 8)) (by norm_num)]
  constructor
  · rintro ⟨h1, h2⟩
    exact ⟨by linarith, by linarith⟩
  · rintro ⟨h1, h2⟩
    exact ⟨by linarith, by linarith⟩

/-- **C02.** KeyError exactly when a column is missing (and the flag is not set). -/
theorem C02_keyError_iff [IsStrictOrderedRing K] (f : MatFrame K) :
    matCheck f = .error .keyError ↔ ¬ Skipped f.attrs ∧ ∃ c ∈ matCols, c ∉ f.columns := by
  have hneg : (∃ c ∈ matCols, c ∉ f.columns) ↔ ¬ HasColumns matCols f.columns := by
    simp [HasColumns]
  rw [hneg]
  rcases matCheck_cases f with h | h | h | ⟨hs, hc, n, S, hn, hS, h | h | h | h⟩ <;> simp_all

/-- **C02.** AttributeError exactly when all columns exist and `n` or `size` is missing. -/
theorem C02_attributeError_iff [IsStrictOrderedRing K] (f : MatFrame K) :
    matCheck f = .error .attributeError ↔
      ¬ Skipped f.attrs ∧ HasColumns matCols f.columns ∧ (f.attrs.n = none ∨ f.attrs.size = none) := by
  rcases matCheck_cases f with h | h | h | ⟨hs, hc, n, S, hn, hS, h | h | h | h⟩ <;> simp_all

/-- **C02.** IndexError exactly when columns, attributes and `n` are right and the labels are not `0..n-1` in order. -/
theorem C02_indexError_iff [IsStrictOrderedRing K] (f : MatFrame K) :
    matCheck f = .error .indexError ↔
      ¬ Skipped f.attrs ∧ HasColumns matCols f.columns ∧ f.attrs.n = some (f.rows.length : Int) ∧
      f.attrs.size ≠ none ∧ ¬ LabelsInOrder f.rows := by
  rcases matCheck_cases f with h | h | h | ⟨hs, hc, n, S, hn, hS, h | h | h | h⟩
  · simp_all
  · simp_all
  · obtain ⟨h1, h2, h3 | h3, h4⟩ := h <;> simp_all
  all_goals simp_all

/-- **C02.** ValueError exactly when columns and attributes exist and either `n` is not the number of rows, or the labels are right
but some row has bad data. -/
theorem C02_valueError_iff [IsStrictOrderedRing K] (f : MatFrame K) :
    matCheck f = .error .valueError ↔
      ¬ Skipped f.attrs ∧ HasColumns matCols f.columns ∧ ∃ n S, f.attrs.n = some n ∧ f.attrs.size = some S ∧
      (n ≠ f.rows.length ∨ (LabelsInOrder f.rows ∧ ∃ r ∈ f.rows, ¬ GoodMatRow S r.2)) := by
  rcases matCheck_cases f with h | h | h | ⟨hs, hc, n, S, hn, hS, h | h | h | h⟩
  · simp_all
  · simp_all
  · obtain ⟨h1, h2, h3 | h3, h4⟩ := h <;> simp_all
  · simp_all
  · simp_all
  · have := h.2.2.1
    push Not at this
    obtain ⟨r, hr, hb⟩ := this
    constructor
    · intro _; exact ⟨hs, hc, n, S, hn, hS, Or.inr ⟨h.2.1, r, hr, hb⟩⟩
    · intro _; exact h.2.2.2
  · have := h.2.2.1
    constructor
    · intro h'; rw [h.2.2.2] at h'; cases h'
    · rintro ⟨_, _, n', S', hn', hS', h0 | ⟨_, r, hr, hb⟩⟩
      · rw [hn] at hn'; cases hn'; exact absurd h.1 h0
      · rw [hS] at hS'; cases hS'; exact absurd (this r hr) hb

/-- **C02.** No other outcome exists. -/
theorem C02_outcomes [IsStrictOrderedRing K] (f : MatFrame K) :
    matCheck f = .ok () ∨ matCheck f = .error .keyError ∨ matCheck f = .error .attributeError ∨
      matCheck f = .error .indexError ∨ matCheck f = .error .valueError := by
  rcases matCheck_cases f with h | h | h | ⟨hs, hc, n, S, hn, hS, h | h | h | h⟩ <;> simp_all

/-- **C02.** A set flag silences every error. -/
theorem C02_skip (f : MatFrame K) (h : f.attrs.skipCheck = some true) : matCheck f = .ok () := by
  simp [matCheck, (skip_iff _).2 h]

/-! ### Concrete frames -/

/-- A valid frame of two fibers, one with infinite tensile modulus. -/
def goodFrame : MatFrame ℚ :=
  { columns := matColumns
    rows := [(0, ⟨.fin 2, .fin 1, .fin 1, .fin 0, .fin (-5), .nan, .fin 1, .fin 0, .fin 0, .fin 1, .pinf⟩),
             (1, ⟨.fin 3, .fin 1, .fin 2, .fin 1, .fin 2, .fin 7, .fin (3/5), .fin (4/5), .fin 0, .fin 1, .fin 2⟩)]
    attrs := { n := some 2, size := some 10 } }

example : matCheck goodFrame = .ok () := by decide +kernel
example : ¬ Skipped goodFrame.attrs := by simp [Skipped, goodFrame]
/-- one label wrong -/
example : matCheck { goodFrame with rows := goodFrame.rows.map (fun p => (p.1 + 1, p.2)) } =
    .error .indexError := by decide +kernel
/-- NaN thickness -/
example : matCheck { goodFrame with rows := goodFrame.rows.map (fun p => (p.1, { p.2 with h := .nan })) } =
    .error .valueError := by decide +kernel
example : matCheck { goodFrame with columns := ["l", "b"] } = .error .keyError := by decide +kernel
example : matCheck { goodFrame with attrs := { n := some 2 } } = .error .attributeError := by decide +kernel
example : matCheck { goodFrame with attrs := { n := some 3, size := some 10 } } = .error .valueError := by
  decide +kernel
/-- fiber out of the box -/
example : matCheck { goodFrame with attrs := { n := some 2, size := some 9 } } = .error .valueError := by
  decide +kernel

end Fibermat
