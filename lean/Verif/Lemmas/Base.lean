import Verif.Model.Base
import Mathlib.Data.List.Dedup
import Mathlib.Tactic.Ring
import Mathlib.Tactic.Linarith
import Mathlib.Tactic.LinearCombination
import Mathlib.Tactic.NormNum
import Mathlib.Tactic.Positivity
import Mathlib.Tactic.FieldSimp

/-! Helper lemmas on the base vocabulary. -/

namespace Fibermat

theorem arange_length (n : Nat) : (arange n).length = n := by simp [arange]

theorem arange_getElem (n i : Nat) (h : i < (arange n).length) : (arange n)[i] = (i : Int) := by
  simp [arange]

theorem arange_pairwise_lt (n : Nat) : (arange n).Pairwise (· < ·) := by
  unfold arange
  rw [List.pairwise_map]
  exact List.pairwise_lt_range.imp (fun h => by simpa using h)

theorem npUnique_pairwise (l : List Int) : (npUnique l).Pairwise (· < ·) := by
  have h1 : (npUnique l).Pairwise (· ≤ ·) := List.pairwise_insertionSort _ _
  have h2 : (npUnique l).Nodup := (List.perm_insertionSort _ _).nodup_iff.2 (List.nodup_dedup _)
  exact (h1.and h2).imp (fun h => lt_of_le_of_ne h.1 h.2)

theorem mem_npUnique {l : List Int} {a : Int} : a ∈ npUnique l ↔ a ∈ l := by
  simp [npUnique]

/-- A strictly increasing list is its own `np.unique`. -/
theorem npUnique_of_pairwise {l : List Int} (h : l.Pairwise (· < ·)) : npUnique l = l := by
  unfold npUnique
  rw [List.Nodup.dedup (h.imp (fun h => ne_of_lt h))]
  exact List.Pairwise.insertionSort_eq (h.imp (fun h => le_of_lt h))

theorem npUnique_arange (n : Nat) : npUnique (arange n) = arange n :=
  npUnique_of_pairwise (arange_pairwise_lt n)

theorem eq_arange_iff (l : List Int) :
    l = arange l.length ↔ ∀ i (h : i < l.length), l[i] = (i : Int) := by
  constructor
  · intro h i hi
    have : l[i]? = (arange l.length)[i]? := by rw [← h]
    simpa [arange, hi] using this
  · intro h
    apply List.ext_getElem
    · simp [arange]
    · intro i h1 h2
      rw [h i h1, arange_getElem]

theorem zipIdx_fst_map {α : Type} (l : List α) :
    (l.zipIdx.map (fun p => ((p.2 : Nat) : Int))) = arange l.length := by
  have : l.zipIdx.map (fun p => ((p.2 : Nat) : Int)) = (l.zipIdx.map Prod.snd).map Int.ofNat := by
    rw [List.map_map]; rfl
  rw [this, List.zipIdx_map_snd, arange, List.range_eq_range']

theorem zipIdx_map_fst' {α : Type} (l : List α) (n : Nat) : (l.zipIdx n).map Prod.fst = l := by
  simp

/-! ### `dropDup` -/

variable {α β : Type} [DecidableEq β]

theorem dropDupAux_sublist (key : α → β) (seen : List β) (l : List α) :
    (dropDupAux key seen l).Sublist l := by
  induction l generalizing seen with
  | nil => simp [dropDupAux]
  | cons a l ih =>
    simp only [dropDupAux]
    split
    · exact (ih seen).trans (List.sublist_cons_self a l)
    · exact (ih _).cons_cons a

theorem dropDup_sublist (key : α → β) (l : List α) : (dropDup key l).Sublist l :=
  dropDupAux_sublist key [] l

theorem dropDupAux_not_seen (key : α → β) (seen : List β) (l : List α) :
    ∀ a ∈ dropDupAux key seen l, key a ∉ seen := by
  induction l generalizing seen with
  | nil => simp [dropDupAux]
  | cons a l ih =>
    simp only [dropDupAux]
    split
    · exact ih seen
    · rename_i h
      intro b hb
      rcases List.mem_cons.1 hb with rfl | hb
      · exact h
      · have := ih _ b hb
        intro hs
        exact this (List.mem_cons_of_mem _ hs)

theorem dropDupAux_keys_nodup (key : α → β) (seen : List β) (l : List α) :
    ((dropDupAux key seen l).map key).Nodup := by
  induction l generalizing seen with
  | nil => simp [dropDupAux]
  | cons a l ih =>
    simp only [dropDupAux]
    split
    · exact ih seen
    · rw [List.map_cons, List.nodup_cons]
      refine ⟨?_, ih _⟩
      intro hm
      obtain ⟨b, hb, hk⟩ := List.mem_map.1 hm
      have := dropDupAux_not_seen key _ l b hb
      rw [hk] at this
      exact this (List.mem_cons_self ..)

theorem dropDup_keys_nodup (key : α → β) (l : List α) : ((dropDup key l).map key).Nodup :=
  dropDupAux_keys_nodup key [] l

theorem dropDupAux_of_nodup (key : α → β) (seen : List β) (l : List α)
    (h : (l.map key).Nodup) (hs : ∀ a ∈ l, key a ∉ seen) : dropDupAux key seen l = l := by
  induction l generalizing seen with
  | nil => simp [dropDupAux]
  | cons a l ih =>
    rw [List.map_cons, List.nodup_cons] at h
    simp only [dropDupAux]
    rw [if_neg (hs a (List.mem_cons_self ..))]
    congr 1
    apply ih _ h.2
    intro b hb hk
    rcases List.mem_cons.1 hk with hk | hk
    · exact h.1 (hk ▸ List.mem_map_of_mem hb)
    · exact hs b (List.mem_cons_of_mem _ hb) hk

theorem dropDup_of_nodup (key : α → β) (l : List α) (h : (l.map key).Nodup) :
    dropDup key l = l := dropDupAux_of_nodup key [] l h (by simp)

/-- `len(l) == len(l.drop_duplicates())` iff the keys are pairwise distinct. -/
theorem dropDup_length_eq (key : α → β) (l : List α) :
    l.length = (dropDup key l).length ↔ (l.map key).Nodup := by
  constructor
  · intro h
    have := (dropDup_sublist key l).eq_of_length h.symm
    rw [← this]
    exact dropDup_keys_nodup key l
  · intro h
    rw [dropDup_of_nodup key l h]

/-- Every key that occurs survives. -/
theorem dropDupAux_mem_key (key : α → β) (seen : List β) (l : List α) (a : α) (ha : a ∈ l)
    (hs : key a ∉ seen) : ∃ b ∈ dropDupAux key seen l, key b = key a := by
  induction l generalizing seen with
  | nil => simp at ha
  | cons c l ih =>
    simp only [dropDupAux]
    by_cases hc : key c ∈ seen
    · rw [if_pos hc]
      rcases List.mem_cons.1 ha with rfl | ha
      · exact absurd hc hs
      · exact ih seen ha hs
    · rw [if_neg hc]
      by_cases hk : key c = key a
      · exact ⟨c, List.mem_cons_self .., hk⟩
      · rcases List.mem_cons.1 ha with rfl | ha
        · exact absurd rfl hk
        · obtain ⟨b, hb, hbk⟩ := ih (key c :: seen) ha (by
            intro h
            rcases List.mem_cons.1 h with h | h
            · exact hk h.symm
            · exact hs h)
          exact ⟨b, List.mem_cons_of_mem _ hb, hbk⟩

theorem dropDup_mem_key (key : α → β) (l : List α) (a : α) (ha : a ∈ l) :
    ∃ b ∈ dropDup key l, key b = key a := dropDupAux_mem_key key [] l a ha (by simp)

end Fibermat
