import Verif.Lemmas.Base
import Mathlib.Data.List.TakeWhile
import Verif.Model.Mesh

/-! `groupBy`, `rolled` on lists sorted by the group key. -/

namespace Fibermat
variable {α β : Type}

theorem npUnique_eq_of_mem {l : List Int} {l' : List Int} (h' : l'.Pairwise (· < ·))
    (h : ∀ a, a ∈ l ↔ a ∈ l') : npUnique l = l' := by
  refine List.Pairwise.eq_of_mem_iff (r := (· < ·)) (npUnique_pairwise l) h' ?_
  intro a; rw [mem_npUnique, h]

/-- Groups of `l1 ++ l2` when `l1` is a non-empty block of key `k` and `l2` has larger keys. -/
theorem groupBy_append (fiber : α → Int) (k : Int) (l1 l2 : List α) (hne : l1 ≠ [])
    (h1 : ∀ a ∈ l1, fiber a = k) (h2 : ∀ a ∈ l2, k < fiber a) :
    groupBy fiber (l1 ++ l2) = l1 :: groupBy fiber l2 := by
  have hu : npUnique ((l1 ++ l2).map fiber) = k :: npUnique (l2.map fiber) := by
    apply npUnique_eq_of_mem
    · rw [List.pairwise_cons]
      refine ⟨?_, npUnique_pairwise _⟩
      intro b hb
      rw [mem_npUnique, List.mem_map] at hb
      obtain ⟨c, hc, rfl⟩ := hb
      exact h2 c hc
    · intro a
      rw [List.mem_cons, mem_npUnique, List.map_append, List.mem_append]
      constructor
      · rintro (h | h)
        · obtain ⟨c, hc, rfl⟩ := List.mem_map.1 h
          exact Or.inl (h1 c hc)
        · exact Or.inr h
      · rintro (h | h)
        · left
          obtain ⟨c, hc⟩ := List.exists_mem_of_ne_nil l1 hne
          rw [h, ← h1 c hc]
          exact List.mem_map_of_mem hc
        · exact Or.inr h
  unfold groupBy
  rw [hu, List.map_cons]
  congr 1
  · rw [List.filter_append]
    have e1 : l1.filter (fun r => decide (fiber r = k)) = l1 := by
      rw [List.filter_eq_self]; intro a ha; simpa using h1 a ha
    have e2 : l2.filter (fun r => decide (fiber r = k)) = [] := by
      rw [List.filter_eq_nil_iff]; intro a ha; have := h2 a ha; simp; omega
    rw [e1, e2, List.append_nil]
  · apply List.map_congr_left
    intro f hf
    rw [mem_npUnique, List.mem_map] at hf
    obtain ⟨c, hc, rfl⟩ := hf
    have := h2 c hc
    rw [List.filter_append]
    have e1 : l1.filter (fun r => decide (fiber r = fiber c)) = [] := by
      rw [List.filter_eq_nil_iff]; intro a ha; have := h1 a ha; simp; omega
    rw [e1, List.nil_append]

theorem groupBy_nil (fiber : α → Int) : groupBy fiber ([] : List α) = [] := by
  simp [groupBy, npUnique]

/-- Induction over the blocks of a list sorted by key. -/
theorem sorted_block_induction (fiber : α → Int) {motive : List α → Prop} (nil : motive [])
    (step : ∀ k l1 l2, l1 ≠ [] → (∀ a ∈ l1, fiber a = k) → (∀ a ∈ l2, k < fiber a) →
      l2.Pairwise (fun a b => fiber a ≤ fiber b) → motive l2 → motive (l1 ++ l2)) :
    ∀ l : List α, l.Pairwise (fun a b => fiber a ≤ fiber b) → motive l := by
  intro l
  induction hn : l.length using Nat.strong_induction_on generalizing l with
  | _ n ih =>
    intro hl
    cases l with
    | nil => exact nil
    | cons a t =>
      have hsplit := List.takeWhile_append_dropWhile (p := fun b => decide (fiber b = fiber a)) (l := a :: t)
      have hdrop : (a :: t).dropWhile (fun b => decide (fiber b = fiber a)) = t.dropWhile (fun b => decide (fiber b = fiber a)) := by
        simp
      have hsuf : (t.dropWhile (fun b => decide (fiber b = fiber a))).Sublist t := List.dropWhile_sublist _
      have hs2 : (t.dropWhile (fun b => decide (fiber b = fiber a))).Pairwise (fun a b => fiber a ≤ fiber b) :=
        (List.pairwise_cons.1 hl).2.sublist hsuf
      rw [← hsplit, hdrop]
      apply step (fiber a)
      · simp
      · intro b hb; simpa using List.mem_takeWhile_imp hb
      · intro b hb
        -- the head of the rest has a different key, hence larger; all others are at least as large
        cases hd : t.dropWhile (fun b => decide (fiber b = fiber a)) with
        | nil => rw [hd] at hb; simp at hb
        | cons c r =>
          have hc : ¬ fiber c = fiber a := by
            have := List.head_dropWhile_not (fun b => decide (fiber b = fiber a)) (l := t) (by rw [hd]; simp)
            simpa [hd] using this
          have hca : fiber a ≤ fiber c :=
            (List.pairwise_cons.1 hl).1 c (hsuf.subset (by rw [hd]; simp))
          rw [hd] at hb hs2
          rcases List.mem_cons.1 hb with rfl | hb
          · omega
          · have := (List.pairwise_cons.1 hs2).1 b hb; omega
      · exact hs2
      · refine ih _ ?_ _ rfl hs2
        rw [← hn, List.length_cons]
        exact Nat.lt_succ_of_le hsuf.length_le

/-- Index of the next element of the same block, cyclically. -/
def nextIdx (fiber : α → Int) (l : List α) (i : Nat) : Nat :=
  if i + 1 < l.length ∧ (l[i + 1]?).map fiber = (l[i]?).map fiber then i + 1
  else l.findIdx (fun r => some (fiber r) = (l[i]?).map fiber)

theorem roll_getElem? (l : List β) (i : Nat) (h : i < l.length) :
    (roll l)[i]? = if i + 1 < l.length then l[i + 1]? else l[0]? := by
  cases l with
  | nil => simp at h
  | cons a t =>
    simp only [roll, List.length_cons] at *
    split
    · rename_i h'
      rw [List.getElem?_append_left (by omega)]
      simp
    · rename_i h'
      have : i = t.length := by omega
      subst this
      simp

theorem roll_length (l : List β) : (roll l).length = l.length := by cases l <;> simp [roll]

theorem rolled_append (fiber : α → Int) (label : α → β) (k : Int) (l1 l2 : List α) (hne : l1 ≠ [])
    (h1 : ∀ a ∈ l1, fiber a = k) (h2 : ∀ a ∈ l2, k < fiber a) :
    rolled fiber label (l1 ++ l2) = roll (l1.map label) ++ rolled fiber label l2 := by
  simp [rolled, groupBy_append fiber k l1 l2 hne h1 h2]

theorem rolled_length (fiber : α → Int) (label : α → β) (l : List α)
    (hl : l.Pairwise (fun a b => fiber a ≤ fiber b)) : (rolled fiber label l).length = l.length := by
  refine sorted_block_induction fiber (motive := fun l => (rolled fiber label l).length = l.length) ?_ ?_ l hl
  · simp [rolled, groupBy_nil]
  · intro k l1 l2 hne h1 h2 hs ih
    rw [rolled_append fiber label k l1 l2 hne h1 h2]
    simp [roll_length, ih]

theorem rolled_getElem? (fiber : α → Int) (label : α → β) (l : List α)
    (hl : l.Pairwise (fun a b => fiber a ≤ fiber b)) (i : Nat) (hi : i < l.length) :
    (rolled fiber label l)[i]? = (l[nextIdx fiber l i]?).map label := by
  revert i hi
  refine sorted_block_induction fiber (motive := fun l => ∀ i < l.length, (rolled fiber label l)[i]? = (l[nextIdx fiber l i]?).map label) ?_ ?_ l hl
  · intro i hi; simp at hi
  · intro k l1 l2 hne h1 h2 hs ih i hi
    rw [rolled_append fiber label k l1 l2 hne h1 h2]
    by_cases hi1 : i < l1.length
    · rw [List.getElem?_append_left (by simpa [roll_length] using hi1)]
      rw [roll_getElem? _ _ (by simpa using hi1)]
      have hk : (l1[i]?).map fiber = some k := by
        simp [hi1, h1 _ (List.getElem_mem hi1)]
      by_cases hi2 : i + 1 < l1.length
      · have hk' : (l1[i + 1]?).map fiber = some k := by
          simp [hi2, h1 _ (List.getElem_mem hi2)]
        have : nextIdx fiber (l1 ++ l2) i = i + 1 := by
          unfold nextIdx
          rw [if_pos]
          refine ⟨by simp; omega, ?_⟩
          rw [List.getElem?_append_left hi1, List.getElem?_append_left hi2, hk, hk']
        rw [this, if_pos (by simpa using hi2), List.getElem?_append_left hi2]
        simp
      · have hlen : i + 1 = l1.length := by omega
        have : nextIdx fiber (l1 ++ l2) i = 0 := by
          unfold nextIdx
          rw [if_neg]
          · rw [List.getElem?_append_left hi1, hk]
            cases l1 with
            | nil => simp at hne
            | cons c t =>
              simp [List.findIdx_cons, h1 c (by simp)]
          · rintro ⟨h3, h4⟩
            rw [List.getElem?_append_left hi1, hk, List.getElem?_append_right (by omega)] at h4
            rw [List.length_append] at h3
            have h5 : i + 1 - l1.length < l2.length := by omega
            rw [List.getElem?_eq_getElem h5] at h4
            have := h2 _ (List.getElem_mem h5)
            simp at h4
            omega
        rw [this, if_neg (by simpa using hi2), List.getElem?_append_left (by omega)]
        simp
    · have hle : l1.length ≤ i := not_lt.1 hi1
      have hi2 : i - l1.length < l2.length := by simp at hi; omega
      rw [List.getElem?_append_right (by simpa [roll_length] using hle)]
      simp only [roll_length, List.length_map]
      rw [ih _ hi2]
      have hkey : ((l1 ++ l2)[i]?).map fiber = (l2[i - l1.length]?).map fiber := by
        rw [List.getElem?_append_right hle]
      have hbig : ∃ c, (l2[i - l1.length]?).map fiber = some c ∧ k < c := by
        rw [List.getElem?_eq_getElem hi2]
        exact ⟨_, rfl, h2 _ (List.getElem_mem hi2)⟩
      obtain ⟨c, hc, hkc⟩ := hbig
      have : nextIdx fiber (l1 ++ l2) i = l1.length + nextIdx fiber l2 (i - l1.length) := by
        unfold nextIdx
        have hplus : ((l1 ++ l2)[i + 1]?).map fiber = (l2[i - l1.length + 1]?).map fiber := by
          rw [List.getElem?_append_right (by omega)]
          congr 2; omega
        rw [hkey, hplus]
        have hlt : i + 1 < (l1 ++ l2).length ↔ i - l1.length + 1 < l2.length := by
          rw [List.length_append]; omega
        simp only [hlt]
        split
        · omega
        · rw [List.findIdx_append]
          have hnf : ¬ (l1.findIdx (fun r => decide (some (fiber r) = (l2[i - l1.length]?).map fiber)) < l1.length) := by
            rw [List.findIdx_lt_length]
            rintro ⟨a, ha, hp⟩
            rw [hc] at hp
            have := h1 a ha
            simp at hp; omega
          rw [if_neg hnf]; omega
      rw [this, List.getElem?_append_right (by omega)]
      congr 2; omega

/-- The blocks of a sorted list, concatenated, are the list. -/
theorem groupBy_flatten (fiber : α → Int) (l : List α)
    (hl : l.Pairwise (fun a b => fiber a ≤ fiber b)) : (groupBy fiber l).flatten = l := by
  refine sorted_block_induction fiber (motive := fun l => (groupBy fiber l).flatten = l) ?_ ?_ l hl
  · simp [groupBy_nil]
  · intro k l1 l2 hne h1 h2 hs ih
    rw [groupBy_append fiber k l1 l2 hne h1 h2, List.flatten_cons, ih]

/-- A condition on the first elements of all blocks. -/
theorem groupBy_heads (fiber : α → Int) (p : α → Bool) (l : List α)
    (hl : l.Pairwise (fun a b => fiber a ≤ fiber b)) :
    (groupBy fiber l).all (fun g => g.head?.all p) = true ↔
      ∀ i (h : i < l.length), (i = 0 ∨ (l[i - 1]?).map fiber ≠ some (fiber l[i])) → p l[i] = true := by
  refine sorted_block_induction fiber (motive := fun l => ((groupBy fiber l).all (fun g => g.head?.all p) = true ↔
      ∀ i (h : i < l.length), (i = 0 ∨ (l[i - 1]?).map fiber ≠ some (fiber l[i])) → p l[i] = true)) ?_ ?_ l hl
  · simp [groupBy_nil]
  · intro k l1 l2 hne h1 h2 hs ih
    rw [groupBy_append fiber k l1 l2 hne h1 h2, List.all_cons, Bool.and_eq_true, ih]
    have hpos : 0 < l1.length := List.length_pos_of_ne_nil hne
    constructor
    · rintro ⟨ha, hb⟩ i hi hfirst
      by_cases hi1 : i < l1.length
      · have hi0 : i = 0 := by
          rcases hfirst with h | h
          · exact h
          · by_contra hcon
            apply h
            have h3 : i - 1 < l1.length := by omega
            rw [List.getElem?_append_left h3, List.getElem?_eq_getElem h3]
            rw [List.getElem_append_left hi1]
            simp [h1 _ (List.getElem_mem h3), h1 _ (List.getElem_mem hi1)]
        subst hi0
        rw [List.getElem_append_left hi1]
        cases l1 with
        | nil => simp at hne
        | cons c t => simpa using ha
      · have hi2 : i - l1.length < l2.length := by simp at hi; omega
        have := hb (i - l1.length) hi2 (by
          by_cases h0 : i - l1.length = 0
          · exact Or.inl h0
          · right
            rcases hfirst with h | h
            · omega
            · rw [List.getElem?_append_right (by omega), List.getElem_append_right (by omega)] at h
              have e : i - 1 - l1.length = i - l1.length - 1 := by omega
              rw [e] at h
              exact h)
        rw [List.getElem_append_right (by omega)]
        exact this
    · intro h
      constructor
      · have := h 0 (by simp; omega) (Or.inl rfl)
        rw [List.getElem_append_left hpos] at this
        cases l1 with
        | nil => simp at hne
        | cons c t => simpa using this
      · intro i hi hfirst
        have := h (l1.length + i) (by simp; omega) (by
          right
          rw [List.getElem_append_right (by omega)]
          simp only [Nat.add_sub_cancel_left]
          rcases hfirst with h0 | h0
          · subst h0
            have h3 : l1.length + 0 - 1 < l1.length := by omega
            rw [List.getElem?_append_left h3, List.getElem?_eq_getElem h3]
            have a1 := h1 _ (List.getElem_mem h3)
            have a2 := h2 _ (List.getElem_mem hi)
            simp only [Option.map_some, ne_eq, Option.some.injEq]
            omega
          · by_cases hi0 : i = 0
            · subst hi0
              have h3 : l1.length + 0 - 1 < l1.length := by omega
              rw [List.getElem?_append_left h3, List.getElem?_eq_getElem h3]
              have a1 := h1 _ (List.getElem_mem h3)
              have a2 := h2 _ (List.getElem_mem hi)
              simp only [Option.map_some, ne_eq, Option.some.injEq]
              omega
            · rw [List.getElem?_append_right (by omega)]
              have e : l1.length + i - 1 - l1.length = i - 1 := by omega
              rw [e]; exact h0)
        rw [List.getElem_append_right (by omega)] at this
        simpa using this

/-- A condition on the last elements of all blocks. -/
theorem groupBy_lasts (fiber : α → Int) (p : α → Bool) (l : List α)
    (hl : l.Pairwise (fun a b => fiber a ≤ fiber b)) :
    (groupBy fiber l).all (fun g => g.getLast?.all p) = true ↔
      ∀ i (h : i < l.length), ((l[i + 1]?).map fiber ≠ some (fiber l[i])) → p l[i] = true := by
  refine sorted_block_induction fiber (motive := fun l => ((groupBy fiber l).all (fun g => g.getLast?.all p) = true ↔
      ∀ i (h : i < l.length), ((l[i + 1]?).map fiber ≠ some (fiber l[i])) → p l[i] = true)) ?_ ?_ l hl
  · simp [groupBy_nil]
  · intro k l1 l2 hne h1 h2 hs ih
    rw [groupBy_append fiber k l1 l2 hne h1 h2, List.all_cons, Bool.and_eq_true, ih]
    have hpos : 0 < l1.length := List.length_pos_of_ne_nil hne
    have hlast : l1.getLast? = some (l1[l1.length - 1]'(by omega)) := by
      rw [List.getLast?_eq_getElem?, List.getElem?_eq_getElem (by omega)]
    constructor
    · rintro ⟨ha, hb⟩ i hi hl
      by_cases hi1 : i < l1.length
      · have hi0 : i = l1.length - 1 := by
          by_contra hcon
          apply hl
          have h3 : i + 1 < l1.length := by omega
          rw [List.getElem?_append_left h3, List.getElem?_eq_getElem h3, List.getElem_append_left hi1]
          simp [h1 _ (List.getElem_mem h3), h1 _ (List.getElem_mem hi1)]
        subst hi0
        rw [List.getElem_append_left hi1]
        rw [hlast] at ha
        simpa using ha
      · have hi2 : i - l1.length < l2.length := by simp at hi; omega
        rw [List.getElem_append_right (by omega)]
        apply hb _ hi2
        rw [List.getElem?_append_right (by omega), List.getElem_append_right (by omega)] at hl
        have e : i + 1 - l1.length = i - l1.length + 1 := by omega
        rwa [e] at hl
    · intro h
      constructor
      · have h3 : l1.length - 1 < l1.length := by omega
        have := h (l1.length - 1) (by simp; omega) (by
          rw [List.getElem_append_left h3, List.getElem?_append_right (by omega)]
          have e : l1.length - 1 + 1 - l1.length = 0 := by omega
          rw [e, h1 _ (List.getElem_mem h3)]
          cases l2 with
          | nil => simp
          | cons c t =>
            have := h2 c (by simp)
            simp; omega)
        rw [List.getElem_append_left h3] at this
        rw [hlast]
        simpa using this
      · intro i hi hl
        have := h (l1.length + i) (by simp; omega) (by
          rw [List.getElem?_append_right (by omega), List.getElem_append_right (by omega)]
          have e : l1.length + i + 1 - l1.length = i + 1 := by omega
          simp only [e, Nat.add_sub_cancel_left]
          exact hl)
        rw [List.getElem_append_right (by omega)] at this
        simpa using this

end Fibermat
