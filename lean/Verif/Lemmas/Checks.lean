import Verif.Lemmas.Group
import Verif.Lemmas.Mat
import Verif.Spec.Checks

/-! Lemmas relating `Net.check`, `Mesh.check` to their specification. -/

namespace Fibermat
open Spec
variable {K : Type}

theorem decides_ite {c : Bool} {p : Prop} {e : Err} {l : List (Prop × Err)} {r : Except Err Unit}
    (h : c = true ↔ ¬ p) (h' : p → Decides l r) : Decides ((p, e) :: l) (if c then .error e else r) := by
  by_cases hp : p
  · have : c = false := by rw [← Bool.not_eq_true]; exact fun hc => (h.1 hc) hp
    subst this
    exact .holds hp (h' hp)
  · rw [if_pos (h.2 hp)]; exact .fails hp

theorem decides_ite' {c : Prop} [Decidable c] {p : Prop} {e : Err} {l : List (Prop × Err)} {r : Except Err Unit}
    (h : c ↔ ¬ p) (h' : p → Decides l r) : Decides ((p, e) :: l) (if c then .error e else r) := by
  by_cases hp : p
  · rw [if_neg (fun hc => (h.1 hc) hp)]
    exact .holds hp (h' hp)
  · rw [if_pos (h.2 hp)]; exact .fails hp

theorem decides_ok_iff {l : List (Prop × Err)} {r : Except Err Unit} (h : Decides l r) :
    r = .ok () ↔ ∀ c ∈ l, c.1 := by
  induction h with
  | done => simp
  | fails hp => simp [hp]
  | holds hp _ ih => simp [hp, ih]

/-- The outcome is determined by the conditions. -/
theorem decides_unique {l : List (Prop × Err)} {r r' : Except Err Unit} (h : Decides l r) (h' : Decides l r') :
    r = r' := by
  induction h with
  | done => cases h'; rfl
  | fails hp =>
    cases h' with
    | fails _ => rfl
    | holds hp' _ => exact absurd hp' hp
  | holds hp _ ih =>
    cases h' with
    | fails hp' => exact absurd hp hp'
    | holds _ h2 => exact ih h2

theorem all_not_iff {α : Type} {l : List α} {f : α → Bool} {P : α → Prop} (h : ∀ a ∈ l, (f a = true ↔ P a)) :
    (!l.all f) = true ↔ ¬ ∀ a ∈ l, P a := by
  rw [Bool.not_eq_true', ← Bool.not_eq_true, List.all_eq_true]
  constructor
  · intro h1 h2; exact h1 (fun a ha => (h a ha).2 (h2 a ha))
  · intro h1 h2; exact h1 (fun a ha => (h a ha).1 (h2 a ha))

theorem noRepeat_iff [DecidableEq K] (rows : List (Int × NetRow K)) :
    (rows.map Prod.snd).length = (dropDup (fun r : NetRow K => (r.A, r.B, r.sA, r.sB)) (rows.map Prod.snd)).length
      ↔ NoRepeat rows := by
  rw [dropDup_length_eq, List.map_map, List.Nodup, List.pairwise_map, NoRepeat]
  simp [Prod.ext_iff]

section mesh
variable (rows : List (MeshRow K))

/-- Sortedness by fiber. -/
abbrev FSorted (rows : List (MeshRow K)) : Prop := rows.Pairwise (fun a b => a.fiber ≤ b.fiber)

theorem fsorted_le {rows : List (MeshRow K)} (hs : FSorted rows) {i j : Nat} {r p : MeshRow K} (hij : i ≤ j)
    (hr : rows[i]? = some r) (hp : rows[j]? = some p) : r.fiber ≤ p.fiber := by
  obtain ⟨hi, rfl⟩ := List.getElem?_eq_some_iff.1 hr
  obtain ⟨hj, rfl⟩ := List.getElem?_eq_some_iff.1 hp
  rcases Nat.lt_or_eq_of_le hij with h | h
  · exact List.pairwise_iff_getElem.1 hs i j hi hj h
  · subst h; exact le_refl _

theorem last_iff {rows : List (MeshRow K)} (hs : FSorted rows) {i : Nat} {r : MeshRow K} (hr : rows[i]? = some r) :
    LastOnFiber rows i ↔ (rows[i + 1]?).map (·.fiber) ≠ some r.fiber := by
  constructor
  · rintro ⟨r', hr', h⟩
    rw [hr] at hr'; cases hr'
    intro h2
    rcases h3 : rows[i + 1]? with _ | p
    · simp [h3] at h2
    · rw [h3] at h2
      exact h (i + 1) p (Nat.lt_succ_self i) h3 (by simpa using h2)
  · intro h
    refine ⟨r, hr, ?_⟩
    intro j p hij hp he
    rcases h3 : rows[i + 1]? with _ | q
    · rw [List.getElem?_eq_none_iff] at h3
      obtain ⟨hj, -⟩ := List.getElem?_eq_some_iff.1 hp
      omega
    · apply h
      rw [h3]
      have h4 := fsorted_le hs (Nat.le_succ i) hr h3
      have h5 := fsorted_le hs (by omega : i + 1 ≤ j) h3 hp
      simp; omega

theorem first_iff {rows : List (MeshRow K)} (hs : FSorted rows) {i : Nat} {r : MeshRow K} (hr : rows[i]? = some r) :
    FirstOnFiber rows i ↔ (i = 0 ∨ (rows[i - 1]?).map (·.fiber) ≠ some r.fiber) := by
  constructor
  · rintro ⟨r', hr', h⟩
    rw [hr] at hr'; cases hr'
    by_cases h0 : i = 0
    · exact Or.inl h0
    right
    intro h2
    rcases h3 : rows[i - 1]? with _ | p
    · simp [h3] at h2
    · rw [h3] at h2
      exact h (i - 1) p (by omega) h3 (by simpa using h2)
  · intro h
    refine ⟨r, hr, ?_⟩
    intro j p hij hp he
    rcases h with h | h
    · omega
    rcases h3 : rows[i - 1]? with _ | q
    · rw [List.getElem?_eq_none_iff] at h3
      obtain ⟨hj, -⟩ := List.getElem?_eq_some_iff.1 hr
      omega
    · apply h
      rw [h3]
      have h4 := fsorted_le hs (by omega : i - 1 ≤ i) h3 hr
      have h5 := fsorted_le hs (by omega : j ≤ i - 1) hp h3
      simp; omega

theorem first_findIdx {rows : List (MeshRow K)} {j : Nat} {r p : MeshRow K} (hp : rows[j]? = some p)
    (he : p.fiber = r.fiber) :
    FirstOnFiber rows j ↔ j = rows.findIdx (fun q => some q.fiber = some r.fiber) := by
  obtain ⟨hj, hpj⟩ := List.getElem?_eq_some_iff.1 hp
  constructor
  · rintro ⟨p', hp', h⟩
    rw [hp] at hp'; cases hp'
    symm
    rw [List.findIdx_eq hj]
    refine ⟨by simp [hpj, he], ?_⟩
    intro k hk
    have h2 : rows[k]? = some (rows[k]'(by omega)) := List.getElem?_eq_getElem _
    have := h k _ hk h2
    simpa [← he] using this
  · intro h
    refine ⟨p, hp, ?_⟩
    intro k q hk hq he'
    have hlt : rows.findIdx (fun q => decide (some q.fiber = some r.fiber)) < rows.length := by rw [← h]; exact hj
    have := List.not_of_lt_findIdx (p := fun q : MeshRow K => decide (some q.fiber = some r.fiber)) (xs := rows)
      (i := k) (by rw [← h]; exact hk)
    obtain ⟨hk', hqk⟩ := List.getElem?_eq_some_iff.1 hq
    simp [hqk, he', he] at this

theorem cyclicNext_iff {rows : List (MeshRow K)} (hs : FSorted rows) {i j : Nat} (hi : i < rows.length) :
    CyclicNext rows i j ↔ j = nextIdx (·.fiber) rows i := by
  have hr : rows[i]? = some rows[i] := List.getElem?_eq_getElem hi
  set r := rows[i] with hrdef
  have hlast := last_iff hs hr
  have hcond : (i + 1 < rows.length ∧ (rows[i + 1]?).map (·.fiber) = (rows[i]?).map (·.fiber)) ↔ ¬ LastOnFiber rows i := by
    rw [hlast, not_not, hr]
    constructor
    · rintro ⟨_, h⟩; simpa using h
    · intro h
      refine ⟨?_, by simpa using h⟩
      by_contra hcon
      have : rows[i + 1]? = none := List.getElem?_eq_none_iff.2 (by omega)
      simp [this] at h
  unfold nextIdx
  by_cases hl : LastOnFiber rows i
  · rw [if_neg (fun h => hcond.1 h hl), hr]
    simp only [Option.map_some]
    constructor
    · rintro ⟨r', p, h1, h2, h3, h4⟩
      rw [hr] at h1; cases h1
      rcases h4 with h4 | h4
      · exact absurd hl h4.1
      · exact (first_findIdx h2 h3).1 h4.2
    · intro h
      have hlt : j < rows.length := by
        rw [h, List.findIdx_lt_length]
        exact ⟨r, List.getElem_mem hi, by simp⟩
      have hp : rows[j]? = some rows[j] := List.getElem?_eq_getElem hlt
      have he : rows[j].fiber = r.fiber := by
        have := List.findIdx_getElem (p := fun q : MeshRow K => decide (some q.fiber = some r.fiber)) (xs := rows)
          (w := h ▸ hlt)
        subst h
        simpa using this
      exact ⟨r, rows[j], hr, hp, he, Or.inr ⟨hl, (first_findIdx hp he).2 h⟩⟩
  · rw [if_pos (hcond.2 hl)]
    constructor
    · rintro ⟨r', p, h1, h2, h3, h4⟩
      rcases h4 with h4 | h4
      · exact h4.2
      · exact absurd h4.1 hl
    · intro h
      have h2 : (rows[i + 1]?).map (·.fiber) = some r.fiber := by
        by_contra hcon; exact hl (hlast.2 hcon)
      rcases h3 : rows[i + 1]? with _ | p
      · simp [h3] at h2
      · subst h
        exact ⟨r, p, hr, h3, by simpa [h3] using h2, Or.inl ⟨hl, rfl⟩⟩

theorem nextIdx_lt {rows : List (MeshRow K)} {i : Nat} (hi : i < rows.length) :
    nextIdx (·.fiber) rows i < rows.length := by
  unfold nextIdx
  split
  · rename_i h; exact h.1
  · rw [List.findIdx_lt_length]
    exact ⟨rows[i], List.getElem_mem hi, by simp [hi]⟩

theorem nextIdx_map {α : Type} (f : α → MeshRow K) (l : List α) (i : Nat) :
    nextIdx (fun r => (f r).fiber) l i = nextIdx (·.fiber) (l.map f) i := by
  simp [nextIdx, List.findIdx_map, Function.comp_def]

theorem sort_labels_iff {α : Type} (r : α → α → Prop) [DecidableRel r] [Std.Total r] [IsTrans α r]
    (key : α → Int) (l : List α) (hn : (l.map key).Nodup) :
    (l.insertionSort r).map key = l.map key ↔ l.Pairwise r := by
  constructor
  · intro h
    have hinj : ∀ a ∈ l, ∀ b ∈ l, key a = key b → a = b := fun a ha b hb => List.inj_on_of_nodup_map hn ha hb
    have : l.insertionSort r = l := by
      have hp := List.perm_insertionSort r l
      have hlen := hp.length_eq
      apply List.ext_getElem hlen
      intro i h1 h2
      apply hinj _ (hp.subset (List.getElem_mem h1)) _ (List.getElem_mem h2)
      have := congrArg (fun t => t[i]?) h
      simpa [h1, h2] using this
    rw [← this]; exact List.pairwise_insertionSort r l
  · intro h; rw [h.insertionSort_eq]

end mesh
end Fibermat
