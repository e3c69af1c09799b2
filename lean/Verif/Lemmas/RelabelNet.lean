import Verif.Spec.Relabel
import Verif.Lemmas.DirectionMesh

/-! Nets when fibers are numbered otherwise. -/

set_option linter.unusedSectionVars false
set_option linter.unusedSimpArgs false

namespace Fibermat
variable {K : Type} [Field K] [LinearOrder K] [IsStrictOrderedRing K]
open Spec

/-! ### Lists -/

theorem dropDupAux_filter {α β : Type} [DecidableEq β] (key : α → β) (k : β) (seen : List β) (l : List α) :
    (dropDupAux key seen l).filter (fun a => decide (key a = k)) =
      if k ∈ seen then [] else ((l.filter (fun a => decide (key a = k))).head?).toList := by
  induction l generalizing seen with
  | nil => simp [dropDupAux]
  | cons a t ih =>
    rw [dropDupAux]
    by_cases hs : key a ∈ seen
    · rw [if_pos hs, ih]
      by_cases hk : k ∈ seen
      · rw [if_pos hk, if_pos hk]
      · have : key a ≠ k := fun e => hk (e ▸ hs)
        rw [if_neg hk, if_neg hk, List.filter_cons_of_neg (by simpa using this)]
    · rw [if_neg hs]
      by_cases e : key a = k
      · rw [List.filter_cons_of_pos (by simpa using e), ih, if_pos (by simp [e]), if_neg (by rwa [← e]),
          List.filter_cons_of_pos (by simpa using e)]
        rfl
      · rw [List.filter_cons_of_neg (by simpa using e), ih, List.filter_cons_of_neg (by simpa using e)]
        simp only [List.mem_cons, Ne.symm e, false_or]

theorem dropDup_filter {α β : Type} [DecidableEq β] (key : α → β) (k : β) (l : List α) :
    (dropDup key l).filter (fun a => decide (key a = k)) = ((l.filter (fun a => decide (key a = k))).head?).toList := by
  unfold dropDup
  rw [dropDupAux_filter, if_neg (by simp)]

/-- Labels of a candidate. -/
def candKey (c : Cand K) : ℕ × ℕ := (c.A, c.B)

theorem insertionSort_filter (l : List (Cand K)) (k : ℕ × ℕ) :
    (l.insertionSort candLe).filter (fun c => decide (candKey c = k)) = l.filter (fun c => decide (candKey c = k)) := by
  have h1 : (l.filter (fun c => decide (candKey c = k))).Pairwise candLe := by
    refine List.pairwise_of_forall_mem_list ?_
    intro a ha b hb
    have ha := (List.mem_filter.1 ha).2
    have hb := (List.mem_filter.1 hb).2
    rw [decide_eq_true_eq] at ha hb
    have := ha.trans hb.symm
    simp only [candKey, Prod.mk.injEq] at this
    exact Or.inr ⟨this.1, this.2.le⟩
  have h2 := (List.sublist_insertionSort (r := candLe) h1 List.filter_sublist).filter (fun c => decide (candKey c = k))
  rw [List.filter_filter] at h2
  simp only [Bool.and_self] at h2
  refine (h2.eq_of_length_le ?_).symm
  exact (((List.perm_insertionSort candLe l).filter _).length_eq).le

/-- The candidate kept for a pair of labels is the first one. -/
theorem mem_sortDedup (l : List (Cand K)) (c : Cand K) :
    c ∈ sortDedup l ↔ (l.filter (fun d => decide (candKey d = candKey c))).head? = some c := by
  have h := dropDup_filter (candKey (K := K)) (candKey c) (l.insertionSort candLe)
  rw [insertionSort_filter] at h
  have e : c ∈ sortDedup l ↔ c ∈ (sortDedup l).filter (fun d => decide (candKey d = candKey c)) := by
    rw [List.mem_filter]; simp
  have e2 : sortDedup l = dropDup candKey (l.insertionSort candLe) := rfl
  rw [e, e2, h]
  simp

theorem triu_filter {α : Type} (p : α → Bool) (l : List α) : (triu l).filter (fun q => p q.1 && p q.2) = triu (l.filter p) := by
  induction l with
  | nil => rfl
  | cons a t ih =>
    rw [triu, List.filter_append, ih]
    by_cases ha : p a = true
    · rw [List.filter_cons_of_pos ha, triu]
      congr 1
      rw [List.filter_map, ← List.filter_cons_of_pos ha]
      congr 1
      refine List.filter_congr ?_
      intro b _
      simp [ha]
    · rw [List.filter_cons_of_neg ha]
      have : ((a :: t).map (fun b => (a, b))).filter (fun q => p q.1 && p q.2) = [] := by
        rw [List.filter_eq_nil_iff]
        intro q hq
        obtain ⟨b, -, rfl⟩ := List.mem_map.1 hq
        simp [ha]
      rw [this, List.nil_append]

theorem filterMap_filter_of {α β : Type} {f : α → Option β} {p : α → Bool} {q : β → Bool} (l : List α)
    (h : ∀ a ∈ l, ∀ b, f a = some b → q b = true → p a = true) : ((l.filter p).filterMap f).filter q = (l.filterMap f).filter q := by
  induction l with
  | nil => rfl
  | cons a t ih =>
    have ih := ih (fun a ha => h a (List.mem_cons_of_mem _ ha))
    by_cases hp : p a = true
    · rw [List.filter_cons_of_pos hp, List.filterMap_cons, List.filterMap_cons]
      cases f a with
      | none => exact ih
      | some b => simp only [List.filter_cons, ih]
    · rw [List.filter_cons_of_neg hp, ih, List.filterMap_cons]
      cases hf : f a with
      | none => rfl
      | some b =>
        have : ¬ q b = true := fun hq => hp (h a (by simp) b hf hq)
        rw [List.filter_cons_of_neg this]

/-! ### Copies of fibers -/

/-- `mat_` from the numbered fibers and the largest length. -/
def extOf (periodic : Bool) (size l : K) (base : List (ℕ × Fiber K)) : List (ℕ × Fiber K) :=
  if periodic then
    base ++ (base.filter (fun p => p.2.x < -(size / 2) + l)).map (fun p => (p.1, { p.2 with x := p.2.x + size }))
      ++ (base.filter (fun p => p.2.y < -(size / 2) + l)).map (fun p => (p.1, { p.2 with y := p.2.y + size }))
      ++ (base.filter (fun p => p.2.x > size / 2 - l ∧ p.2.y > size / 2 - l)).map
        (fun p => (p.1, { p.2 with x := p.2.x - size, y := p.2.y - size }))
  else base

theorem extFibers_of (periodic : Bool) (size : K) (fs : List (Fiber K)) :
    extFibers periodic size fs = extOf periodic size (maxLength fs) (plainFibers fs) := by
  unfold extFibers extOf
  cases periodic <;> rfl

theorem extOf_filter (periodic : Bool) (size l : K) (base : List (ℕ × Fiber K)) (p : ℕ → Bool) :
    (extOf periodic size l base).filter (fun q => p q.1) = extOf periodic size l (base.filter (fun q => p q.1)) := by
  unfold extOf
  cases periodic with
  | false => rfl
  | true =>
    simp only [if_true, List.filter_append, List.filter_map, List.filter_filter]
    congr 1
    · congr 1
      · congr 1
        congr 1
        refine List.filter_congr (fun q _ => ?_)
        simp only [Function.comp, Bool.and_comm]
      · congr 1
        refine List.filter_congr (fun q _ => ?_)
        simp only [Function.comp, Bool.and_comm]
    · congr 1
      refine List.filter_congr (fun q _ => ?_)
      simp only [Function.comp, Bool.and_comm]

/-- Another number. -/
def relabel (φ : ℕ → ℕ) (p : ℕ × Fiber K) : ℕ × Fiber K := (φ p.1, p.2)

theorem extOf_map (φ : ℕ → ℕ) (periodic : Bool) (size l : K) (base : List (ℕ × Fiber K)) :
    extOf periodic size l (base.map (relabel φ)) = (extOf periodic size l base).map (relabel φ) := by
  unfold extOf
  cases periodic with
  | false => rfl
  | true =>
    simp only [if_true, List.map_append, List.filter_map, List.map_map]
    rfl

theorem plain_strict (fs : List (Fiber K)) : (plainFibers fs).Pairwise (fun p q => p.1 < q.1) := by
  unfold plainFibers
  rw [List.pairwise_iff_getElem]
  intro i j hi hj hij
  simpa using hij

theorem plain_filter_two {fs : List (Fiber K)} {a b : ℕ} {f g : Fiber K} (hab : a < b) (hf : fs[a]? = some f) (hg : fs[b]? = some g) :
    (plainFibers fs).filter (fun p => decide (p.1 = a ∨ p.1 = b)) = [(a, f), (b, g)] := by
  have : Std.Irrefl (fun p q : ℕ × Fiber K => p.1 < q.1) := ⟨fun p => lt_irrefl p.1⟩
  have : Std.Antisymm (fun p q : ℕ × Fiber K => p.1 < q.1) := ⟨fun p q h1 h2 => absurd h1 (lt_asymm h2)⟩
  refine List.Pairwise.eq_of_mem_iff (r := fun p q : ℕ × Fiber K => p.1 < q.1) ((plain_strict fs).filter _) (by simpa using hab) ?_
  rintro ⟨i, e⟩
  rw [List.mem_filter, mem_plain]
  simp only [decide_eq_true_eq, List.mem_cons, Prod.mk.injEq, List.not_mem_nil, or_false]
  constructor
  · rintro ⟨h, rfl | rfl⟩
    · rw [hf] at h; cases h; simp
    · rw [hg] at h; cases h; simp
  · rintro (⟨rfl, rfl⟩ | ⟨rfl, rfl⟩)
    · exact ⟨hf, Or.inl rfl⟩
    · exact ⟨hg, Or.inr rfl⟩

theorem plain_filter_one {fs : List (Fiber K)} {a : ℕ} {f : Fiber K} (hf : fs[a]? = some f) :
    (plainFibers fs).filter (fun p => decide (p.1 = a ∨ p.1 = a)) = [(a, f)] := by
  have : Std.Irrefl (fun p q : ℕ × Fiber K => p.1 < q.1) := ⟨fun p => lt_irrefl p.1⟩
  have : Std.Antisymm (fun p q : ℕ × Fiber K => p.1 < q.1) := ⟨fun p q h1 h2 => absurd h1 (lt_asymm h2)⟩
  refine List.Pairwise.eq_of_mem_iff (r := fun p q : ℕ × Fiber K => p.1 < q.1) ((plain_strict fs).filter _) (by simp) ?_
  rintro ⟨i, e⟩
  rw [List.mem_filter, mem_plain]
  simp only [decide_eq_true_eq, List.mem_cons, Prod.mk.injEq, List.not_mem_nil, or_false, or_self]
  constructor
  · rintro ⟨h, rfl⟩
    rw [hf] at h; cases h; simp
  · rintro ⟨rfl, rfl⟩
    exact ⟨hf, rfl⟩

/-! ### Candidates -/

/-- A candidate with other numbers. -/
def relabelCand (φ : ℕ → ℕ) (c : Cand K) : Cand K := { c with A := φ c.A, B := φ c.B }

theorem candidate_relabel {φ : ℕ → ℕ} {p : (ℕ × Fiber K) × (ℕ × Fiber K)} (h1 : φ p.1.1 = φ p.2.1 ↔ p.1.1 = p.2.1)
    (h2 : φ p.1.1 ≤ φ p.2.1 ↔ p.1.1 ≤ p.2.1) :
    candidate (relabel φ p.1, relabel φ p.2) = (candidate p).map (relabelCand φ) := by
  unfold candidate relabel
  simp only [h1, h2]
  split
  · split
    · split <;> rfl
    · rfl
  · rfl

/-- Labels of a candidate. -/
theorem candidate_key_labels {p : (ℕ × Fiber K) × (ℕ × Fiber K)} {c : Cand K} (h : candidate p = some c) :
    (c.A = p.1.1 ∧ c.B = p.2.1 ∧ p.1.1 ≤ p.2.1) ∨ (c.A = p.2.1 ∧ c.B = p.1.1 ∧ p.2.1 < p.1.1) := by
  unfold candidate at h
  simp only at h
  split at h
  · split at h
    · split at h
      · cases h; exact Or.inl ⟨rfl, rfl, by assumption⟩
      · cases h; exact Or.inr ⟨rfl, rfl, by omega⟩
    · cases h
  · cases h

/-- Candidates of two labels come from the copies of these two fibers. -/
theorem cands_of_labels (periodic : Bool) (S : K) (fs : List (Fiber K)) (a b : ℕ) :
    ((triu (extFibers periodic S fs)).filterMap candidate).filter (fun c => decide (candKey c = (a, b))) =
      ((triu (extOf periodic S (maxLength fs) ((plainFibers fs).filter (fun p => decide (p.1 = a ∨ p.1 = b))))).filterMap
        candidate).filter (fun c => decide (candKey c = (a, b))) := by
  rw [extFibers_of, ← extOf_filter periodic S (maxLength fs) (plainFibers fs) (fun i => decide (i = a ∨ i = b)), ← triu_filter]
  refine (filterMap_filter_of _ ?_).symm
  intro p _ c hc hk
  simp only [decide_eq_true_eq, candKey, Prod.mk.injEq, Bool.and_eq_true] at hk ⊢
  rcases candidate_key_labels hc with ⟨h1, h2, -⟩ | ⟨h1, h2, -⟩
  · exact ⟨Or.inl (by omega), Or.inr (by omega)⟩
  · exact ⟨Or.inr (by omega), Or.inl (by omega)⟩


theorem maxLength_mem {fs : List (Fiber K)} (h : fs ≠ []) : ∃ f ∈ fs, f.l = maxLength fs := by
  cases fs with
  | nil => exact absurd rfl h
  | cons f t =>
    have key : ∀ (t : List (Fiber K)) (a : K), t.foldl (fun m g => max m g.l) a = a ∨ ∃ g ∈ t, g.l = t.foldl (fun m g => max m g.l) a := by
      intro t
      induction t with
      | nil => intro a; exact Or.inl rfl
      | cons g t ih =>
        intro a
        rw [List.foldl_cons]
        rcases ih (max a g.l) with e | ⟨k, hk, e⟩
        · rcases le_total a g.l with h | h
          · exact Or.inr ⟨g, by simp, by rw [e, max_eq_right h]⟩
          · exact Or.inl (by rw [e, max_eq_left h])
        · exact Or.inr ⟨k, List.mem_cons_of_mem _ hk, e⟩
    rcases key t f.l with e | ⟨g, hg, e⟩
    · exact ⟨f, by simp, e.symm⟩
    · exact ⟨g, List.mem_cons_of_mem _ hg, e⟩

theorem maxLength_perm {fs gs : List (Fiber K)} (h : fs.Perm gs) : maxLength fs = maxLength gs := by
  by_cases he : fs = []
  · subst he
    rw [List.nil_perm.1 h]
  · have he' : gs ≠ [] := fun e => he (by rw [e] at h; exact List.perm_nil.1 h)
    obtain ⟨f, hf, e⟩ := maxLength_mem he
    obtain ⟨g, hg, e'⟩ := maxLength_mem he'
    apply le_antisymm
    · rw [← e]; exact le_maxLength (h.mem_iff.1 hf)
    · rw [← e']; exact le_maxLength (h.mem_iff.2 hg)

variable {φ : ℕ → ℕ} {m m' : Mat K}

theorem Spec.RelabelledMat.lt (h : RelabelledMat φ m m') {i : ℕ} (hi : i < m.fibers.length) : φ i < m.fibers.length := by
  have := h.fiber i hi
  rw [List.getElem?_eq_getElem hi] at this
  rw [← h.count]
  exact (List.getElem?_eq_some_iff.1 this).1

theorem Spec.RelabelledMat.get (h : RelabelledMat φ m m') {i : ℕ} {f : Fiber K} (hf : m.fibers[i]? = some f) : m'.fibers[φ i]? = some f := by
  rw [h.fiber i (List.getElem?_eq_some_iff.1 hf).1, hf]

/-- Every fiber of the second mat is a fiber of the first. -/
theorem Spec.RelabelledMat.surj (h : RelabelledMat φ m m') {j : ℕ} {f : Fiber K} (hf : m'.fibers[j]? = some f) :
    ∃ i, j = φ i ∧ m.fibers[i]? = some f := by
  obtain ⟨τ, t1, t2, -⟩ := inverse_of_inj (fun i hi => h.lt hi) h.inj
  have hj : j < m.fibers.length := by rw [← h.count]; exact (List.getElem?_eq_some_iff.1 hf).1
  refine ⟨τ j, (t2 j hj).symm, ?_⟩
  rw [← h.fiber _ (t1 j hj), t2 j hj, hf]

theorem Spec.RelabelledMat.mem (h : RelabelledMat φ m m') (f : Fiber K) : f ∈ m'.fibers ↔ f ∈ m.fibers := by
  constructor
  · intro hf
    obtain ⟨j, hj⟩ := List.mem_iff_getElem?.1 hf
    obtain ⟨i, -, hi⟩ := h.surj hj
    exact List.mem_of_getElem? hi
  · intro hf
    obtain ⟨j, hj⟩ := List.mem_iff_getElem?.1 hf
    exact List.mem_of_getElem? (h.get hj)

theorem Spec.RelabelledMat.maxLength (h : RelabelledMat φ m m') : maxLength m'.fibers = maxLength m.fibers := by
  by_cases he : m.fibers = []
  · have : m'.fibers = [] := by rw [← List.length_eq_zero_iff, h.count, he]; rfl
    rw [he, this]
  · have he' : m'.fibers ≠ [] := by
      intro e
      apply he
      rw [← List.length_eq_zero_iff, ← h.count, e]; rfl
    obtain ⟨f, hf, e⟩ := maxLength_mem he
    obtain ⟨g, hg, e'⟩ := maxLength_mem he'
    apply le_antisymm
    · rw [← e']; exact le_maxLength ((h.mem g).1 hg)
    · rw [← e]; exact le_maxLength ((h.mem f).2 hf)

theorem Spec.RelabelledMat.good (h : RelabelledMat φ m m') (hm : GoodMat m) : GoodMat m' := by
  obtain ⟨S, hS, hf⟩ := hm.size
  exact ⟨by rw [h.attrs, h.count]; exact hm.n, S, by rw [h.attrs]; exact hS, fun f hf' => hf f ((h.mem f).1 hf')⟩

/-- Candidates of two fibers numbered in the same order. -/
theorem Spec.RelabelledMat.cands (h : RelabelledMat φ m m') (periodic : Bool) (S : K) {a b : ℕ} {f g : Fiber K} (hab : a ≤ b)
    (hf : m.fibers[a]? = some f) (hg : m.fibers[b]? = some g) (ho : a < b → φ a < φ b) :
    ((triu (extFibers periodic S m'.fibers)).filterMap candidate).filter (fun c => decide (candKey c = (φ a, φ b))) =
      (((triu (extFibers periodic S m.fibers)).filterMap candidate).filter (fun c => decide (candKey c = (a, b)))).map (relabelCand φ) := by
  have ha : a < m.fibers.length := (List.getElem?_eq_some_iff.1 hf).1
  have hb : b < m.fibers.length := (List.getElem?_eq_some_iff.1 hg).1
  have hbase : (plainFibers m'.fibers).filter (fun p => decide (p.1 = φ a ∨ p.1 = φ b)) =
      ((plainFibers m.fibers).filter (fun p => decide (p.1 = a ∨ p.1 = b))).map (relabel φ) := by
    rcases Nat.lt_or_eq_of_le hab with hlt | rfl
    · rw [plain_filter_two hlt hf hg, plain_filter_two (ho hlt) (h.get hf) (h.get hg)]; rfl
    · rw [plain_filter_one hf, plain_filter_one (h.get hf)]; rfl
  rw [cands_of_labels, cands_of_labels, hbase, h.maxLength, extOf_map, triu_map, List.filterMap_map,
    ← extOf_filter periodic S (Fibermat.maxLength m.fibers) (plainFibers m.fibers) (fun i => decide (i = a ∨ i = b))]
  have hlab : ∀ p ∈ triu ((extOf periodic S (Fibermat.maxLength m.fibers) (plainFibers m.fibers)).filter (fun q => decide (q.1 = a ∨ q.1 = b))),
      (p.1.1 = a ∨ p.1.1 = b) ∧ (p.2.1 = a ∨ p.2.1 = b) := by
    intro p hp
    obtain ⟨h1, h2⟩ := mem_triu hp
    have h1 := (List.mem_filter.1 h1).2
    have h2 := (List.mem_filter.1 h2).2
    rw [decide_eq_true_eq] at h1 h2
    exact ⟨h1, h2⟩
  generalize triu ((extOf periodic S (Fibermat.maxLength m.fibers) (plainFibers m.fibers)).filter (fun q => decide (q.1 = a ∨ q.1 = b))) = T
    at hlab
  have e : T.filterMap (candidate ∘ fun p : (ℕ × Fiber K) × (ℕ × Fiber K) => (relabel φ p.1, relabel φ p.2)) =
      T.filterMap (fun p : (ℕ × Fiber K) × (ℕ × Fiber K) => (candidate p).map (relabelCand φ)) := by
    refine List.filterMap_congr ?_
    intro p hp
    obtain ⟨h1, h2⟩ := hlab p hp
    have hne : a < b → φ a ≠ φ b := fun h => (ho h).ne
    refine candidate_relabel ?_ ?_
    · rcases h1 with h1 | h1 <;> rcases h2 with h2 | h2 <;> rw [h1, h2]
      · simp
      · exact ⟨h.inj a b ha hb, fun e => by rw [e]⟩
      · exact ⟨h.inj b a hb ha, fun e => by rw [e]⟩
      · simp
    · rcases Nat.lt_or_eq_of_le hab with hlt | rfl
      · have := ho hlt
        rcases h1 with h1 | h1 <;> rcases h2 with h2 | h2 <;> rw [h1, h2] <;> omega
      · rcases h1 with h1 | h1 <;> rcases h2 with h2 | h2 <;> rw [h1, h2] <;> omega
  rw [e, ← List.map_filterMap, List.filter_map]
  congr 1
  refine List.filter_congr ?_
  intro c hc
  obtain ⟨p, hp, hpc⟩ := List.mem_filterMap.1 hc
  obtain ⟨h1, h2⟩ := hlab p hp
  have hcl : (c.A = a ∨ c.A = b) ∧ (c.B = a ∨ c.B = b) := by
    rcases candidate_key_labels hpc with ⟨e1, e2, -⟩ | ⟨e1, e2, -⟩ <;> rw [e1, e2]
    · exact ⟨h1, h2⟩
    · exact ⟨h2, h1⟩
  simp only [Function.comp, candKey, relabelCand, Prod.mk.injEq, decide_eq_decide]
  obtain ⟨g1, g2⟩ := hcl
  have i1 : c.A < m.fibers.length := by rcases g1 with e | e <;> rw [e] <;> assumption
  have i2 : c.B < m.fibers.length := by rcases g2 with e | e <;> rw [e] <;> assumption
  exact ⟨fun ⟨e1, e2⟩ => ⟨h.inj _ _ i1 ha e1, h.inj _ _ i2 hb e2⟩, fun ⟨e1, e2⟩ => by rw [e1, e2]; exact ⟨rfl, rfl⟩⟩

/-- The candidates of the second mat are those of the first. -/
theorem Spec.RelabelledMat.mem_cands (h : RelabelledMat φ m m') (hl : ∀ f ∈ m.fibers, 0 < f.l) {periodic : Bool} {S : K}
    (ho : ∀ c ∈ netCands periodic S m.fibers, c.A < c.B → φ c.A < φ c.B) (c' : Cand K) :
    c' ∈ netCands periodic S m'.fibers ↔ ∃ c ∈ netCands periodic S m.fibers, c' = relabelCand φ c := by
  have hl' : ∀ f ∈ m'.fibers, 0 < f.l := fun f hf => hl f ((h.mem f).1 hf)
  constructor
  · intro hc
    obtain ⟨f, g, hf, hg, hle⟩ := netCands_labels hl' hc
    obtain ⟨a, ea, hfa⟩ := h.surj hf
    obtain ⟨b, eb, hgb⟩ := h.surj hg
    have ha := (List.getElem?_eq_some_iff.1 hfa).1
    have hb := (List.getElem?_eq_some_iff.1 hgb).1
    rcases Nat.lt_or_ge b a with hlt | hge
    · exfalso
      have hne : c'.A < c'.B := by
        rcases Nat.lt_or_eq_of_le hle with h0 | h0
        · exact h0
        · have := h.inj a b ha hb (by omega)
          omega
      -- the pair crosses in the first mat too
      have h1 := sortDedup_mem hc
      obtain ⟨p, hp, hpc⟩ := List.mem_filterMap.1 h1
      obtain ⟨q1, q2⟩ := mem_triu hp
      have back : ∀ q ∈ extFibers periodic S m'.fibers, ∀ i, i < m.fibers.length → q.1 = φ i → (i, q.2) ∈ extFibers periodic S m.fibers := by
        intro q hq i hi e
        unfold extFibers at hq ⊢
        cases periodic with
        | false =>
          simp only [Bool.false_eq_true, if_false] at hq ⊢
          rw [mem_plain] at hq ⊢
          rw [e, h.fiber i hi] at hq
          exact hq
        | true =>
          simp only [if_true] at hq ⊢
          rw [mem_periodic] at hq ⊢
          rw [e, h.fiber i hi, h.maxLength] at hq
          exact hq
      have hpos : ∀ q ∈ extFibers periodic S m.fibers, 0 < q.2.l := by
        intro q hq
        obtain ⟨f0, i, j, hf0, e, -⟩ := ext_image hq
        rw [e]
        exact hl f0 (List.mem_of_getElem? hf0)
      -- the two copies
      have key : ∀ q r : ℕ × Fiber K, q ∈ extFibers periodic S m'.fibers → r ∈ extFibers periodic S m'.fibers → q.1 = φ a → r.1 = φ b →
          (candidate (q, r) = some c' ∨ candidate (r, q) = some c') → False := by
        intro q r hq hr eq er hqr
        have hq0 := back q hq a ha eq
        have hr0 := back r hr b hb er
        have hlq := hpos _ hq0
        have hlr := hpos _ hr0
        have hqr : candidate (q, r) = some c' := by
          rcases hqr with e | e
          · exact e
          · obtain ⟨q1, q2⟩ := q
            obtain ⟨r1, r2⟩ := r
            rw [← candidate_swap (show q1 ≠ r1 by simp only at eq er; omega) hlq hlr]
            exact e
        obtain ⟨q1, q2⟩ := q
        obtain ⟨r1, r2⟩ := r
        simp only at eq er hlq hlr hq0 hr0
        rw [candidate_ne (by omega) hlq] at hqr
        obtain ⟨x1, x2, -, x4⟩ := hqr
        have hc0 := (candidate_ne (a := b) (b := a) (f := r2) (g := q2) (c := ⟨b, a, (abscissae r2 q2).1, (abscissae r2 q2).2⟩) hlt hlr).2
          ⟨by rw [nearby_comm]; exact x1, by rw [detU_comm]; exact x2, rfl, by
            rw [abscissae_swap _ _ x2]; exact ⟨x4.2, x4.1⟩⟩
        obtain ⟨d, hd, d1, d2⟩ := netCands_complete hr0 hq0 hlr hlq hlt hc0
        have := ho d hd (by rw [d1, d2]; exact hlt)
        rw [d1, d2] at this
        simp only at this
        omega
      rcases candidate_key_labels hpc with ⟨e1, e2, -⟩ | ⟨e1, e2, -⟩
      · exact key p.1 p.2 q1 q2 (by omega) (by omega) (Or.inl hpc)
      · exact key p.2 p.1 q2 q1 (by omega) (by omega) (Or.inr hpc)
    · have hab : a < b → φ a < φ b := by
        intro hlt
        rcases Nat.lt_or_eq_of_le hle with h0 | h0
        · omega
        · have := h.inj a b ha hb (by omega)
          omega
      have hk : candKey c' = (φ a, φ b) := by rw [candKey, ea, eb]
      unfold netCands at hc
      rw [mem_sortDedup, hk, h.cands periodic S hge hfa hgb hab, List.head?_map, Option.map_eq_some_iff] at hc
      obtain ⟨c, hc, rfl⟩ := hc
      refine ⟨c, ?_, rfl⟩
      have hkc : candKey c = (a, b) := by
        have := (List.mem_filter.1 (List.mem_of_mem_head? hc)).2
        simpa using this
      unfold netCands
      rw [mem_sortDedup, hkc]
      exact hc
  · rintro ⟨c, hc, rfl⟩
    obtain ⟨f, g, hf, hg, hle⟩ := netCands_labels hl hc
    have hoc := ho c hc
    unfold netCands at hc ⊢
    rw [mem_sortDedup] at hc ⊢
    have hk : candKey (relabelCand φ c) = (φ c.A, φ c.B) := rfl
    rw [hk, h.cands periodic S hle hf hg hoc, List.head?_map]
    have hk : candKey c = (c.A, c.B) := rfl
    rw [hk] at hc
    rw [hc]; rfl

/-- The net with other numbers. -/
theorem relabelled_net (h : RelabelledMat φ m m') (hm : GoodMat m) {periodic : Bool} {net : Net K} (hn : netNew m periodic = .ok net)
    (ho : KeepsOrder φ net.rows) : ∃ net', netNew m' periodic = .ok net' ∧ RelabelledNet φ net net' := by
  obtain ⟨S, hS, hgood, rfl⟩ := netNew_ok hm hn
  have hl : ∀ f ∈ m.fibers, 0 < f.l := fun f hf => (hgood f hf).l
  refine ⟨_, netNew_eq (h.good hm) (by rw [h.attrs]; exact hS) periodic, by simp only [h.attrs], ?_⟩
  have ho' : ∀ c ∈ netCands periodic S m.fibers, c.A < c.B → φ c.A < φ c.B := by
    intro c hc hlt
    have := ho (netRow m.fibers c) (List.mem_map_of_mem hc) (by simp only [netRow]; omega)
    simpa only [netRow, Int.toNat_natCast] using this
  have hmem := h.mem_cands hl ho'
  have hperm : (netCands periodic S m'.fibers).Perm ((netCands periodic S m.fibers).map (relabelCand φ)) := by
    have nd : ∀ l : List (Cand K), (sortDedup l).Nodup := by
      intro l
      refine (sortDedup_strict l).imp ?_
      rintro a b hab rfl
      unfold candLt at hab
      omega
    refine (List.perm_ext_iff_of_nodup (nd _) ?_).2 ?_
    · refine List.Nodup.map_on ?_ (nd _)
      intro x hx y hy e
      obtain ⟨f, g, hf, hg, -⟩ := netCands_labels hl hx
      obtain ⟨f', g', hf', hg', -⟩ := netCands_labels hl hy
      simp only [relabelCand, Cand.mk.injEq] at e
      refine sortDedup_unique hx hy ?_ ?_
      · exact h.inj _ _ (List.getElem?_eq_some_iff.1 hf).1 (List.getElem?_eq_some_iff.1 hf').1 e.1
      · exact h.inj _ _ (List.getElem?_eq_some_iff.1 hg).1 (List.getElem?_eq_some_iff.1 hg').1 e.2.1
    · intro c
      refine (hmem c).trans ?_
      rw [List.mem_map]
      exact ⟨fun ⟨d, h1, h2⟩ => ⟨d, h1, h2.symm⟩, fun ⟨d, h1, h2⟩ => ⟨d, h1, h2.symm⟩⟩
  refine (hperm.map _).trans (List.Perm.of_eq ?_)
  rw [List.map_map, List.map_map]
  refine List.map_congr_left ?_
  intro c hc
  obtain ⟨f, g, hf, hg, -⟩ := netCands_labels hl hc
  simp only [Function.comp, netRow, relabelCand, relabelRow, Int.toNat_natCast, List.getD_eq_getElem?_getD, h.get hf, h.get hg, hf, hg,
    Option.getD_some]

end Fibermat
