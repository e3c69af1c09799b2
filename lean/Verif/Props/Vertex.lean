import Verif.Spec.Vertex
import Verif.Lemmas.Vertex
import Verif.Props.LoadTheorems

/-! # C102: the loads given by a simplex method form a tree of supports -/

set_option linter.unusedSectionVars false

namespace Fibermat
open Spec
variable {K : Type} [Field K] [LinearOrder K] [IsStrictOrderedRing K]

/-- Contact `k` touches. -/
def touchAt (m : Mat K) (rows : List (NetRow K)) (k : ℕ) : Prop := ∃ r, rows[k]? = some r ∧ Touches m r

theorem held_iff_bal {m : Mat K} {rows : List (NetRow K)} {F : List K} {N : ℕ → K} (hF : F.length = rows.length) :
    Held m rows F N ↔ Bal rows.length m.fibers.length (rowA rows) (rowB rows) (touchAt m rows) (OnFloor m) (weight m) (comp F) N := by
  have hg : ∀ k (hk : k < rows.length), F[k]? = some (comp F k) := by
    intro k hk
    have : k < F.length := by omega
    simp [comp, List.getElem?_eq_getElem this, List.getD_eq_getElem?_getD]
  constructor
  · intro h
    refine ⟨fun k _ => comp_nonneg h.push k, ?_, h.floor, h.lies, ?_⟩
    · intro k hk hne
      exact ⟨_, List.getElem?_eq_getElem hk, h.touch (rows[k], comp F k) (List.mem_iff_getElem?.2 ⟨k, by
        rw [List.getElem?_zip_eq_some]; exact ⟨List.getElem?_eq_getElem hk, hg k hk⟩⟩) hne⟩
    · intro i hi
      have := h.balance i hi
      rwa [pressOn_eq hF, pressUnder_eq hF] at this
  · intro h
    refine ⟨hF, ?_, h.floor, ?_, h.lies, ?_⟩
    · intro v hv
      obtain ⟨k, hk⟩ := List.mem_iff_getElem?.1 hv
      have hk' : k < rows.length := by rw [← hF]; exact (List.getElem?_eq_some_iff.1 hk).1
      have := h.push k hk'
      rw [hg k hk'] at hk
      cases hk
      exact this
    · rintro ⟨r, v⟩ hp hv
      obtain ⟨k, hk⟩ := List.mem_iff_getElem?.1 hp
      rw [List.getElem?_zip_eq_some] at hk
      obtain ⟨h1, h2⟩ := hk
      simp only at h1 h2 hv ⊢
      have hk' := (List.getElem?_eq_some_iff.1 h1).1
      rw [hg k hk'] at h2
      cases h2
      obtain ⟨r', e, ht⟩ := h.touch k hk' hv
      rw [h1] at e
      cases e
      exact ht
    · intro i hi
      rw [pressOn_eq hF, pressUnder_eq hF]
      exact h.balance i hi

theorem pile_of {m m' : Mat K} {rows : List (NetRow K)} (h : GoodMat m) (ho : OverMat m rows) (hsame : SameExceptZ m m')
    (hz : NoOverlap m rows (heightOf m')) :
    Pile (innerRows rows).length m'.fibers.length (rowA (innerRows rows)) (rowB (innerRows rows)) (touchAt m' (innerRows rows)) (OnFloor m')
      (weight m') := by
  have hlen := same_length hsame
  refine ⟨fun k hk => by rw [hlen]; exact row_labels (inner_labels ho) hk, fun i hi => by
    rw [same_weight hsame]; exact weight_pos h (by omega), ?_⟩
  rintro k i hk ⟨r, hr, ht⟩ hB hL
  have hB' : r.B = (i : Int) := by simpa [rowB, hr] using hB
  have hl := inner_labels ho r (List.mem_of_getElem? hr)
  have hA : r.A.toNat < m.fibers.length := by omega
  have hfl := hz.floor _ hA
  obtain ⟨S, -, hg⟩ := h.size
  have hth : 0 < thick m r.A.toNat := by
    rw [thick_of (List.getElem?_eq_getElem hA)]; exact (hg _ (List.getElem_mem hA)).h
  have e : r.B.toNat = i := by omega
  unfold Touches at ht
  unfold OnFloor at hL
  rw [same_thick hsame, same_thick hsame, e] at ht
  rw [same_thick hsame] at hL
  linarith

theorem comp_ofFn (r : ℕ) (f : ℕ → K) {k : ℕ} (hk : k < r) : comp ((List.range r).map f) k = f k := by
  rw [comp_map _ _ (a := k)]; simp [hk]

theorem comp_beyond {F : List K} {k : ℕ} (hk : F.length ≤ k) : comp F k = 0 := by
  simp [comp, List.getD_eq_getElem?_getD, List.getElem?_eq_none hk]

theorem bal_congr {r n : ℕ} {A B : ℕ → Int} {T L : ℕ → Prop} {w F G N : ℕ → K} (h : Bal r n A B T L w F N) (e : ∀ k, k < r → G k = F k) :
    Bal r n A B T L w G N := by
  have ea : ∀ lab i, at' r lab G i = at' r lab F i := fun lab i => Finset.sum_congr rfl (fun k hk => by rw [e k (Finset.mem_range.1 hk)])
  refine ⟨fun k hk => by rw [e k hk]; exact h.push k hk, fun k hk hne => h.touch k hk (by rwa [← e k hk]), h.floor, h.lies, fun i hi => ?_⟩
  rw [ea, ea]
  exact h.balance i hi

theorem list_ext_comp {F G : List K} (hl : F.length = G.length) (h : ∀ k, k < F.length → comp F k = comp G k) : F = G := by
  apply List.ext_getElem hl
  intro k h1 h2
  have := h k h1
  simpa [comp, List.getD_eq_getElem?_getD, h1, h2] using this

theorem filter_card {α : Type} (p : α → Bool) (L : List α) (d : α) :
    (L.filter p).length = ((Finset.range L.length).filter (fun k => p (L.getD k d) = true)).card := by
  induction L with
  | nil => simp
  | cons a t ih =>
    rw [List.length_cons, Finset.range_add_one', Finset.filter_insert, Finset.filter_map]
    have e : ((Finset.range t.length).filter ((fun k => p ((a :: t).getD k d) = true) ∘ ⇑(⟨fun i => i + 1, fun i j => by simp⟩ : ℕ ↪ ℕ))) =
        (Finset.range t.length).filter (fun k => p (t.getD k d) = true) := by
      apply Finset.filter_congr
      intro k _
      show p ((a :: t).getD (k + 1) d) = true ↔ _
      simp
    rw [e]
    by_cases hp : p a
    · rw [List.filter_cons_of_pos hp, List.length_cons, ih, if_pos (by simpa using hp), Finset.card_insert_of_notMem (by simp), Finset.card_map]
    · rw [List.filter_cons_of_neg hp, ih, if_neg (by simpa using hp), Finset.card_map]

theorem zip_get {rows : List (NetRow K)} {F : List K} (hF : F.length = rows.length) {k : ℕ} (hk : k < rows.length) (d : NetRow K × K) :
    (rows.zip F).getD k d = (rows[k], comp F k) := by
  have : k < F.length := by omega
  rw [List.getD_eq_getElem?_getD, List.getElem?_eq_getElem (by simp; omega)]
  simp [comp, List.getD_eq_getElem?_getD, this]

theorem loaded_card {rows : List (NetRow K)} {F : List K} (hF : F.length = rows.length) :
    (loaded rows F).length = ((Finset.range rows.length).filter (fun k => comp F k ≠ 0)).card := by
  cases rows with
  | nil => simp [loaded]
  | cons r0 t =>
    unfold loaded
    rw [filter_card _ _ (r0, 0)]
    have : ((r0 :: t).zip F).length = (r0 :: t).length := by simp [hF]
    rw [this]
    congr 1
    apply Finset.filter_congr
    intro k hk
    rw [zip_get hF (Finset.mem_range.1 hk)]
    simp

theorem loadedUnder_card {rows : List (NetRow K)} {F : List K} (hF : F.length = rows.length) (i : ℕ) :
    (loadedUnder rows F i).length = ((Finset.range rows.length).filter (fun k => rowB rows k = (i : Int) ∧ comp F k ≠ 0)).card := by
  cases rows with
  | nil => simp [loaded, loadedUnder]
  | cons r0 t =>
    unfold loadedUnder loaded
    rw [List.filter_filter, filter_card _ _ (r0, 0)]
    have : ((r0 :: t).zip F).length = (r0 :: t).length := by simp [hF]
    rw [this]
    congr 1
    apply Finset.filter_congr
    intro k hk
    rw [zip_get hF (Finset.mem_range.1 hk)]
    simp [rowB, List.getElem?_eq_getElem (Finset.mem_range.1 hk)]

theorem under_le_one {rows : List (NetRow K)} {F : List K} (hF : F.length = rows.length) (i : ℕ) :
    (loadedUnder rows F i).length ≤ 1 ↔ ∀ k k', k < rows.length → k' < rows.length → comp F k ≠ 0 → comp F k' ≠ 0 →
      rowB rows k = (i : Int) → rowB rows k' = (i : Int) → k = k' := by
  rw [loadedUnder_card hF, Finset.card_le_one]
  constructor
  · intro h k k' hk hk' h1 h2 b1 b2
    exact h k (by simp [hk, b1, h1]) k' (by simp [hk', b2, h2])
  · intro h k hk k' hk'
    simp only [Finset.mem_filter, Finset.mem_range] at hk hk'
    exact h k k' hk.1 hk'.1 hk.2.2 hk'.2.2 hk.2.1 hk'.2.1

section
variable {m m' : Mat K} {rows : List (NetRow K)} (h : GoodMat m) (ho : OverMat m rows) (hsame : SameExceptZ m m')
include h ho hsame

/-- C102: forces that hold the fibers are a vertex exactly when no fiber rests on two loaded contacts. -/
theorem C102_vertex (hz : NoOverlap m rows (heightOf m')) (F : List K) :
    Vertex (Holding m' (innerRows rows)) F ↔
      Holding m' (innerRows rows) F ∧ ∀ i, i < m'.fibers.length → (loadedUnder (innerRows rows) F i).length ≤ 1 := by
  have hp := pile_of h ho hsame hz
  constructor
  · rintro ⟨⟨N, hN⟩, hv⟩
    refine ⟨⟨N, hN⟩, fun i hi => (under_le_one hN.size i).2 ?_⟩
    intro k1 k2 hk1 hk2 f1 f2 b1 b2
    by_contra hne
    obtain ⟨D, N1, N2, hD, g1, g2⟩ := bal_shift hp ((held_iff_bal hN.size).1 hN) hk1 hk2 hne (b1.trans b2.symm) f1 f2
    have e := hv ((List.range (innerRows rows).length).map (fun k => comp F k + D k))
      ((List.range (innerRows rows).length).map (fun k => comp F k - D k))
      ⟨N1, (held_iff_bal (by simp)).2 (bal_congr g1 (fun k hk => comp_ofFn _ _ hk))⟩
      ⟨N2, (held_iff_bal (by simp)).2 (bal_congr g2 (fun k hk => comp_ofFn _ _ hk))⟩ (by
        intro k
        by_cases hk : k < (innerRows rows).length
        · rw [comp_ofFn _ _ hk, comp_ofFn _ _ hk]; ring
        · rw [comp_beyond (by simp; omega), comp_beyond (by simp; omega), comp_beyond (by rw [hN.size]; omega)]; ring)
    have e' := congrArg (fun l => comp l k1) e
    simp only [comp_ofFn _ _ hk1] at e'
    apply hD
    linarith
  · rintro ⟨⟨N, hN⟩, hone⟩
    refine ⟨⟨N, hN⟩, ?_⟩
    rintro d1 d2 ⟨N1, h1⟩ ⟨N2, h2⟩ hmid
    apply list_ext_comp (by rw [h1.size, h2.size])
    intro k hk
    rw [h1.size] at hk
    have z : ∀ k, comp F k = 0 → comp d1 k = 0 ∧ comp d2 k = 0 := by
      intro k e
      have := comp_nonneg h1.push k
      have := comp_nonneg h2.push k
      have := hmid k
      rw [e] at this
      constructor <;> linarith
    refine bal_unique hp ((held_iff_bal h1.size).1 h1) ((held_iff_bal h2.size).1 h2) (C := fun k => comp F k ≠ 0)
      (fun k _ hne e => hne (z k e).1) (fun k _ hne e => hne (z k e).2) ?_ k hk
    intro k k' hk hk' c c' hb
    obtain ⟨a0, ab, bn⟩ := hp.labels k hk
    exact (under_le_one hN.size _).1 (hone (rowB (innerRows rows) k).toNat (by omega)) k k' hk hk' c c' (by omega) (by omega)

/-- C102: at a vertex every fiber above the floor rests on exactly one loaded contact, a fiber on the floor on none. -/
theorem C102_supports (hz : NoOverlap m rows (heightOf m')) {F : List K} (hF : Vertex (Holding m' (innerRows rows)) F) {i : ℕ}
    (hi : i < m'.fibers.length) : (loadedUnder (innerRows rows) F i).length = if OnFloor m' i then 0 else 1 := by
  have hp := pile_of h ho hsame hz
  obtain ⟨⟨N, hN⟩, h1⟩ := (C102_vertex h ho hsame hz F).1 hF
  have hb := (held_iff_bal hN.size).1 hN
  split_ifs with hL
  · rw [loadedUnder_card hN.size, Finset.card_eq_zero, Finset.filter_eq_empty_iff]
    rintro k hk ⟨hB, hne⟩
    exact hne (bal_low hp hb hL (Finset.mem_range.1 hk) hB)
  · refine le_antisymm (h1 i hi) ?_
    obtain ⟨k, hk, hB, hne⟩ := bal_held hp hb hi hL
    rw [loadedUnder_card hN.size]
    exact Finset.card_pos.2 ⟨k, by simp [hk, hB, hne]⟩

/-- C102: at a vertex there are as many loaded contacts as fibers above the floor. -/
theorem C102_count (hz : NoOverlap m rows (heightOf m')) {F : List K} (hF : Vertex (Holding m' (innerRows rows)) F) :
    (loaded (innerRows rows) F).length = ((List.range m'.fibers.length).filter (fun i => ¬ OnFloor m' i)).length := by
  have hp := pile_of h ho hsame hz
  obtain ⟨N, hN⟩ := hF.1
  rw [loaded_card hN.size, Finset.card_eq_sum_card_fiberwise (f := fun k => (rowB (innerRows rows) k).toNat) (t := Finset.range m'.fibers.length)
    (by
      intro k hk
      simp only [Finset.coe_filter, Finset.mem_range, Set.mem_ofPred_eq] at hk
      have := hp.labels k hk.1
      simp only [Finset.coe_range, Set.mem_Iio]
      omega)]
  have e : ∀ i ∈ Finset.range m'.fibers.length,
      (((Finset.range (innerRows rows).length).filter (fun k => comp F k ≠ 0)).filter (fun k => (rowB (innerRows rows) k).toNat = i)).card =
        if ¬ OnFloor m' i then 1 else 0 := by
    intro i hi
    have hi' := Finset.mem_range.1 hi
    have := C102_supports h ho hsame hz hF hi'
    rw [loadedUnder_card hN.size] at this
    rw [Finset.filter_filter]
    have e2 : (Finset.range (innerRows rows).length).filter (fun k => comp F k ≠ 0 ∧ (rowB (innerRows rows) k).toNat = i) =
        (Finset.range (innerRows rows).length).filter (fun k => rowB (innerRows rows) k = (i : Int) ∧ comp F k ≠ 0) := by
      apply Finset.filter_congr
      intro k hk
      have := hp.labels k (Finset.mem_range.1 hk)
      constructor
      · rintro ⟨a, b⟩; exact ⟨by omega, a⟩
      · rintro ⟨a, b⟩; exact ⟨b, by omega⟩
    rw [e2, this]
    split_ifs <;> rfl
  rw [Finset.sum_congr rfl e, Finset.sum_boole, Nat.cast_id]
  rw [filter_card (fun i => decide (¬ OnFloor m' i)) (List.range m'.fibers.length) 0, List.length_range]
  congr 1
  apply Finset.filter_congr
  intro i hi
  simp [List.getD_eq_getElem?_getD, List.getElem?_range (Finset.mem_range.1 hi)]

/-- C102: at a vertex a loaded contact carries its upper fiber with all that presses on it. -/
theorem C102_force (hz : NoOverlap m rows (heightOf m')) {F : List K} (hF : Vertex (Holding m' (innerRows rows)) F) {i : ℕ}
    (hi : i < m'.fibers.length) (hL : ¬ OnFloor m' i) :
    ∃ p, loadedUnder (innerRows rows) F i = [p] ∧ p.2 = weight m' i + pressOn (innerRows rows) F i := by
  have h1 := C102_supports h ho hsame hz hF hi
  rw [if_neg hL] at h1
  obtain ⟨p, hp⟩ := List.length_eq_one_iff.1 h1
  refine ⟨p, hp, ?_⟩
  obtain ⟨N, hN⟩ := hF.1
  have h0 : N i = 0 := by by_contra hc; exact hL (hN.lies i hi hc)
  have hb := hN.balance i hi
  rw [hb, h0, add_zero]
  have e : pressUnder (innerRows rows) F i = ((loadedUnder (innerRows rows) F i).map (·.2)).sum := by
    unfold pressUnder loadedUnder loaded
    rw [List.filter_filter]
    induction (innerRows rows).zip F with
    | nil => rfl
    | cons a t ih =>
      by_cases hB : a.1.B = (i : Int)
      · by_cases hz : a.2 = 0
        · simp [hB, hz, ih]
        · simp [hB, hz, ih]
      · simp [hB, ih]
  rw [e, hp]
  simp

/-- C102: the vertices are the choices of a touching contact under each fiber above the floor: each choice is the set of loaded contacts of
one and only one vertex. -/
theorem C102_choice (hz : NoOverlap m rows (heightOf m')) (s : ℕ → ℕ)
    (hs : ∀ i, i < m'.fibers.length → ¬ OnFloor m' i → ∃ r, (innerRows rows)[s i]? = some r ∧ r.B = (i : Int) ∧ Touches m' r) :
    ∃! F, Vertex (Holding m' (innerRows rows)) F ∧
      ∀ (k : ℕ) (r : NetRow K), (innerRows rows)[k]? = some r → comp F k ≠ 0 → k = s r.B.toNat := by
  classical
  have hp := pile_of h ho hsame hz
  have hlen := same_length hsame
  have hw : ∀ i, i < m'.fibers.length → 0 ≤ weight m' i := fun i hi => (hp.weight i hi).le
  let c : ℕ → Option ℕ := fun i => if i < m'.fibers.length ∧ ¬ OnFloor m' i then some (s i) else none
  have hc : ∀ i k, c i = some k → i < m'.fibers.length ∧ k = s i ∧ ∃ r, (innerRows rows)[k]? = some r ∧ r.B = (i : Int) ∧ Touches m' r := by
    intro i k hk
    simp only [c] at hk
    split_ifs at hk with h1
    cases hk
    exact ⟨h1.1, rfl, hs i h1.1 h1.2⟩
  obtain ⟨G, h1, h2, h3⟩ := support_flow (innerRows rows).length (rowA (innerRows rows)) (rowB (innerRows rows)) c (by
    intro i k hk
    obtain ⟨-, -, r, hr, hB, -⟩ := hc i k hk
    have := inner_labels ho r (List.mem_of_getElem? hr)
    simp only [rowA, rowB, hr, Option.map_some, Option.getD_some]
    exact ⟨(List.getElem?_eq_some_iff.1 hr).1, hB, by omega, this.1⟩) m'.fibers.length (weight m') hw
  have hb : Bal (innerRows rows).length m'.fibers.length (rowA (innerRows rows)) (rowB (innerRows rows)) (touchAt m' (innerRows rows)) (OnFloor m')
      (weight m') G (fun i => if OnFloor m' i then weight m' i + at' (innerRows rows).length (rowA (innerRows rows)) G i else 0) := by
    refine ⟨fun k _ => h1 k, ?_, ?_, ?_, ?_⟩
    · intro k hk hne
      obtain ⟨i, -, e⟩ := h2 k hne
      obtain ⟨-, -, r, hr, -, ht⟩ := hc i k e
      exact ⟨r, hr, ht⟩
    · intro i hi
      split_ifs
      · exact add_nonneg (hw i hi) (at_nonneg (fun k _ => h1 k) i)
      · exact le_rfl
    · intro i hi hne
      by_contra hL
      simp [hL] at hne
    · intro i hi
      by_cases hL : OnFloor m' i
      · rw [if_pos hL]
        have := (h3 i hi).2 (by simp [c, hL])
        unfold at'
        rw [this]; ring
      · rw [if_neg hL, add_zero]
        exact (h3 i hi).1 (by simp [c, hL, hi])
  have hF : ((List.range (innerRows rows).length).map G).length = (innerRows rows).length := by simp
  have hheld := (held_iff_bal hF).2 (bal_congr hb (fun k hk => comp_ofFn _ _ hk))
  have hsupp : ∀ (k : ℕ) (r : NetRow K), (innerRows rows)[k]? = some r → comp ((List.range (innerRows rows).length).map G) k ≠ 0 →
      k = s r.B.toNat := by
    intro k r hr hne
    have hk := (List.getElem?_eq_some_iff.1 hr).1
    rw [comp_ofFn _ _ hk] at hne
    obtain ⟨i, -, e⟩ := h2 k hne
    obtain ⟨-, e1, r', hr', hB, -⟩ := hc i k e
    rw [hr] at hr'
    cases hr'
    rw [hB]
    simpa using e1
  have hone : ∀ F : List K, F.length = (innerRows rows).length →
      (∀ (k : ℕ) (r : NetRow K), (innerRows rows)[k]? = some r → comp F k ≠ 0 → k = s r.B.toNat) →
      ∀ k, k < (innerRows rows).length → comp F k ≠ 0 → k = s (rowB (innerRows rows) k).toNat := by
    intro F _ hs' k hk hne
    have := hs' k _ (List.getElem?_eq_getElem hk) hne
    simpa [rowB, List.getElem?_eq_getElem hk] using this
  refine ⟨(List.range (innerRows rows).length).map G, ⟨(C102_vertex h ho hsame hz _).2 ⟨⟨_, hheld⟩, fun i hi => ?_⟩, hsupp⟩, ?_⟩
  · rw [under_le_one hF]
    intro k k' hk hk' f f' b b'
    rw [hone _ hF hsupp k hk f, hone _ hF hsupp k' hk' f', b, b']
  · rintro F' ⟨hv, hs'⟩
    obtain ⟨N', hN'⟩ := hv.1
    apply list_ext_comp (by rw [hF, hN'.size])
    intro k hk
    rw [hN'.size] at hk
    refine bal_unique hp ((held_iff_bal hN'.size).1 hN') ((held_iff_bal hF).1 hheld)
      (C := fun k => k = s (rowB (innerRows rows) k).toNat) (hone _ hN'.size hs') (hone _ hF hsupp) ?_ k hk
    intro k k' _ _ c1 c2 hB
    rw [c1, c2, hB]

/-- C102: for fibers of equal weight the forces of a vertex are whole numbers of fiber weights. -/
theorem C102_whole (hz : NoOverlap m rows (heightOf m')) {F : List K} (hF : Vertex (Holding m' (innerRows rows)) F) {w : K}
    (hw : ∀ i, i < m'.fibers.length → weight m' i = w) : ∀ v ∈ F, ∃ n : ℕ, v = n * w := by
  have hp := pile_of h ho hsame hz
  obtain ⟨⟨N, hN⟩, h1⟩ := (C102_vertex h ho hsame hz F).1 hF
  have hb := (held_iff_bal hN.size).1 hN
  have main : ∀ t k, k < (innerRows rows).length → (m'.fibers.length : Int) - rowB (innerRows rows) k ≤ (t : ℕ) → ∃ n : ℕ, comp F k = n * w := by
    intro t
    induction t with
    | zero => intro k hk hb; have := (hp.labels k hk).2.2; omega
    | succ t ih =>
      intro k hk hle
      obtain ⟨a0, ab, bn⟩ := hp.labels k hk
      by_cases hne : comp F k = 0
      · exact ⟨0, by simp [hne]⟩
      have hi : (rowB (innerRows rows) k).toNat < m'.fibers.length := by omega
      have hBi : rowB (innerRows rows) k = (((rowB (innerRows rows) k).toNat : ℕ) : Int) := by omega
      have hL : ¬ OnFloor m' (rowB (innerRows rows) k).toNat := fun hL => hne (bal_low hp hb hL hk hBi)
      have h0 : N (rowB (innerRows rows) k).toNat = 0 := by by_contra hc; exact hL (hN.lies _ hi hc)
      have e := hb.balance _ hi
      rw [h0, hw _ hi, add_zero, at_one (lab := rowB (innerRows rows)) hk hBi (fun k' hk' hl hne' => by
        by_contra hcc
        exact hne' ((under_le_one hN.size _).1 (h1 _ hi) k' k hk' hk hcc hne hl hBi))] at e
      have hsum : ∀ s : Finset ℕ, s ⊆ Finset.range (innerRows rows).length → ∃ n : ℕ,
          ∑ k' ∈ s, (if rowA (innerRows rows) k' = (((rowB (innerRows rows) k).toNat : ℕ) : Int) then comp F k' else 0) = n * w := by
        intro s
        induction s using Finset.induction_on with
        | empty => intro _; exact ⟨0, by simp⟩
        | insert a s ha ihs =>
          intro hsub
          obtain ⟨n, hn⟩ := ihs ((Finset.subset_insert _ _).trans hsub)
          rw [Finset.sum_insert ha, hn]
          have har := Finset.mem_range.1 (hsub (Finset.mem_insert_self _ _))
          have := hp.labels a har
          split_ifs with hA
          · obtain ⟨n', hn'⟩ := ih a har (by omega)
            exact ⟨n' + n, by rw [hn']; push_cast; ring⟩
          · exact ⟨n, by ring⟩
      obtain ⟨n, hn⟩ := hsum _ (Finset.Subset.refl _)
      unfold at' at e
      rw [hn] at e
      exact ⟨n + 1, by rw [← e]; push_cast; ring⟩
  intro v hv
  obtain ⟨k, hk⟩ := List.mem_iff_getElem?.1 hv
  have hk' : k < (innerRows rows).length := by rw [← hN.size]; exact (List.getElem?_eq_some_iff.1 hk).1
  have := hp.labels k hk'
  obtain ⟨n, hn⟩ := main m'.fibers.length k hk' (by omega)
  refine ⟨n, ?_⟩
  rw [← hn]
  simp [comp, List.getD_eq_getElem?_getD, hk]

end

theorem neg_neg_map (d : List K) : (d.map (fun v => -v)).map (fun v => -v) = d := by
  rw [List.map_map]; simp [Function.comp_def]

/-- C102: vertices among the sensitivities of the stacking program are, up to the sign, vertices among the forces. -/
theorem C102_dual {m m' : Mat K} {net : Net K} (ho : OverMat m net.rows) (hsame : SameExceptZ m m') {z : List K}
    (hh : ∀ i, i < m.fibers.length → heightOf m' i = comp z i) (d : List K) :
    Vertex (IsDual (stackSysOf m net).lp z) d ↔ Vertex (Holding m' (innerRows net.rows)) (d.map (fun v => -v)) := by
  have key := fun d => C96_dual ho hsame hh d
  constructor
  · rintro ⟨h1, h2⟩
    refine ⟨(key d).1 h1, fun d1 d2 g1 g2 hm => ?_⟩
    have e := h2 (d1.map (fun v => -v)) (d2.map (fun v => -v)) ((key _).2 (by rw [neg_neg_map]; exact g1)) ((key _).2 (by rw [neg_neg_map]; exact g2))
      (fun k => by have := hm k; rw [comp_neg] at this; rw [comp_neg, comp_neg]; linarith)
    rw [← neg_neg_map d1, e, neg_neg_map]
  · rintro ⟨h1, h2⟩
    refine ⟨(key d).2 h1, fun d1 d2 g1 g2 hm => ?_⟩
    have e := h2 (d1.map (fun v => -v)) (d2.map (fun v => -v)) ((key _).1 g1) ((key _).1 g2)
      (fun k => by have := hm k; rw [comp_neg, comp_neg, comp_neg]; linarith)
    rw [← neg_neg_map d1, e, neg_neg_map]

theorem loadedUnder_congr {rows rows' : List (NetRow K)} (h : rows.map (fun r => (r.A, r.B)) = rows'.map (fun r => (r.A, r.B))) (F : List K) :
    (loaded rows F).map (fun p => (p.1.A, p.1.B, p.2)) = (loaded rows' F).map (fun p => (p.1.A, p.1.B, p.2)) := by
  have key : ∀ l : List (NetRow K), (loaded l F).map (fun p => (p.1.A, p.1.B, p.2)) =
      (((l.map (fun r => (r.A, r.B))).zip F).filter (fun p => p.2 ≠ 0)).map (fun p => (p.1.1, p.1.2, p.2)) := by
    intro l
    unfold loaded
    rw [List.zip_map_left, List.filter_map, List.map_map]
    rfl
  rw [key, key, h]

section
variable {lin : LinprogSol K} (hlin : GoodLinprogSol lin) {m : Mat K} (h : GoodMat m) (hw : ∀ f ∈ m.fibers, f.w = 0)
  (hne : m.fibers ≠ []) {periodic : Bool} {P : LoadPicture K} (hP : loadPicture lin m periodic = .ok P)
  (hv : ∀ net s, netNew m periodic = .ok net → lin (stackSysOf m net).lp = some s → Vertex (IsDual (stackSysOf m net).lp s.x) s.marginals)
include hlin h hw hne hP hv

theorem picture_vertex :
    ∃ net, netNew m periodic = .ok net ∧ OverMat m net.rows ∧ SameExceptZ m P.mat ∧ NoOverlap m net.rows (heightOf P.mat) ∧
      planColumns P.stack.rows = planColumns net.rows ∧ Vertex (Holding P.mat (innerRows net.rows)) (P.force.map (fun v => -v)) := by
  obtain ⟨P', lo, hi, N, h1, h2, ⟨net, h3, h4, h5, x, h6⟩, -⟩ := loadPicture_eq hlin h hw hne periodic
  rw [hP] at h1
  cases h1
  obtain ⟨hck, ho, -⟩ := netNew_over h h3
  refine ⟨net, h3, ho, h2, h5.1, h4, ?_⟩
  obtain ⟨F, N', hF⟩ := C96_exists h ho h2 h5
  have hvx := hv net _ h3 h6
  have hopt : Optimal (stackSysOf m net).lp ((List.range m.fibers.length).map (heightOf P.mat)) :=
    (optimal_iff h ho _).2 ⟨by simp, ⟨⟨fun i hi => by rw [comp_ofFn _ _ hi]; exact h5.1.floor i hi, fun r hr hlt => by
      have := ho r hr
      rw [comp_ofFn _ _ (by omega), comp_ofFn _ _ (by omega)]
      exact h5.1.gap r hr hlt⟩, fun y hy i hi => by rw [comp_ofFn _ _ hi]; exact h5.2 y hy i hi⟩⟩
  have hdual : IsDual (stackSysOf m net).lp ((List.range m.fibers.length).map (heightOf P.mat)) (F.map (fun v => -v)) :=
    (C96_dual ho h2 (fun i hi => (comp_ofFn _ _ hi).symm) _).2 ⟨N', by rw [neg_neg_map]; exact hF⟩
  obtain ⟨s, e1, e2, e3⟩ := hlin (stackSysOf m net).lp ⟨_, _, hopt, hdual⟩
  rw [h6] at e1
  cases e1
  have hlow := ((optimal_iff h ho _).1 e2).2
  exact (C102_dual ho h2 (fun i hi => lowest_unique h5 hlow i hi) _).1 hvx

/-- C102: with a solver that returns vertices (simplex), and fibers heavier than the threshold of the picture, as many contacts are drawn as there
are fibers above the floor. -/
theorem C102_picture (hheavy : ∀ i, i < P.mat.fibers.length → 1 / 100000000 < weight P.mat i) :
    P.contacts.length = ((List.range P.mat.fibers.length).filter (fun i => ¬ OnFloor P.mat i)).length := by
  obtain ⟨net, hn, ho, hsame, hz, hplan, hF⟩ := picture_vertex hlin h hw hne hP hv
  obtain ⟨c1, c2, -⟩ := C96_contacts hlin h hw hne hP
  rw [← C102_count h ho hsame hz hF]
  have hp := pile_of h ho hsame hz
  have hAB := inner_plan hplan
  have e : (loaded (innerRows net.rows) (P.force.map (fun v => -v))).length =
      (loaded (innerRows P.stack.rows) (P.force.map (fun v => -v))).length := by
    simpa using congrArg List.length (loadedUnder_congr hAB.symm (P.force.map (fun v => -v)))
  obtain ⟨⟨N, hN⟩, h1⟩ := (C102_vertex h ho hsame hz _).1 hF
  have hb := (held_iff_bal hN.size).1 hN
  have big : ∀ v ∈ P.force, (1 / 100000000 < -v ↔ v ≠ 0) := by
    intro v hv
    constructor
    · rintro h0 rfl; norm_num at h0
    · intro h0
      obtain ⟨k, hk⟩ := List.mem_iff_getElem?.1 hv
      have hk' : k < (innerRows net.rows).length := by rw [← hN.size, List.length_map]; exact (List.getElem?_eq_some_iff.1 hk).1
      have ek : comp (P.force.map (fun v => -v)) k = -v := by rw [comp_neg]; simp [comp, List.getD_eq_getElem?_getD, hk]
      obtain ⟨a0, ab, bn⟩ := hp.labels k hk'
      have hi : (rowB (innerRows net.rows) k).toNat < P.mat.fibers.length := by omega
      have hBi : rowB (innerRows net.rows) k = (((rowB (innerRows net.rows) k).toNat : ℕ) : Int) := by omega
      have hne0 : comp (P.force.map (fun v => -v)) k ≠ 0 := by rw [ek]; simpa using h0
      have hL : ¬ OnFloor P.mat (rowB (innerRows net.rows) k).toNat := fun hL => hne0 (bal_low hp hb hL hk' hBi)
      have hN0 : N (rowB (innerRows net.rows) k).toNat = 0 := by by_contra hc; exact hL (hN.lies _ hi hc)
      have e := hb.balance _ hi
      rw [hN0, add_zero, at_one (lab := rowB (innerRows net.rows)) hk' hBi (fun k' hk'' hl hne' => by
        by_contra hcc
        exact hne' ((under_le_one hN.size _).1 (h1 _ hi) k' k hk'' hk' hcc hne0 hl hBi)), ek] at e
      have := hheavy _ hi
      have := at_nonneg (lab := rowA (innerRows net.rows)) hb.push (rowB (innerRows net.rows) k).toNat
      linarith
  rw [c2, List.length_map, e]
  unfold loaded
  rw [List.zip_map_right, List.filter_map, List.length_map]
  congr 1
  apply List.filter_congr
  rintro ⟨r, v⟩ hp
  have := big v (List.of_mem_zip hp).2
  simp only [Function.comp, Prod.map, id, decide_eq_decide, ne_eq, neg_eq_zero]
  exact this

/-- C102: for fibers of equal weight such a solver gives every fiber `i` of `n` a whole load between `-(n - 1 - i)` and 0. -/
theorem C102_loads {w : K} (heq : ∀ i, i < P.mat.fibers.length → weight P.mat i = w) {i : ℕ} (hi : i < P.mat.fibers.length) :
    ∃ n : ℕ, P.load[i]? = some (-(n : K)) ∧ n ≤ P.mat.fibers.length - 1 - i := by
  obtain ⟨net, hn, ho, hsame, hz, hplan, hF⟩ := picture_vertex hlin h hw hne hP hv
  obtain ⟨N, -, -, -, hl⟩ := C96_loads hlin h hw hne hP
  obtain ⟨v, e, b1, -⟩ := C96_identical hlin h hw hne hP heq hi
  have hm : 0 < meanWeight P.mat := by rw [meanWeight_same hsame]; exact meanWeight_pos h hne
  have e1 : meanWeight P.mat = w := by
    have hn : (0 : K) < P.mat.fibers.length := by exact_mod_cast (by omega : 0 < P.mat.fibers.length)
    unfold meanWeight
    rw [Finset.sum_congr rfl (fun i hi => heq i (Finset.mem_range.1 hi)), Finset.sum_const, Finset.card_range, nsmul_eq_mul]
    field_simp
  have hwhole := C102_whole h ho hsame hz hF heq
  have hsum : ∀ L : List (NetRow K × K), (∀ p ∈ L, p.2 ∈ P.force.map (fun v => -v)) → ∃ n : ℕ, (L.map (·.2)).sum = n * w := by
    intro L
    induction L with
    | nil => intro _; exact ⟨0, by simp⟩
    | cons a t ih =>
      intro ha
      obtain ⟨n, hn⟩ := ih (fun p hp => ha p (List.mem_cons_of_mem _ hp))
      obtain ⟨n', hn'⟩ := hwhole _ (ha a List.mem_cons_self)
      exact ⟨n' + n, by rw [List.map_cons, List.sum_cons, hn, hn']; push_cast; ring⟩
  obtain ⟨n, hn⟩ := hsum (((innerRows P.stack.rows).zip (P.force.map (fun v => -v))).filter (fun p => p.1.A = (i : Int)))
    (fun p hp => (List.of_mem_zip (List.mem_of_mem_filter hp)).2)
  have e2 : P.load[i]? = some (-(n : K)) := by
    rw [hl i hi, e1]
    unfold pressOn
    rw [hn]
    rw [e1] at hm
    congr 1
    field_simp
  refine ⟨n, e2, ?_⟩
  rw [e2] at e
  cases e
  have : (n : K) ≤ ((P.mat.fibers.length - 1 - i : ℕ) : K) := by linarith
  exact_mod_cast this

end

/-! ### Concrete cases -/

theorem fork_same : SameExceptZ forkMat (forkMat.setZ [1 / 2, 1 / 2, 3 / 2]) := setZ_same (by rfl)

theorem fork_noOverlap {net : Net ℚ} (hn : netNew forkMat true = .ok net) :
    NoOverlap forkMat net.rows (heightOf (forkMat.setZ [1 / 2, 1 / 2, 3 / 2])) := by
  obtain ⟨-, hlow⟩ := fork_net hn
  obtain ⟨hck, ho, -⟩ := netNew_over forkMat_good hn
  have e : ∀ i, i < 3 → heightOf (forkMat.setZ [1 / 2, 1 / 2, 3 / 2]) i = comp [1 / 2, 1 / 2, 3 / 2] i := fun i hi => setZ_heightOf (by rfl) hi
  have hl : forkMat.fibers.length = 3 := rfl
  refine ⟨fun i hi => by rw [e i hi]; exact hlow.1.floor i hi, fun r hr hlt => ?_⟩
  have hh := ho r hr
  rw [e _ (by omega), e _ (by omega)]
  exact hlow.1.gap r hr hlt

/-- Forces `F₁`, `F₂` under the third fiber of the fork are a vertex exactly when one of them is zero. -/
theorem fork_vertex {net : Net ℚ} (hn : netNew forkMat true = .ok net) {F₁ F₂ : ℚ} (h₁ : 0 ≤ F₁) (h₂ : 0 ≤ F₂) (hs : F₁ + F₂ = npPi / 4 * 10) :
    Vertex (Holding (forkMat.setZ [1 / 2, 1 / 2, 3 / 2]) (innerRows net.rows)) [F₁, F₂] ↔ F₁ = 0 ∨ F₂ = 0 := by
  obtain ⟨hck, ho, -⟩ := netNew_over forkMat_good hn
  obtain ⟨hr, -⟩ := fork_net hn
  have hlen : (forkMat.setZ [1 / 2, 1 / 2, 3 / 2]).fibers.length = 3 := by rfl
  rw [C102_vertex forkMat_good ho fork_same (fork_noOverlap hn), hlen]
  have hH : Holding (forkMat.setZ [1 / 2, 1 / 2, 3 / 2]) (innerRows net.rows) [F₁, F₂] := fork_held hr h₁ h₂ hs
  simp only [hH, true_and]
  obtain ⟨r, q, e, a1, a2, a3, a4⟩ := fork_rows hr
  rw [e]
  constructor
  · intro h
    by_contra hc
    push Not at hc
    have := h 2 (by omega)
    simp [loadedUnder, loaded, hc.1, hc.2, a2, a4] at this
  · rintro (rfl | rfl) i hi
    · exact (List.length_filter_le _ _).trans (by by_cases h0 : F₂ = 0 <;> simp [loaded, h0])
    · exact (List.length_filter_le _ _).trans (by by_cases h0 : F₁ = 0 <;> simp [loaded, h0])

/-- C102: the whole third fiber on the first one is a vertex; half on each is not, though it holds the fibers as well. -/
example : ∃ net, netNew forkMat true = .ok net ∧ Vertex (Holding (forkMat.setZ [1 / 2, 1 / 2, 3 / 2]) (innerRows net.rows)) [npPi / 4 * 10, 0] ∧
    ¬ Vertex (Holding (forkMat.setZ [1 / 2, 1 / 2, 3 / 2]) (innerRows net.rows)) [npPi / 4 * 5, npPi / 4 * 5] ∧
    Holding (forkMat.setZ [1 / 2, 1 / 2, 3 / 2]) (innerRows net.rows) [npPi / 4 * 5, npPi / 4 * 5] := by
  obtain ⟨net, hn, -⟩ := C06_netNew_ok forkMat_good true
  have hpi := npPi_pos (K := ℚ)
  refine ⟨net, hn, (fork_vertex hn (by positivity) le_rfl (by ring)).2 (Or.inr rfl), fun h => ?_,
    fork_held (fork_net hn).1 (by positivity) (by positivity) (by ring)⟩
  rcases (fork_vertex hn (by positivity) (by positivity) (by ring)).1 h with h | h <;> linarith

/-- C102: the hypotheses of the theorems on the vertices and on the picture are met by the fork. -/
example : ∃ (lin : LinprogSol ℚ) (P : LoadPicture ℚ), GoodLinprogSol lin ∧ GoodMat forkMat ∧ (∀ f ∈ forkMat.fibers, f.w = 0) ∧
    forkMat.fibers ≠ [] ∧ loadPicture lin forkMat true = .ok P ∧
    (∀ net s, netNew forkMat true = .ok net → lin (stackSysOf forkMat net).lp = some s → Vertex (IsDual (stackSysOf forkMat net).lp s.x) s.marginals) ∧
    (∀ i, i < P.mat.fibers.length → 1 / 100000000 < weight P.mat i ∧ weight P.mat i = npPi / 4 * 10) ∧ P.load = [-1, 0, 0] := by
  obtain ⟨net, hn, -⟩ := C06_netNew_ok forkMat_good true
  obtain ⟨hck, ho, -⟩ := netNew_over forkMat_good hn
  obtain ⟨hr, hlow⟩ := fork_net hn
  have hpi := npPi_pos (K := ℚ)
  have hne : forkMat.fibers ≠ [] := by simp [forkMat]
  have hw : ∀ f ∈ forkMat.fibers, f.w = 0 := by simp [forkMat]
  have hopt : Optimal (stackSysOf forkMat net).lp [1 / 2, 1 / 2, 3 / 2] := (optimal_iff forkMat_good ho _).2 ⟨rfl, hlow⟩
  have hd : Vertex (IsDual (stackSysOf forkMat net).lp [1 / 2, 1 / 2, 3 / 2]) [-(npPi / 4 * 10), 0] :=
    (C102_dual ho fork_same (fun i hi => setZ_heightOf (by rfl) hi) _).2 (by
      simpa using (fork_vertex hn (F₁ := npPi / 4 * 10) (F₂ := 0) (by positivity) le_rfl (by ring)).2 (Or.inr rfl))
  obtain ⟨lin, hlin, e⟩ := goodLinprogSol_exists _ ⟨_, _⟩ ⟨hopt, hd.1⟩
  obtain ⟨P, hP, hL⟩ := fork_load hlin hn e
  refine ⟨lin, P, hlin, forkMat_good, hw, hne, hP, ?_, ?_, ?_⟩
  · intro net' s hn' hs
    rw [hn] at hn'
    cases hn'
    rw [e] at hs
    cases hs
    exact hd
  · obtain ⟨P', -, -, -, h1, h2, -⟩ := loadPicture_eq hlin forkMat_good hw hne true
    rw [hP] at h1
    cases h1
    intro i hi
    have hlen : P.mat.fibers.length = 3 := same_length h2
    rw [same_weight h2, fork_weight i (by omega)]
    refine ⟨?_, rfl⟩
    have : (3 : ℚ) < npPi := by norm_num [npPi]
    linarith
  · rw [hL, neg_div, div_self (by positivity)]; simp

/-- C102: a choice of supports for the fork: the second contact under the third fiber. -/
example : ∃ net, netNew forkMat true = .ok net ∧ ∀ i, i < (forkMat.setZ [1 / 2, 1 / 2, 3 / 2]).fibers.length →
    ¬ OnFloor (forkMat.setZ [1 / 2, 1 / 2, 3 / 2]) i →
    ∃ r, (innerRows net.rows)[1]? = some r ∧ r.B = (i : Int) ∧ Touches (forkMat.setZ [1 / 2, 1 / 2, 3 / 2]) r := by
  obtain ⟨net, hn, -⟩ := C06_netNew_ok forkMat_good true
  have hpi := npPi_pos (K := ℚ)
  obtain ⟨r, q, e, a1, a2, a3, a4⟩ := fork_rows (fork_net hn).1
  obtain ⟨N, hN⟩ := fork_held (fork_net hn).1 (F₁ := 0) (F₂ := npPi / 4 * 10) le_rfl (by positivity) (by ring)
  refine ⟨net, hn, fun i hi hL => ⟨q, by rw [e]; rfl, ?_, hN.touch (q, npPi / 4 * 10) (by rw [e]; simp) (by positivity)⟩⟩
  have h01 : ∀ i, i < 2 → OnFloor (forkMat.setZ [1 / 2, 1 / 2, 3 / 2]) i := by decide +kernel
  have hi' : i < 3 := hi
  rw [a4]
  by_contra hne
  exact hL (h01 i (by omega))

end Fibermat
