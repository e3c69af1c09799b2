import Verif.Lemmas.Coo
import Verif.Spec.Stack
import Mathlib.Algebra.Order.Field.Basic
import Mathlib.Tactic.Linarith
import Mathlib.Data.List.Sort

/-! Lemmas on the greedy sweep and the linear program of `Stack`. -/

set_option linter.unusedSectionVars false

namespace Fibermat
open Spec
variable {K : Type} [Field K] [LinearOrder K] [IsStrictOrderedRing K]

/-- The lift of one connection. -/
def lift (m : Mat K) (r : NetRow K) (z : ℕ → K) : ℕ → K :=
  fun i => if i = r.B.toNat then max (z r.B.toNat) (z r.A.toNat + (thick m r.A.toNat + thick m r.B.toNat) / 2) else z i

theorem greedy_cons_lt (m : Mat K) {r : NetRow K} (h : r.A < r.B) (rest : List (NetRow K)) (z : ℕ → K) :
    greedy m (r :: rest) z = greedy m rest (lift m r z) := by
  rw [greedy, if_pos h]; rfl

theorem greedy_cons_ge (m : Mat K) {r : NetRow K} (h : ¬ r.A < r.B) (rest : List (NetRow K)) (z : ℕ → K) :
    greedy m (r :: rest) z = greedy m rest z := by
  rw [greedy, if_neg h]

theorem le_lift (m : Mat K) (r : NetRow K) (z : ℕ → K) (i : ℕ) : z i ≤ lift m r z i := by
  unfold lift
  split
  · next h => rw [h]; exact le_max_left _ _
  · exact le_refl _

theorem le_greedy (m : Mat K) (rows : List (NetRow K)) : ∀ (z : ℕ → K) (i : ℕ), z i ≤ greedy m rows z i := by
  induction rows with
  | nil => intro z i; exact le_refl _
  | cons r rest ih =>
    intro z i
    by_cases h : r.A < r.B
    · rw [greedy_cons_lt m h]; exact le_trans (le_lift m r z i) (ih _ i)
    · rw [greedy_cons_ge m h]; exact ih z i

/-- The sweep stays below any heights without overlap (indices of fibers). -/
theorem greedy_le {m : Mat K} {rows : List (NetRow K)} (ho : OverMat m rows) {y : ℕ → K}
    (hy : ∀ r ∈ rows, r.A < r.B → (thick m r.A.toNat + thick m r.B.toNat) / 2 ≤ y r.B.toNat - y r.A.toNat) :
    ∀ z : ℕ → K, (∀ i, i < m.fibers.length → z i ≤ y i) → ∀ i, i < m.fibers.length → greedy m rows z i ≤ y i := by
  induction rows with
  | nil => intro z hz; exact hz
  | cons r rest ih =>
    intro z hz
    have ho' : OverMat m rest := fun q hq => ho q (List.mem_cons_of_mem _ hq)
    have ih := ih ho' (fun q hq => hy q (List.mem_cons_of_mem _ hq))
    by_cases h : r.A < r.B
    · rw [greedy_cons_lt m h]
      apply ih
      intro i hi
      unfold lift
      split
      · next he =>
        obtain ⟨h1, h2, h3⟩ := ho r (by simp)
        have hA := hz r.A.toNat (by omega)
        have hB := hz r.B.toNat (by omega)
        have := hy r (by simp) h
        rw [he]
        exact max_le hB (by linarith)
      · exact hz i hi
    · rw [greedy_cons_ge m h]; exact ih z hz

/-- Rows after the first one do not move fibers below. -/
theorem greedy_fixed {m : Mat K} {rows : List (NetRow K)} (a : Int) (h0 : ∀ r ∈ rows, 0 ≤ r.A) (hs : ∀ r ∈ rows, a ≤ r.A) :
    ∀ (z : ℕ → K) (i : ℕ), (i : Int) ≤ a → greedy m rows z i = z i := by
  induction rows with
  | nil => intro z i _; rfl
  | cons r rest ih =>
    intro z i hi
    have ih := ih (fun q hq => h0 q (List.mem_cons_of_mem _ hq)) (fun q hq => hs q (List.mem_cons_of_mem _ hq))
    by_cases h : r.A < r.B
    · rw [greedy_cons_lt m h, ih _ i hi]
      have := hs r (by simp)
      unfold lift
      rw [if_neg (by omega)]
    · rw [greedy_cons_ge m h, ih _ i hi]

/-- After a sweep over sorted rows, no overlap. -/
theorem greedy_gap {m : Mat K} {rows : List (NetRow K)} (h0 : ∀ r ∈ rows, 0 ≤ r.A)
    (hs : rows.Pairwise (fun r q => r.A ≤ q.A)) : ∀ z : ℕ → K, ∀ r ∈ rows, r.A < r.B →
      (thick m r.A.toNat + thick m r.B.toNat) / 2 ≤ greedy m rows z r.B.toNat - greedy m rows z r.A.toNat := by
  induction rows with
  | nil => intro z r hr; simp at hr
  | cons r rest ih =>
    intro z q hq hlt
    obtain ⟨hr, hs'⟩ := List.pairwise_cons.1 hs
    have h0' : ∀ q ∈ rest, 0 ≤ q.A := fun q hq => h0 q (List.mem_cons_of_mem _ hq)
    have hr0 := h0 r (by simp)
    have ih := ih h0' hs'
    rcases List.mem_cons.1 hq with rfl | hq'
    · rw [greedy_cons_lt m hlt]
      have e1 : greedy m rest (lift m q z) q.A.toNat = z q.A.toNat := by
        rw [greedy_fixed q.A h0' hr _ _ (by omega)]
        unfold lift; rw [if_neg (by omega)]
      have e2 := le_greedy m rest (lift m q z) q.B.toNat
      have e3 : z q.A.toNat + (thick m q.A.toNat + thick m q.B.toNat) / 2 ≤ lift m q z q.B.toNat := by
        unfold lift; rw [if_pos rfl]; exact le_max_right _ _
      rw [e1]; linarith
    · by_cases h : r.A < r.B
      · rw [greedy_cons_lt m h]; exact ih _ q hq' hlt
      · rw [greedy_cons_ge m h]; exact ih z q hq' hlt

/-- After a sweep over sorted rows, each index kept its value or lies on a lower fiber. -/
theorem greedy_supported {m : Mat K} {rows : List (NetRow K)} (h0 : ∀ r ∈ rows, 0 ≤ r.A)
    (hs : rows.Pairwise (fun r q => r.A ≤ q.A)) : ∀ (z : ℕ → K) (i : ℕ), greedy m rows z i = z i ∨
      ∃ r ∈ rows, r.A < r.B ∧ r.B = (i : Int) ∧
        greedy m rows z i = greedy m rows z r.A.toNat + (thick m r.A.toNat + thick m r.B.toNat) / 2 := by
  induction rows with
  | nil => intro z i; exact Or.inl rfl
  | cons r rest ih =>
    intro z i
    obtain ⟨hr, hs'⟩ := List.pairwise_cons.1 hs
    have h0' : ∀ q ∈ rest, 0 ≤ q.A := fun q hq => h0 q (List.mem_cons_of_mem _ hq)
    have hr0 := h0 r (by simp)
    have ih := ih h0' hs'
    by_cases h : r.A < r.B
    · rw [greedy_cons_lt m h]
      rcases ih (lift m r z) i with e | ⟨q, hq, h1, h2, h3⟩
      · by_cases hi : i = r.B.toNat
        · have el : lift m r z i = max (z r.B.toNat) (z r.A.toNat + (thick m r.A.toNat + thick m r.B.toNat) / 2) := by
            unfold lift; rw [if_pos hi]
          rcases max_cases (z r.B.toNat) (z r.A.toNat + (thick m r.A.toNat + thick m r.B.toNat) / 2) with ⟨e2, -⟩ | ⟨e2, -⟩
          · left; rw [e, el, e2, hi]
          · right
            refine ⟨r, by simp, h, by omega, ?_⟩
            have e1 : greedy m rest (lift m r z) r.A.toNat = z r.A.toNat := by
              rw [greedy_fixed r.A h0' hr _ _ (by omega)]
              unfold lift; rw [if_neg (by omega)]
            rw [e, el, e2, e1]
        · left; rw [e]; unfold lift; rw [if_neg hi]
      · exact Or.inr ⟨q, List.mem_cons_of_mem _ hq, h1, h2, h3⟩
    · rw [greedy_cons_ge m h]
      rcases ih z i with e | ⟨q, hq, h1, h2, h3⟩
      · exact Or.inl e
      · exact Or.inr ⟨q, List.mem_cons_of_mem _ hq, h1, h2, h3⟩

theorem greedy_lowest {m : Mat K} {rows : List (NetRow K)} (ho : OverMat m rows)
    (hs : rows.Pairwise (fun r q => r.A ≤ q.A)) : Lowest m rows (greedy m rows (fun i => thick m i / 2)) := by
  have h0 : ∀ r ∈ rows, 0 ≤ r.A := fun r hr => (ho r hr).1
  refine ⟨⟨fun i _ => le_greedy m rows (fun i => thick m i / 2) i, greedy_gap h0 hs _⟩, ?_⟩
  intro y hy
  exact greedy_le ho hy.gap _ hy.floor

theorem noOverlap_congr {m : Mat K} {rows rows' : List (NetRow K)} (h : ∀ r, r ∈ rows ↔ r ∈ rows') {z : ℕ → K} :
    NoOverlap m rows z ↔ NoOverlap m rows' z :=
  ⟨fun hz => ⟨hz.floor, fun r hr => hz.gap r ((h r).2 hr)⟩, fun hz => ⟨hz.floor, fun r hr => hz.gap r ((h r).1 hr)⟩⟩

theorem lowest_congr {m : Mat K} {rows rows' : List (NetRow K)} (h : ∀ r, r ∈ rows ↔ r ∈ rows') {z : ℕ → K} :
    Lowest m rows z ↔ Lowest m rows' z := by
  unfold Lowest
  simp only [noOverlap_congr h]

/-- There are lowest heights, and at them every fiber is supported. -/
theorem exists_lowest {m : Mat K} {rows : List (NetRow K)} (ho : OverMat m rows) :
    ∃ z, Lowest m rows z ∧ ∀ i, i < m.fibers.length → Supported m rows z i := by
  set rows' := rows.insertionSort (fun r q => r.A ≤ q.A) with hr
  have hmem : ∀ r, r ∈ rows ↔ r ∈ rows' := fun r => (List.mem_insertionSort _).symm
  have ho' : OverMat m rows' := fun r hr => ho r ((hmem r).2 hr)
  have : Std.Total (fun r q : NetRow K => r.A ≤ q.A) := ⟨fun a b => le_total _ _⟩
  have : IsTrans (NetRow K) (fun r q => r.A ≤ q.A) := ⟨fun a b c => le_trans⟩
  have hs : rows'.Pairwise (fun r q => r.A ≤ q.A) := List.pairwise_insertionSort _ _
  refine ⟨_, (lowest_congr hmem).2 (greedy_lowest ho' hs), ?_⟩
  intro i hi
  rcases greedy_supported (m := m) (fun r hr => (ho' r hr).1) hs (fun i => thick m i / 2) i with h | ⟨r, hr, h1, h2, h3⟩
  · exact Or.inl h
  · exact Or.inr ⟨r, (hmem r).2 hr, h1, h2, h3⟩

theorem lowest_unique {m : Mat K} {rows : List (NetRow K)} {z y : ℕ → K} (hz : Lowest m rows z) (hy : Lowest m rows y) :
    ∀ i, i < m.fibers.length → z i = y i :=
  fun i hi => le_antisymm (hz.2 y hy.1 i hi) (hy.2 z hz.1 i hi)

/-! ### The linear program -/

theorem comp_map {α : Type} (l : List α) (g : α → K) {i : ℕ} {a : α} (h : l[i]? = some a) : comp (l.map g) i = g a := by
  simp [comp, List.getD_eq_getElem?_getD, h]

theorem thick_of {m : Mat K} {i : ℕ} {f : Fiber K} (h : m.fibers[i]? = some f) : thick m i = f.h := by
  simp [thick, h]

theorem comp_h {m : Mat K} (i : ℕ) : (m.fibers.map (·.h)).getD i 0 = thick m i := by
  simp [thick, List.getD_eq_getElem?_getD]

/-- The system assembled by `Stack.constraint`. -/
def stackSysOf (m : Mat K) (net : Net K) : StackSys K :=
  { C := { nrows := (innerRows net.rows).length
           ncols := m.fibers.length
           entries := (innerRows net.rows).zipIdx.map (fun p => (p.2, p.1.A.toNat, (1 : K)))
              ++ (innerRows net.rows).zipIdx.map (fun p => (p.2, p.1.B.toNat, (-1 : K))) }
    f := m.fibers.map (fun g => npPi / 4 * (g.l * g.b * g.h))
    H := (innerRows net.rows).map (fun r => -(((m.fibers.map (·.h)).getD r.A.toNat 0 + (m.fibers.map (·.h)).getD r.B.toNat 0) / 2))
    h := m.fibers.map (·.h) }

theorem stackConstraint_eq {m : Mat K} {net : Net K} (hm : matCheck m.frame = .ok ()) (hn : netCheck net.frame = .ok ())
    (ho : OverMat m net.rows) : stackConstraint m net = .ok (stackSysOf m net) := by
  unfold stackConstraint
  rw [hm, hn]
  have : (innerRows net.rows).all (fun r => decide (0 ≤ r.A) && decide (r.A < m.fibers.length)
      && decide (0 ≤ r.B) && decide (r.B < m.fibers.length)) = true := by
    rw [List.all_eq_true]
    intro r hr
    obtain ⟨h1, h2, h3⟩ := ho r (List.mem_of_mem_filter hr)
    simp only [Bool.and_eq_true, decide_eq_true_eq]
    omega
  simp only [Bind.bind, Except.bind, this]
  rfl

theorem filter_zipIdx {α β : Type} (l : List α) (g : α → ℕ → β) (k n : ℕ) :
    ((l.zipIdx n).filter (fun p => decide (p.2 = n + k))).map (fun p => g p.1 p.2) =
      ((l[k]?).map (fun a => g a (n + k))).toList := by
  induction l generalizing k n with
  | nil => simp
  | cons a t ih =>
    cases k with
    | zero =>
      simp only [List.zipIdx_cons, add_zero]
      rw [List.filter_cons_of_pos (by simp)]
      have : (t.zipIdx (n + 1)).filter (fun p => decide (p.2 = n)) = [] := by
        rw [List.filter_eq_nil_iff]
        rintro ⟨b, j⟩ hb
        have := (List.mem_zipIdx hb).1
        simp; omega
      rw [this]; rfl
    | succ k =>
      have := ih k (n + 1)
      rw [List.zipIdx_cons, List.filter_cons_of_neg (by simp)]
      rw [show n + 1 + k = n + (k + 1) by omega] at this
      rw [this]; rfl

/-- Row `k` of the constraint matrix times `z` is `z_A - z_B`. -/
theorem stack_row {m : Mat K} {net : Net K} (ho : OverMat m net.rows) {k : ℕ} {r : NetRow K}
    (hr : (innerRows net.rows)[k]? = some r) (z : ℕ → K) :
    ∑ j ∈ Finset.range m.fibers.length, (stackSysOf m net).C.get k j * z j = z r.A.toNat - z r.B.toNat := by
  unfold stackSysOf
  rw [coo_row_dot]
  · rw [List.filter_append, List.map_append, List.sum_append]
    have e1 : ∀ (c : NetRow K → ℕ) (v : K), ((((innerRows net.rows).zipIdx.map (fun p => (p.2, c p.1, v))).filter
        (fun e => decide (e.1 = k))).map (fun e => e.2.2 * z e.2.1)).sum = v * z (c r) := by
      intro c v
      rw [List.filter_map, List.map_map]
      have := filter_zipIdx (innerRows net.rows) (fun r _ => v * z (c r)) k 0
      simp only [Nat.zero_add, hr, Option.map_some, Option.toList_some] at this
      simp only [Function.comp_def]
      rw [this]; simp
    rw [e1 (fun r => r.A.toNat) 1, e1 (fun r => r.B.toNat) (-1)]
    ring
  · intro e he
    rcases List.mem_append.1 he with he | he <;>
    · obtain ⟨p, hp, rfl⟩ := List.mem_map.1 he
      have hp1 : p.1 ∈ innerRows net.rows := by
        have := List.mem_map_of_mem (f := Prod.fst) hp
        rw [List.zipIdx_map_fst] at this; exact this
      obtain ⟨h1, h2, h3⟩ := ho p.1 (List.mem_of_mem_filter hp1)
      simp only; omega

theorem mem_innerRows {rows : List (NetRow K)} {r : NetRow K} : r ∈ innerRows rows ↔ r ∈ rows ∧ r.A < r.B := by
  simp [innerRows]

theorem feasible_iff {m : Mat K} {net : Net K} (ho : OverMat m net.rows) (z : List K) :
    Feasible (stackSysOf m net).lp z ↔ z.length = m.fibers.length ∧ NoOverlap m net.rows (comp z) := by
  have hf : (stackSysOf m net).lp.f.length = m.fibers.length := by simp [StackSys.lp, stackSysOf]
  have hlow : ∀ i, i < m.fibers.length → comp (stackSysOf m net).lp.lower i = thick m i / 2 := by
    intro i hi
    have : (stackSysOf m net).lp.lower = m.fibers.map (fun f => f.h / 2) := by simp [StackSys.lp, stackSysOf]
    rw [this, comp_map _ _ (List.getElem?_eq_getElem hi), thick_of (List.getElem?_eq_getElem hi)]
  have hH : ∀ k r, (innerRows net.rows)[k]? = some r → comp (stackSysOf m net).lp.H k =
      -((thick m r.A.toNat + thick m r.B.toNat) / 2) := by
    intro k r hr
    have : (stackSysOf m net).lp.H = (innerRows net.rows).map (fun r => -((thick m r.A.toNat + thick m r.B.toNat) / 2)) := by
      simp only [StackSys.lp, stackSysOf, comp_h]
    rw [this, comp_map _ _ hr]
  have hn : (stackSysOf m net).lp.C.nrows = (innerRows net.rows).length := rfl
  constructor
  · intro h
    refine ⟨by rw [h.size, hf], fun i hi => ?_, ?_⟩
    · have := h.lower i (by rw [hf]; exact hi)
      rwa [hlow i hi] at this
    · intro r hr hlt
      obtain ⟨k, hk⟩ := List.mem_iff_getElem?.1 (mem_innerRows.2 ⟨hr, hlt⟩)
      have := h.rows k (by rw [hn]; exact (List.getElem?_eq_some_iff.1 hk).1)
      rw [hf, hH k r hk] at this
      have e := stack_row ho hk (comp z)
      change ∑ j ∈ Finset.range m.fibers.length, (stackSysOf m net).lp.C.get k j * comp z j = _ at e
      rw [e] at this
      linarith
  · rintro ⟨hl, h⟩
    refine ⟨by rw [hl, hf], ?_, ?_⟩
    · intro i hi
      rw [hf] at hi
      rw [hlow i hi]; exact h.floor i hi
    · intro k hk
      rw [hn] at hk
      have hr := List.getElem?_eq_getElem hk
      have e := stack_row ho hr (comp z)
      change ∑ j ∈ Finset.range m.fibers.length, (stackSysOf m net).lp.C.get k j * comp z j = _ at e
      rw [hf, e, hH k _ hr]
      obtain ⟨h1, h2⟩ := mem_innerRows.1 (List.getElem_mem hk)
      have := h.gap _ h1 h2
      linarith

end Fibermat
