import Verif.Spec.Solver
import Verif.Lemmas.Cell
import Mathlib.Algebra.BigOperators.Group.Finset.Basic
import Mathlib.Algebra.BigOperators.Ring.Finset
import Mathlib.Algebra.Order.BigOperators.Group.Finset
import Mathlib.Tactic.Linarith
import Mathlib.Tactic.FieldSimp
import Mathlib.Tactic.Positivity

/-! The incremental solver on abstract systems. -/

set_option linter.unusedSectionVars false
set_option linter.unusedSimpArgs false

namespace Fibermat
variable {K : Type} [Field K] [LinearOrder K]
open Spec

/-! ## Histories -/

/-- Records obtained by successive steps. -/
inductive Chain (S : Sys K) (o : Opts K) : Rec K → List (Rec K) → Prop
  | nil (a) : Chain S o a []
  | cons {a b l} : Cell.lt a.rlambda o.packing = true → S.step o a = .ok b → Chain S o b l → Chain S o a (b :: l)

theorem loop_chain (S : Sys K) (o : Opts K) (n : ℕ) (a : Rec K) : Chain S o a (S.loop o n a).1 := by
  induction n generalizing a with
  | zero => exact Chain.nil a
  | succ n ih =>
    unfold Sys.loop
    split_ifs with h
    · cases hs : S.step o a with
      | error e => exact Chain.nil a
      | ok b => exact Chain.cons h hs (ih b)
    · exact Chain.nil a

theorem loop_length (S : Sys K) (o : Opts K) (n : ℕ) (a : Rec K) : (S.loop o n a).1.length ≤ n := by
  induction n generalizing a with
  | zero => simp [Sys.loop]
  | succ n ih =>
    unfold Sys.loop
    split_ifs with h
    · cases hs : S.step o a with
      | error e => simp
      | ok b => simpa using ih b
    · simp

theorem chain_next {S : Sys K} {o : Opts K} {a : Rec K} {l : List (Rec K)} (h : Chain S o a l) {k : ℕ} {b c : Rec K}
    (hb : (a :: l)[k]? = some b) (hc : (a :: l)[k + 1]? = some c) :
    Cell.lt b.rlambda o.packing = true ∧ S.step o b = .ok c := by
  induction h generalizing k with
  | nil a => simp at hc
  | cons h1 h2 _ ih =>
    cases k with
    | zero =>
      simp only [List.getElem?_cons_zero, Option.some.injEq] at hb
      simp only [zero_add, List.getElem?_cons_succ, List.getElem?_cons_zero, Option.some.injEq] at hc
      subst hb hc
      exact ⟨h1, h2⟩
    | succ k =>
      exact ih (by simpa using hb) (by simpa using hc)

/-- Successive entries of the history are related by steps. -/
theorem run_next {S : Sys K} {o : Opts K} {k : ℕ} {b c : Rec K}
    (hb : (S.run o).1[k]? = some b) (hc : (S.run o).1[k + 1]? = some c) :
    Cell.lt b.rlambda o.packing = true ∧ S.step o b = .ok c :=
  chain_next (loop_chain S o o.itermax (S.init o)) hb hc

theorem run_zero (S : Sys K) (o : Opts K) : (S.run o).1[0]? = some (S.init o) := rfl

/-- Induction along a history. -/
theorem run_induction {S : Sys K} {o : Opts K} {p : Rec K → Prop} (h0 : p (S.init o))
    (hs : ∀ a b, p a → S.step o a = .ok b → p b) {k : ℕ} {a : Rec K} (ha : (S.run o).1[k]? = some a) : p a := by
  induction k generalizing a with
  | zero => rw [run_zero] at ha; cases ha; exact h0
  | succ k ih =>
    have hk : k < (S.run o).1.length := by
      have := (List.getElem?_eq_some_iff.1 ha).1; omega
    have hb : (S.run o).1[k]? = some ((S.run o).1[k]) := List.getElem?_eq_getElem hk
    exact hs _ _ (ih hb) (run_next hb ha).2

/-! ## Sums of cells -/

theorem cellSum_range (n : ℕ) (f : ℕ → Cell K) (g : ℕ → K) (h : ∀ c, c < n → f c = .fin (g c)) :
    cellSum ((List.range n).map f) = .fin (∑ c ∈ Finset.range n, g c) := by
  unfold cellSum
  have : (List.range n).map f = ((List.range n).map g).map Cell.fin := by
    rw [List.map_map]
    apply List.map_congr_left
    intro c hc
    exact h c (List.mem_range.1 hc)
  rw [this, Cell.sum_fin]
  congr 1

theorem minCells_spec {l : List (Cell K)} {t : K} (h : minCells l = some t) :
    (∀ x ∈ l, ∃ y, x = .fin y ∧ t ≤ y) ∧ (.fin t ∈ l) := by
  induction l generalizing t with
  | nil => simp [minCells] at h
  | cons a l ih =>
    cases a with
    | fin a =>
      cases l with
      | nil =>
        simp only [minCells, Option.some.injEq] at h
        subst h
        simp
      | cons b l =>
        simp only [minCells] at h
        cases hm : minCells (b :: l) with
        | none => rw [hm] at h; simp at h
        | some s =>
          rw [hm] at h
          simp only [Option.map_some, Option.some.injEq] at h
          obtain ⟨i1, i2⟩ := ih hm
          subst h
          constructor
          · intro x hx
            rcases List.mem_cons.1 hx with rfl | hx
            · exact ⟨a, rfl, min_le_left _ _⟩
            · obtain ⟨y, e, hy⟩ := i1 x hx
              exact ⟨y, e, (min_le_right _ _).trans hy⟩
          · rcases min_choice a s with e | e
            · rw [e]; exact List.mem_cons_self
            · rw [e]; exact List.mem_cons_of_mem _ i2
    | pinf => cases l <;> simp [minCells] at h
    | ninf => cases l <;> simp [minCells] at h
    | nan => cases l <;> simp [minCells] at h

theorem minCells_some {l : List (Cell K)} (hne : l ≠ []) (h : ∀ x ∈ l, ∃ y, x = .fin y) : ∃ t, minCells l = some t := by
  induction l with
  | nil => exact absurd rfl hne
  | cons a l ih =>
    obtain ⟨y, rfl⟩ := h a (by simp)
    cases l with
    | nil => exact ⟨y, rfl⟩
    | cons b l =>
      obtain ⟨t, ht⟩ := ih (by simp) (fun x hx => h x (List.mem_cons_of_mem _ hx))
      exact ⟨min y t, by simp only [minCells, ht, Option.map_some]⟩

/-! ## Systems of numbers with frozen unknowns -/

/-- A system whose matrix is a symmetric table of numbers, except between `rigid` unknowns, where it has infinite entries. -/
structure Sound (S : Sys K) (M : ℕ → ℕ → K) (rigid : ℕ → Prop) : Prop where
  num : ∀ r c, ¬ (rigid r ∧ rigid c) → S.P r c = .fin (M r c)
  diag : ∀ r, rigid r → S.P r r = .pinf
  lt : ∀ r, rigid r → r < S.nK
  symm : ∀ r c, M r c = M c r
  force : ∀ r, r < S.nK → S.q0 r = .fin 0 ∧ S.dq r = 0
  bound : ∀ r, S.nK ≤ r → r < S.n → (∃ b, S.q0 r = .fin b) ∨ (S.q0 r = .pinf ∧ S.dq r = 0 ∧ ∀ c, M r c = 0)
  zero : ∀ r, r < S.n → ¬ rigid r → (∀ c, c < S.n → M c r = 0) → S.dq r = 0

section
variable [IsStrictOrderedRing K] {S : Sys K} {M : ℕ → ℕ → K} {rigid : ℕ → Prop} {o : Opts K}

/-- Product of row `r` with a vector. -/
def apply (S : Sys K) (M : ℕ → ℕ → K) (x : ℕ → K) (r : ℕ) : K := ∑ c ∈ Finset.range S.n, M r c * x c

theorem Sound.mulVec (h : Sound S M rigid) {r : ℕ} (hr : ¬ rigid r) (x : ℕ → K) :
    S.mulVec x r = .fin (apply S M x r) := by
  unfold Sys.mulVec apply
  apply cellSum_range
  intro c _
  rw [h.num r c (fun hh => hr hh.1), Cell.fin_mul_fin]

theorem Sound.mulVec_rigid (h : Sound S M rigid) {r : ℕ} (hr : rigid r) {x : ℕ → K} (hx : x r = 0) :
    S.mulVec x r = .nan := by
  unfold Sys.mulVec cellSum
  apply Cell.sum_nan
  refine List.mem_map.2 ⟨r, List.mem_range.2 (by have := h.lt r hr; unfold Sys.n; omega), ?_⟩
  rw [h.diag r hr, hx]
  change Cell.mul _ _ = _
  simp [Cell.mul]

theorem Sound.rate (h : Sound S M rigid) {r : ℕ} (hr : ¬ rigid r) (dx : ℕ → K) :
    S.rate dx r = .fin (S.dq r - apply S M dx r) := by
  rw [Sys.rate, h.mulVec hr, Cell.fin_sub_fin]

theorem Sound.colSum (h : Sound S M rigid) {r : ℕ} (hr : ¬ rigid r) :
    Cell.lt (.fin 0) (S.colSum r) = true ↔ ∃ c, c < S.n ∧ M c r ≠ 0 := by
  have e : S.colSum r = .fin (∑ c ∈ Finset.range S.n, |M c r|) := by
    unfold Sys.colSum
    apply cellSum_range
    intro c _
    rw [h.num c r (fun hh => hr hh.2)]
    rfl
  rw [e, Cell.lt_fin_iff]
  constructor
  · intro hpos
    by_contra hcon
    push Not at hcon
    have : ∑ c ∈ Finset.range S.n, |M c r| = 0 := by
      apply Finset.sum_eq_zero
      intro c hc
      rw [hcon c (Finset.mem_range.1 hc), abs_zero]
    rw [this] at hpos
    exact lt_irrefl _ hpos
  · rintro ⟨c, hc, hne⟩
    apply Finset.sum_pos'
    · intro i _; exact abs_nonneg _
    · exact ⟨c, Finset.mem_range.2 hc, abs_pos.2 hne⟩

/-- What is true of every recorded state: frozen unknowns have not moved, and bounds follow the plate. -/
structure StepInv (S : Sys K) (rigid : ℕ → Prop) (a : Rec K) : Prop where
  frozen : ∀ r, rigid r → a.x r = 0
  bounds : ∀ r, a.q r = S.q0 r + .fin (S.dq r * (a.Z - S.Z0))

/-- Number of the gap `d = q - P x` of a row with initial bound `b`. -/
def gap (S : Sys K) (M : ℕ → ℕ → K) (a : Rec K) (b : K) (r : ℕ) : K :=
  b + S.dq r * (a.Z - S.Z0) - apply S M a.x r

theorem Sound.resid (h : Sound S M rigid) {a : Rec K} (hi : StepInv S rigid a) {r : ℕ} (hr : ¬ rigid r) {b : K}
    (hb : S.q0 r = .fin b) : S.resid a.x a.q r = .fin (gap S M a b r) := by
  rw [Sys.resid, hi.bounds, hb, h.mulVec hr, Cell.fin_add_fin, Cell.fin_sub_fin, gap]

theorem Sound.resid_inf (h : Sound S M rigid) {a : Rec K} (hi : StepInv S rigid a) {r : ℕ} (hr : ¬ rigid r)
    (hb : S.q0 r = .pinf) : S.resid a.x a.q r = .pinf := by
  rw [Sys.resid, hi.bounds, hb, h.mulVec hr]; rfl

theorem Sound.resid_rigid (h : Sound S M rigid) {a : Rec K} (hi : StepInv S rigid a) {r : ℕ} (hr : rigid r) :
    S.resid a.x a.q r = .nan := by
  rw [Sys.resid, h.mulVec_rigid hr (hi.frozen r hr), Cell.sub_def]
  exact Cell.add_nan _

/-- Frozen rows are never active. -/
theorem Sound.not_active_rigid (h : Sound S M rigid) {a : Rec K} (hi : StepInv S rigid a) {r : ℕ} (hr : rigid r) (tol : K) :
    S.active tol a.x a.q r = false := by
  rw [Sys.active, h.resid_rigid hi hr]; rfl

/-- Rows with an infinite bound are never active. -/
theorem Sound.not_active_inf (h : Sound S M rigid) {a : Rec K} (hi : StepInv S rigid a) {r : ℕ} (hr : ¬ rigid r)
    (hb : S.q0 r = .pinf) (tol : K) : S.active tol a.x a.q r = false := by
  rw [Sys.active, h.resid_inf hi hr hb]; rfl

theorem Sound.active_iff (h : Sound S M rigid) {a : Rec K} (hi : StepInv S rigid a) {r : ℕ} (hr : ¬ rigid r) {b : K}
    (hb : S.q0 r = .fin b) (tol : K) :
    S.active tol a.x a.q r = true ↔ gap S M a b r ≤ tol ∧ ∃ c, c < S.n ∧ M c r ≠ 0 := by
  rw [Sys.active, h.resid hi hr hb, Bool.and_eq_true, Cell.le_fin_iff, h.colSum hr]

/-- Each row is frozen, or without bound, or has a number as bound. -/
theorem Sound.cases (h : Sound S M rigid) {r : ℕ} (hr : r < S.n) :
    rigid r ∨ (¬ rigid r ∧ S.q0 r = .pinf ∧ S.nK ≤ r ∧ S.dq r = 0 ∧ ∀ c, M r c = 0) ∨ (¬ rigid r ∧ ∃ b, S.q0 r = .fin b) := by
  by_cases hg : rigid r
  · exact Or.inl hg
  · right
    by_cases hk : r < S.nK
    · exact Or.inr ⟨hg, 0, (h.force r hk).1⟩
    · rcases h.bound r (by omega) hr with hb | ⟨h1, h2⟩
      · exact Or.inr ⟨hg, hb⟩
      · exact Or.inl ⟨hg, h1, by omega, h2⟩

theorem direction_zero {a : Rec K} {dx : ℕ → K} (hd : S.direction o a = some dx) {r : ℕ}
    (hr : S.active o.tol a.x a.q r = false) : dx r = 0 := by
  unfold Sys.direction at hd
  simp only [Option.map_eq_some_iff] at hd
  obtain ⟨sol, -, rfl⟩ := hd
  simp only
  rw [if_neg]
  intro hm
  have := (List.mem_filter.1 hm).2
  rw [hr] at this
  cases this

theorem errSq_eq (h : Sound S M rigid) {m : ℕ → Bool} (hm : ∀ r, m r = true → ¬ rigid r) {dx : ℕ → K}
    (hdx : ∀ r, m r = false → dx r = 0) :
    S.errSq m dx = .fin ((((List.range S.n).filter m).map (fun r => (S.dq r - apply S M dx r) ^ 2)).sum) := by
  unfold Sys.errSq cellSum
  simp only
  rw [← Cell.sum_fin, List.map_map]
  congr 1
  apply List.map_congr_left
  intro r hr
  obtain ⟨hrn, hmr⟩ := List.mem_filter.1 hr
  have hgr := hm r hmr
  have e1 : (((List.range S.n).filter m).map (fun c => S.P r c * .fin (dx c))).sum = Cell.fin (apply S M dx r) := by
    have : ((List.range S.n).filter m).map (fun c => S.P r c * .fin (dx c)) =
        (((List.range S.n).filter m).map (fun c => M r c * dx c)).map Cell.fin := by
      rw [List.map_map]
      apply List.map_congr_left
      intro c _
      rw [h.num r c (fun hh => hgr hh.1), Cell.fin_mul_fin]; rfl
    rw [this, Cell.sum_fin]
    congr 1
    unfold apply
    have e : ∀ l : List ℕ, ((l.filter m).map (fun c => M r c * dx c)).sum = (l.map (fun c => M r c * dx c)).sum := by
      intro l
      induction l with
      | nil => rfl
      | cons c l ih =>
        by_cases hc : m c = true
        · simp [List.filter_cons, hc, ih]
        · have : dx c = 0 := hdx c (by simpa using hc)
          simp [List.filter_cons, hc, ih, this]
    rw [e]
    rfl
  rw [e1]
  simp only [Cell.fin_sub_fin, Cell.fin_mul_fin, Function.comp_apply]
  congr 1
  ring

/-- What a step does. -/
structure Stepped (S : Sys K) (M : ℕ → ℕ → K) (rigid : ℕ → Prop) (o : Opts K) (a b : Rec K) (dx : ℕ → K) (t s : K) : Prop where
  dir : S.direction o a = some dx
  pos : 0 ≤ o.tol → 0 < t
  off : ∀ r, S.active o.tol a.x a.q r = false → dx r = 0
  x : ∀ r, b.x r = a.x r - dx r * t
  Z : b.Z = a.Z - t
  lam : b.rlambda = .fin S.Z0 / .fin b.Z
  mask : b.mask = S.active o.tol a.x a.q
  err : b.errSq = .fin s
  errtol : 0 ≤ o.errtol
  small : s ≤ o.errtol ^ 2
  act : ∀ r, r < S.n → S.active o.tol a.x a.q r = true → (S.dq r - apply S M dx r) ^ 2 ≤ s
  lim : ∀ r, r < S.n → ¬ rigid r → ∀ c, S.q0 r = .fin c → o.tol < gap S M a c r → 0 < S.dq r - apply S M dx r →
    t * (S.dq r - apply S M dx r) ≤ gap S M a c r
  hit : ∃ r c, r < S.n ∧ ¬ rigid r ∧ S.q0 r = .fin c ∧ o.tol < gap S M a c r ∧ 0 < S.dq r - apply S M dx r ∧
    t * (S.dq r - apply S M dx r) = gap S M a c r
  inv : StepInv S rigid b

theorem Sound.step (h : Sound S M rigid) {a b : Rec K} (hi : StepInv S rigid a) (hs : S.step o a = .ok b) :
    ∃ dx t s, Stepped S M rigid o a b dx t s := by
  unfold Sys.step at hs
  cases hd : S.direction o a with
  | none =>
    rw [hd] at hs
    simp only at hs
    split_ifs at hs
  | some dx =>
    rw [hd] at hs
    simp only at hs
    split_ifs at hs with h1 h2
    have hoff : ∀ r, S.active o.tol a.x a.q r = false → dx r = 0 := fun r hr => direction_zero hd hr
    have hact : ∀ r, S.active o.tol a.x a.q r = true → ¬ rigid r := by
      intro r hr hg
      rw [h.not_active_rigid hi hg] at hr; cases hr
    have he := errSq_eq h hact hoff
    rw [he] at h2 hs
    set s := ((((List.range S.n).filter (S.active o.tol a.x a.q)).map (fun r => (S.dq r - apply S M dx r) ^ 2)).sum) with hsd
    cases hmc : minCells ((S.limiting o a (S.rate dx)).map (fun r => S.resid a.x a.q r / S.rate dx r)) with
    | none => rw [hmc] at hs; cases hs
    | some t =>
      rw [hmc] at hs
      simp only [Except.ok.injEq] at hs
      obtain ⟨m1, m2⟩ := minCells_spec hmc
      have hfz : ∀ r, rigid r → dx r = 0 := fun r hr => hoff r (h.not_active_rigid hi hr _)
      -- data of limiting rows
      have hlim : ∀ r, r ∈ S.limiting o a (S.rate dx) ↔ r < S.n ∧ Cell.lt (.fin o.tol) (S.resid a.x a.q r) = true ∧
          Cell.lt (.fin 0) (S.rate dx r) = true := by
        intro r; simp [Sys.limiting]
      have hdata : ∀ r ∈ S.limiting o a (S.rate dx), ¬ rigid r ∧ 0 < S.dq r - apply S M dx r ∧
          ∃ c, S.q0 r = .fin c ∧ o.tol < gap S M a c r ∧
            S.resid a.x a.q r / S.rate dx r = .fin (gap S M a c r / (S.dq r - apply S M dx r)) := by
        intro r hr
        obtain ⟨r1, r2, r3⟩ := (hlim r).1 hr
        rcases h.cases r1 with hg | ⟨hg, hb, -⟩ | ⟨hg, c, hb⟩
        · rw [h.resid_rigid hi hg] at r2; cases r2
        · obtain ⟨y, e, -⟩ := m1 _ (List.mem_map_of_mem hr)
          rw [h.rate hg] at r3
          rw [h.resid_inf hi hg hb, h.rate hg] at e
          rw [Cell.lt_fin_iff] at r3
          change Cell.div _ _ = _ at e
          simp [Cell.div, r3.le] at e
        · rw [h.rate hg, Cell.lt_fin_iff] at r3
          rw [h.resid hi hg hb, Cell.lt_fin_iff] at r2
          refine ⟨hg, r3, c, hb, r2, ?_⟩
          rw [h.resid hi hg hb, h.rate hg, Cell.fin_div_fin r3.ne']
      obtain ⟨r0, hr0, e0⟩ := List.mem_map.1 m2
      obtain ⟨g0, p0, c0, b0, l0, q0⟩ := hdata r0 hr0
      rw [q0] at e0
      have e0 : gap S M a c0 r0 / (S.dq r0 - apply S M dx r0) = t := by simpa using e0
      have herr0 : 0 ≤ o.errtol ∧ s ≤ o.errtol ^ 2 := by
        simp only [errGt, Bool.or_eq_true, decide_eq_true_eq, not_or, not_lt] at h2
        exact h2
      refine ⟨dx, t, s, ?_⟩
      subst hs
      refine ⟨hd, ?_, hoff, ?_, ?_, rfl, rfl, rfl, herr0.1, herr0.2, ?_, ?_, ?_, ?_⟩
      · intro htol
        rw [← e0]
        exact div_pos (lt_of_le_of_lt htol l0) p0
      · intro r; simp only; ring
      · simp only; ring
      · intro r hr ha
        rw [hsd]
        have hmem : (S.dq r - apply S M dx r) ^ 2 ∈ ((List.range S.n).filter (S.active o.tol a.x a.q)).map
            (fun r => (S.dq r - apply S M dx r) ^ 2) :=
          List.mem_map.2 ⟨r, List.mem_filter.2 ⟨List.mem_range.2 hr, ha⟩, rfl⟩
        refine List.single_le_sum ?_ _ hmem
        intro y hy
        obtain ⟨q, -, rfl⟩ := List.mem_map.1 hy
        positivity
      · intro r hr hg c hb hgap hv
        have hm : r ∈ S.limiting o a (S.rate dx) := by
          rw [hlim, h.resid hi hg hb, h.rate hg, Cell.lt_fin_iff, Cell.lt_fin_iff]
          exact ⟨hr, hgap, hv⟩
        obtain ⟨y, e, hy⟩ := m1 _ (List.mem_map_of_mem hm)
        rw [h.resid hi hg hb, h.rate hg, Cell.fin_div_fin hv.ne'] at e
        have e : gap S M a c r / (S.dq r - apply S M dx r) = y := by simpa using e
        rw [← e, le_div_iff₀ hv] at hy
        exact hy
      · refine ⟨r0, c0, ((hlim r0).1 hr0).1, g0, b0, l0, p0, ?_⟩
        rw [← e0, div_mul_cancel₀ _ p0.ne']
      · refine ⟨?_, ?_⟩
        · intro r hr
          simp only [hi.frozen r hr, hfz r hr]; ring
        · intro r
          simp only [hi.bounds r, add_assoc, Cell.fin_add_fin]
          congr 2
          ring

theorem Sound.inv_init (h : Sound S M rigid) (o : Opts K) : StepInv S rigid (S.init o) := by
  refine ⟨fun r _ => rfl, fun r => ?_⟩
  simp only [Sys.init, sub_self, mul_zero]
  exact (add_zero (S.q0 r)).symm

theorem Sound.inv (h : Sound S M rigid) {k : ℕ} {a : Rec K} (ha : (S.run o).1[k]? = some a) : StepInv S rigid a := by
  refine run_induction (p := StepInv S rigid) (h.inv_init o) ?_ ha
  intro a b hia hs
  obtain ⟨dx, t, s, hst⟩ := h.step hia hs
  exact hst.inv

/-- Change of the gap during a step. -/
theorem Stepped.gap_eq {a b : Rec K} {dx : ℕ → K} {t s : K} (hst : Stepped S M rigid o a b dx t s) (c : K) (r : ℕ) :
    gap S M b c r = gap S M a c r - t * (S.dq r - apply S M dx r) := by
  have : apply S M b.x r = apply S M a.x r - apply S M dx r * t := by
    unfold apply
    rw [Finset.sum_mul, ← Finset.sum_sub_distrib]
    apply Finset.sum_congr rfl
    intro c _
    rw [hst.x]; ring
  unfold gap
  rw [this, hst.Z]; ring

end

end Fibermat
