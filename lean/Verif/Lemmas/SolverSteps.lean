import Verif.Lemmas.Solver
import Mathlib.Tactic.Linarith
import Mathlib.LinearAlgebra.Matrix.ToLin
import Mathlib.LinearAlgebra.FiniteDimensional.Basic

/-! Invariants of the incremental solver on sound systems. -/

set_option linter.unusedSectionVars false
set_option linter.unusedSimpArgs false

namespace Fibermat
variable {K : Type} [Field K] [LinearOrder K] [IsStrictOrderedRing K]
open Spec

variable {S : Sys K} {M : ℕ → ℕ → K} {rigid : ℕ → Prop} {o : Opts K}

/-- Induction along the history of a sound system. -/
theorem Sound.induction (h : Sound S M rigid) {p : Rec K → Prop} (h0 : p (S.init o))
    (hs : ∀ a b dx t s, StepInv S rigid a → p a → Stepped S M rigid o a b dx t s → p b) {k : ℕ} {a : Rec K}
    (ha : (S.run o).1[k]? = some a) : p a := by
  refine (run_induction (p := fun a => StepInv S rigid a ∧ p a) ⟨h.inv_init o, h0⟩ ?_ ha).2
  rintro a b ⟨hi, hpa⟩ hst
  obtain ⟨dx, t, s, hst⟩ := h.step hi hst
  exact ⟨hst.inv, hs a b dx t s hi hpa hst⟩

/-- Steps between successive records. -/
theorem Sound.next (h : Sound S M rigid) {k : ℕ} {a b : Rec K} (ha : (S.run o).1[k]? = some a)
    (hb : (S.run o).1[k + 1]? = some b) : ∃ dx t s, Stepped S M rigid o a b dx t s :=
  h.step (h.inv ha) (run_next ha hb).2

theorem Sound.Z_le (h : Sound S M rigid) (htol : 0 ≤ o.tol) {k : ℕ} {a : Rec K} (ha : (S.run o).1[k]? = some a) :
    a.Z ≤ S.Z0 := by
  refine h.induction (p := fun a => a.Z ≤ S.Z0) le_rfl ?_ ha
  intro a b dx t s _ hle hst
  have := hst.pos htol
  rw [hst.Z]; linarith

/-- `Z` decreases along the history. -/
theorem Sound.Z_anti (h : Sound S M rigid) (htol : 0 ≤ o.tol) {k j : ℕ} (hkj : k ≤ j) {a b : Rec K}
    (ha : (S.run o).1[k]? = some a) (hb : (S.run o).1[j]? = some b) : b.Z ≤ a.Z := by
  induction j, hkj using Nat.le_induction generalizing b with
  | base => rw [ha] at hb; cases hb; exact le_rfl
  | succ j hkj ih =>
    have hj : j < (S.run o).1.length := by
      have := (List.getElem?_eq_some_iff.1 hb).1; omega
    have hc : (S.run o).1[j]? = some ((S.run o).1[j]) := List.getElem?_eq_getElem hj
    obtain ⟨dx, t, s, hst⟩ := h.next hc hb
    have := hst.pos htol
    have := ih hc
    rw [hst.Z]; linarith

/-- The rate of a row whose column is zero. -/
theorem Sound.zero_rate (h : Sound S M rigid) {r : ℕ} (hr : r < S.n) (hg : ¬ rigid r) (hz : ∀ c, c < S.n → M c r = 0)
    (dx : ℕ → K) : S.dq r - apply S M dx r = 0 := by
  rw [h.zero r hr hg hz]
  unfold apply
  rw [Finset.sum_eq_zero]
  · ring
  · intro c hc
    rw [h.symm, hz c (Finset.mem_range.1 hc), zero_mul]

/-- Gaps stay above the accumulated error. -/
theorem Sound.gap_ge (h : Sound S M rigid) (htol : 0 ≤ o.tol) {r : ℕ} (hr : r < S.n) (hg : ¬ rigid r) {c : K}
    (hc : S.q0 r = .fin c) (hc0 : 0 ≤ c) {k : ℕ} {a : Rec K} (ha : (S.run o).1[k]? = some a) :
    -(o.errtol * (S.Z0 - a.Z)) ≤ gap S M a c r := by
  refine (h.induction (p := fun a => a.Z ≤ S.Z0 ∧ -(o.errtol * (S.Z0 - a.Z)) ≤ gap S M a c r) ?_ ?_ ha).2
  · refine ⟨le_rfl, ?_⟩
    simp [Sys.init, gap, apply, hc0]
  · rintro a b dx t s hi ⟨hZ, hge⟩ hst
    have ht := hst.pos htol
    have he := hst.errtol
    refine ⟨by rw [hst.Z]; linarith, ?_⟩
    rw [hst.gap_eq, hst.Z]
    set v := S.dq r - apply S M dx r with hv
    have hpos : 0 ≤ o.errtol * (S.Z0 - a.Z + t) := mul_nonneg he (by linarith)
    by_cases hact : S.active o.tol a.x a.q r = true
    · have h2 := (hst.act r hr hact).trans hst.small
      have h3 : v ≤ o.errtol := (abs_le.1 (abs_le_of_sq_le_sq h2 he)).2
      nlinarith
    · by_cases hd : o.tol < gap S M a c r
      · by_cases hvp : 0 < v
        · have := hst.lim r hr hg c hc hd hvp
          have : 0 ≤ gap S M a c r - t * v := by linarith
          linarith
        · have : t * v ≤ 0 := mul_nonpos_of_nonneg_of_nonpos ht.le (not_lt.1 hvp)
          have : 0 ≤ gap S M a c r - t * v := by linarith
          linarith
      · have hz : ∀ s, s < S.n → M s r = 0 := by
          by_contra hcon
          push Not at hcon
          exact hact ((h.active_iff hi hg hc _).2 ⟨not_lt.1 hd, hcon⟩)
        have := h.zero_rate hr hg hz dx
        rw [← hv] at this
        rw [this, mul_zero]
        nlinarith [mul_nonneg he ht.le]

/-- The force rows stay balanced up to the accumulated error. -/
theorem Sound.balance (h : Sound S M rigid) (htol : 0 ≤ o.tol) {r : ℕ} (hr : r < S.nK) (hg : ¬ rigid r) {eps : K}
    (heps : 0 ≤ eps) {k : ℕ} {a : Rec K} (ha : (S.run o).1[k]? = some a)
    (herr : ∀ (j : ℕ) (b : Rec K), j ≤ k → (S.run o).1[j]? = some b → ∃ s, b.errSq = .fin s ∧ s ≤ eps ^ 2)
    (hsmall : eps * (S.Z0 - a.Z) ≤ o.tol) : |apply S M a.x r| ≤ eps * (S.Z0 - a.Z) := by
  have hrn : r < S.n := by unfold Sys.n; omega
  obtain ⟨hq, hdq⟩ := h.force r hr
  have key : ∀ (j : ℕ) (b : Rec K), j ≤ k → (S.run o).1[j]? = some b → |gap S M b 0 r| ≤ eps * (S.Z0 - b.Z) := by
    intro j
    induction j with
    | zero =>
      intro b _ hb
      rw [run_zero] at hb; cases hb
      simp [Sys.init, gap, apply]
    | succ j ih =>
      intro b hj hb
      have hjl : j < (S.run o).1.length := by
        have := (List.getElem?_eq_some_iff.1 hb).1; omega
      have hc : (S.run o).1[j]? = some ((S.run o).1[j]) := List.getElem?_eq_getElem hjl
      generalize (S.run o).1[j] = d at hc
      obtain ⟨dx, t, s, hst⟩ := h.next hc hb
      have hi := h.inv hc
      have hd := ih d (by omega) hc
      have ht := hst.pos htol
      have hZ := h.Z_anti htol (by omega) hc ha
      obtain ⟨s', es, hs'⟩ := herr (j + 1) b hj hb
      rw [hst.err] at es
      have es : s = s' := by simpa using es
      subst es
      have hle : gap S M d 0 r ≤ o.tol := by
        have h1 := (abs_le.1 hd).2
        have : eps * (S.Z0 - d.Z) ≤ eps * (S.Z0 - a.Z) := mul_le_mul_of_nonneg_left (by linarith) heps
        linarith
      have hv : |S.dq r - apply S M dx r| ≤ eps := by
        by_cases hact : S.active o.tol d.x d.q r = true
        · exact abs_le_of_sq_le_sq ((hst.act r hrn hact).trans hs') heps
        · have hz : ∀ s, s < S.n → M s r = 0 := by
            by_contra hcon
            push Not at hcon
            exact hact ((h.active_iff hi hg hq _).2 ⟨hle, hcon⟩)
          rw [h.zero_rate hrn hg hz, abs_zero]; exact heps
      rw [hst.gap_eq, hst.Z]
      calc |gap S M d 0 r - t * (S.dq r - apply S M dx r)|
          ≤ |gap S M d 0 r| + |t * (S.dq r - apply S M dx r)| := abs_sub _ _
        _ ≤ eps * (S.Z0 - d.Z) + t * eps := by
            rw [abs_mul, abs_of_pos ht]
            exact add_le_add hd (mul_le_mul_of_nonneg_left hv ht.le)
        _ = eps * (S.Z0 - (d.Z - t)) := by ring
  have := key k a le_rfl ha
  rwa [gap, hdq, zero_mul, add_zero, zero_sub, abs_neg] at this

/-! ## Exact linear solvers -/

/-- The direction satisfies the equations of the active rows. -/
def ExactDir (S : Sys K) (M : ℕ → ℕ → K) (o : Opts K) (a : Rec K) (dx : ℕ → K) : Prop :=
  ∀ r, r < S.n → S.active o.tol a.x a.q r = true → apply S M dx r = S.dq r

theorem dot_map {α : Type} (l : List α) (f : α → K) (x : List K) (hx : x.length = l.length) :
    dot (l.map f) x = ((l.zip x).map (fun p => f p.1 * p.2)).sum := by
  induction l generalizing x with
  | nil => cases x <;> rfl
  | cons a l ih =>
    cases x with
    | nil => simp at hx
    | cons b x => simp [dot, ih x (by simpa using hx)]

theorem zip_idxOf (act : List ℕ) (hnd : act.Nodup) (sol : List K) (hl : sol.length = act.length) (f : ℕ → K) :
    ((act.zip sol).map (fun p => f p.1 * p.2)).sum = (act.map (fun c => f c * sol.getD (act.idxOf c) 0)).sum := by
  congr 1
  apply List.ext_getElem
  · simp [hl]
  · intro i h1 h2
    have hi : i < act.length := by simpa using h2
    have hi' : i < sol.length := by omega
    simp [hnd.idxOf_getElem, hi', List.getD_eq_getElem?_getD]

theorem sum_filter_perm {n : ℕ} {p : List ℕ} (hp : p.Perm (List.range n)) (m : ℕ → Bool) (g : ℕ → K)
    (hg : ∀ c, m c = false → g c = 0) : ((p.filter m).map g).sum = ∑ c ∈ Finset.range n, g c := by
  have e : ∀ l : List ℕ, ((l.filter m).map g).sum = (l.map g).sum := by
    intro l
    induction l with
    | nil => rfl
    | cons c l ih =>
      by_cases hc : m c = true
      · simp [List.filter_cons, hc, ih]
      · simp [List.filter_cons, hc, ih, hg c (by simpa using hc)]
  rw [e, (hp.map g).sum_eq]
  rfl

/-- The matrix handed to the solver, in numbers. -/
def reduced (S : Sys K) (M : ℕ → ℕ → K) (o : Opts K) (a : Rec K) : List (List K) :=
  (S.actives o a).map (fun r => (S.actives o a).map (M r))

theorem Sound.reduced_eq (h : Sound S M rigid) {a : Rec K} (hi : StepInv S rigid a) :
    (S.actives o a).map (fun r => (S.actives o a).map (fun c => S.P r c)) = cells (reduced S M o a) := by
  unfold cells reduced
  rw [List.map_map]
  apply List.map_congr_left
  intro r hr
  simp only [Function.comp_apply, List.map_map]
  apply List.map_congr_left
  intro c _
  have hra := (List.mem_filter.1 hr).2
  have hg : ¬ rigid r := by
    intro hg; rw [h.not_active_rigid hi hg] at hra; cases hra
  exact h.num r c (fun hh => hg hh.1)

theorem square_reduced (S : Sys K) (M : ℕ → ℕ → K) (o : Opts K) (a : Rec K) :
    Square (reduced S M o a) ((S.actives o a).map S.dq) := by
  unfold Square reduced
  simp

/-- Extension by zero of a vector over the active rows. -/
def spread (act : List ℕ) (sol : List K) (c : ℕ) : K := if c ∈ act then sol.getD (act.idxOf c) 0 else 0

theorem mem_actives {a : Rec K} (hp : o.perm.Perm (List.range S.n)) (r : ℕ) :
    r ∈ S.actives o a ↔ r < S.n ∧ S.active o.tol a.x a.q r = true := by
  rw [Sys.actives, List.mem_filter, hp.mem_iff, List.mem_range]

theorem nodup_actives {a : Rec K} (hp : o.perm.Perm (List.range S.n)) : (S.actives o a).Nodup :=
  (hp.nodup_iff.2 List.nodup_range).filter _

theorem dot_spread {a : Rec K} (hp : o.perm.Perm (List.range S.n)) {sol : List K} (hl : sol.length = (S.actives o a).length)
    (r : ℕ) : dot ((S.actives o a).map (M r)) sol = apply S M (spread (S.actives o a) sol) r := by
  set act := S.actives o a with hact
  rw [dot_map act (M r) sol hl, zip_idxOf act (nodup_actives hp) sol hl]
  have : act.map (fun c => M r c * sol.getD (act.idxOf c) 0) = act.map (fun c => M r c * spread act sol c) := by
    apply List.map_congr_left
    intro c hc
    simp only [spread, if_pos hc]
  rw [this]
  refine (sum_filter_perm hp (S.active o.tol a.x a.q) (fun c => M r c * spread act sol c) ?_).trans rfl
  intro c hc
  have : c ∉ act := by
    intro hm; rw [((mem_actives hp c).1 hm).2] at hc; cases hc
  simp only [spread, if_neg this, mul_zero]

/-- Solutions of the reduced system. -/
theorem solves_iff {a : Rec K} (hp : o.perm.Perm (List.range S.n)) {sol : List K} (hl : sol.length = (S.actives o a).length)
    (b : ℕ → K) : Solves (reduced S M o a) ((S.actives o a).map b) sol ↔
      ∀ r, r < S.n → S.active o.tol a.x a.q r = true → apply S M (spread (S.actives o a) sol) r = b r := by
  set act := S.actives o a with hact
  have hmem : ∀ r, r ∈ act ↔ r < S.n ∧ S.active o.tol a.x a.q r = true := mem_actives hp
  have hdot : ∀ r, dot (act.map (M r)) sol = apply S M (spread act sol) r := dot_spread hp hl
  constructor
  · intro hs r hr ha
    have hra : r ∈ act := (hmem r).2 ⟨hr, ha⟩
    obtain ⟨i, hi, rfl⟩ := List.mem_iff_getElem.1 hra
    rw [← hdot]
    refine hs.rows i _ _ ?_ ?_
    · simp only [reduced, ← hact]
      rw [List.getElem?_map, List.getElem?_eq_getElem hi]; rfl
    · rw [List.getElem?_map, List.getElem?_eq_getElem hi]; rfl
  · intro he
    refine ⟨by simpa using hl, ?_⟩
    intro i row b h1 h2
    simp only [reduced, ← hact, List.getElem?_map, Option.map_eq_some_iff] at h1 h2
    obtain ⟨r, hr, rfl⟩ := h1
    obtain ⟨r', hr', rfl⟩ := h2
    rw [hr] at hr'; cases hr'
    rw [hdot]
    have := (hmem r).1 (List.mem_of_getElem? hr)
    exact he r this.1 this.2

/-- With an exact linear solver the direction is exact. -/
theorem Sound.exact (h : Sound S M rigid) (hlin : ExactLin o.lin) (hp : o.perm.Perm (List.range S.n)) {a : Rec K}
    (hi : StepInv S rigid a) {dx : ℕ → K} (hd : S.direction o a = some dx) : ExactDir S M o a dx := by
  unfold Sys.direction at hd
  simp only [Option.map_eq_some_iff] at hd
  obtain ⟨sol, hsol, rfl⟩ := hd
  rw [h.reduced_eq hi] at hsol
  have hs := hlin _ _ _ (square_reduced S M o a) hsol
  exact (solves_iff hp (by simpa using hs.size) S.dq).1 hs

/-- The force rows of a sound system stay exactly balanced. -/
theorem Sound.balance_exact (h : Sound S M rigid) (hlin : ExactLin o.lin) (hp : o.perm.Perm (List.range S.n))
    (htol : 0 ≤ o.tol) {r : ℕ} (hr : r < S.nK) (hg : ¬ rigid r) {k : ℕ} {a : Rec K} (ha : (S.run o).1[k]? = some a) :
    apply S M a.x r = 0 := by
  have hrn : r < S.n := by unfold Sys.n; omega
  obtain ⟨hq, hdq⟩ := h.force r hr
  refine h.induction (p := fun a => apply S M a.x r = 0) ?_ ?_ ha
  · simp [Sys.init, apply]
  · intro a b dx t s hi hpa hst
    have hgap : gap S M a 0 r = 0 := by rw [gap, hpa, hdq]; ring
    have hv : S.dq r - apply S M dx r = 0 := by
      by_cases hact : S.active o.tol a.x a.q r = true
      · rw [h.exact hlin hp hi hst.dir r hrn hact, sub_self]
      · have hz : ∀ s, s < S.n → M s r = 0 := by
          by_contra hcon
          push Not at hcon
          exact hact ((h.active_iff hi hg hq _).2 ⟨by rw [hgap]; exact htol, hcon⟩)
        exact h.zero_rate hrn hg hz dx
    have := hst.gap_eq 0 r
    rw [hgap, hv, gap, hdq] at this
    linarith

/-- With an exact solver gaps stay non-negative. -/
theorem Sound.gap_nonneg (h : Sound S M rigid) (hlin : ExactLin o.lin) (hp : o.perm.Perm (List.range S.n)) (htol : 0 ≤ o.tol)
    {r : ℕ} (hr : r < S.n) (hg : ¬ rigid r) {c : K} (hc : S.q0 r = .fin c) (hc0 : 0 ≤ c) {k : ℕ} {a : Rec K}
    (ha : (S.run o).1[k]? = some a) : 0 ≤ gap S M a c r := by
  refine h.induction (p := fun a => 0 ≤ gap S M a c r) ?_ ?_ ha
  · simp [Sys.init, gap, apply, hc0]
  · intro a b dx t s hi hge hst
    have ht := hst.pos htol
    rw [hst.gap_eq]
    by_cases hact : S.active o.tol a.x a.q r = true
    · rw [h.exact hlin hp hi hst.dir r hr hact]; simpa using hge
    · by_cases hd : o.tol < gap S M a c r
      · by_cases hvp : 0 < S.dq r - apply S M dx r
        · have := hst.lim r hr hg c hc hd hvp
          linarith
        · have : t * (S.dq r - apply S M dx r) ≤ 0 := mul_nonpos_of_nonneg_of_nonpos ht.le (not_lt.1 hvp)
          linarith
      · have hz : ∀ s, s < S.n → M s r = 0 := by
          by_contra hcon
          push Not at hcon
          exact hact ((h.active_iff hi hg hc _).2 ⟨not_lt.1 hd, hcon⟩)
        rw [h.zero_rate hr hg hz dx]; simpa using hge

/-- During an exact step, active rows keep their gap. -/
theorem Stepped.keep (h : Sound S M rigid) (hlin : ExactLin o.lin) (hp : o.perm.Perm (List.range S.n)) {a b : Rec K}
    (hi : StepInv S rigid a) {dx : ℕ → K} {t s : K} (hst : Stepped S M rigid o a b dx t s) {r : ℕ} (hr : r < S.n)
    (hact : S.active o.tol a.x a.q r = true) (c : K) : gap S M b c r = gap S M a c r := by
  rw [hst.gap_eq, h.exact hlin hp hi hst.dir r hr hact]; ring

/-- Active rows are not frozen and have a number as bound. -/
theorem Sound.active_num (h : Sound S M rigid) {a : Rec K} (hi : StepInv S rigid a) {r : ℕ} (hr : r < S.n) {tol : K}
    (hact : S.active tol a.x a.q r = true) : ¬ rigid r ∧ ∃ c, S.q0 r = .fin c := by
  rcases h.cases hr with hg | ⟨hg, hb, -⟩ | hb
  · rw [h.not_active_rigid hi hg] at hact; cases hact
  · rw [h.not_active_inf hi hg hb] at hact; cases hact
  · exact hb

/-- During an exact step, active rows stay active. -/
theorem Stepped.stays (h : Sound S M rigid) (hlin : ExactLin o.lin) (hp : o.perm.Perm (List.range S.n)) {a b : Rec K}
    (hi : StepInv S rigid a) {dx : ℕ → K} {t s : K} (hst : Stepped S M rigid o a b dx t s) {r : ℕ} (hr : r < S.n)
    (hact : S.active o.tol a.x a.q r = true) : S.active o.tol b.x b.q r = true := by
  obtain ⟨hg, c, hc⟩ := h.active_num hi hr hact
  have h1 := (h.active_iff hi hg hc _).1 hact
  rw [h.active_iff hst.inv hg hc, Stepped.keep h hlin hp hi hst hr hact]
  exact h1

/-- Each exact step activates a row. -/
theorem Stepped.hits (h : Sound S M rigid) (htol : 0 ≤ o.tol) {a b : Rec K} (hi : StepInv S rigid a) {dx : ℕ → K} {t s : K}
    (hst : Stepped S M rigid o a b dx t s) :
    ∃ r c, r < S.n ∧ ¬ rigid r ∧ S.q0 r = .fin c ∧ o.tol < gap S M a c r ∧ S.active o.tol a.x a.q r = false ∧
      gap S M b c r = 0 ∧ S.active o.tol b.x b.q r = true := by
  obtain ⟨r, c, hr, hg, hc, hd, hv, he⟩ := hst.hit
  have hb : gap S M b c r = 0 := by rw [hst.gap_eq]; linarith
  refine ⟨r, c, hr, hg, hc, hd, ?_, hb, ?_⟩
  · by_contra hcon
    have := (h.active_iff hi hg hc _).1 (by simpa using hcon)
    linarith [this.1]
  · rw [h.active_iff hst.inv hg hc, hb]
    refine ⟨htol, ?_⟩
    by_contra hcon
    push Not at hcon
    rw [h.zero_rate hr hg hcon] at hv
    exact lt_irrefl _ hv

/-- Nonzero unknowns are active. -/
theorem Sound.support (h : Sound S M rigid) (hlin : ExactLin o.lin) (hp : o.perm.Perm (List.range S.n))
    {r : ℕ} (hr : r < S.n) {k : ℕ} {a : Rec K} (ha : (S.run o).1[k]? = some a) (hx : a.x r ≠ 0) :
    S.active o.tol a.x a.q r = true := by
  refine h.induction (p := fun a => a.x r ≠ 0 → S.active o.tol a.x a.q r = true) ?_ ?_ ha hx
  · intro h0; exact absurd rfl h0
  · intro a b dx t s hi ih hst hb
    apply Stepped.stays h hlin hp hi hst hr
    by_contra hcon
    have hcon : S.active o.tol a.x a.q r = false := by simpa using hcon
    have h1 : a.x r = 0 := by
      by_contra hne
      rw [ih hne] at hcon; cases hcon
    apply hb
    rw [hst.x, h1, hst.off r hcon]; ring

/-- Number of steps of an exact run. -/
theorem Sound.steps_le (h : Sound S M rigid) (hlin : ExactLin o.lin) (hp : o.perm.Perm (List.range S.n)) (htol : 0 ≤ o.tol)
    {k : ℕ} {a : Rec K} (ha : (S.run o).1[k]? = some a) :
    k ≤ ((Finset.range S.nC).filter (fun j => S.active o.tol a.x a.q (S.nK + j) = true)).card := by
  induction k generalizing a with
  | zero => exact Nat.zero_le _
  | succ k ih =>
    have hk : k < (S.run o).1.length := by
      have := (List.getElem?_eq_some_iff.1 ha).1; omega
    have hc : (S.run o).1[k]? = some ((S.run o).1[k]) := List.getElem?_eq_getElem hk
    generalize (S.run o).1[k] = d at hc
    obtain ⟨dx, t, s, hst⟩ := h.next hc ha
    have hi := h.inv hc
    refine lt_of_le_of_lt (ih hc) (Finset.card_lt_card ?_)
    rw [Finset.ssubset_iff_of_subset]
    · obtain ⟨r, c, hr, hg, hcb, hd, hna, -, hab⟩ := Stepped.hits h htol hi hst
      have hrK : S.nK ≤ r := by
        by_contra hlt
        push Not at hlt
        obtain ⟨hq, hdq⟩ := h.force r hlt
        rw [hq] at hcb
        have hcb : (0 : K) = c := by simpa using hcb
        subst hcb
        rw [gap, hdq, h.balance_exact hlin hp htol hlt hg hc] at hd
        simp at hd
        exact absurd hd (not_lt.2 htol)
      refine ⟨r - S.nK, ?_, ?_⟩
      · rw [Finset.mem_filter, Finset.mem_range]
        refine ⟨by unfold Sys.n at hr; omega, ?_⟩
        rwa [Nat.add_sub_cancel' hrK]
      · rw [Finset.mem_filter, Nat.add_sub_cancel' hrK, hna]
        simp
    · intro j hj
      rw [Finset.mem_filter, Finset.mem_range] at hj ⊢
      exact ⟨hj.1, Stepped.stays h hlin hp hi hst (by unfold Sys.n; omega) hj.2⟩

/-! ## Work of the plate -/

/-- With an exact solver the work of the plate during a step is minus the energy of the direction. -/
theorem Sound.work (h : Sound S M rigid) (hlin : ExactLin o.lin) (hp : o.perm.Perm (List.range S.n)) {a b : Rec K}
    (hi : StepInv S rigid a) {dx : ℕ → K} {t s : K} (hst : Stepped S M rigid o a b dx t s)
    (hzero : ∀ i j, i < S.nC → j < S.nC → M (S.nK + i) (S.nK + j) = 0) :
    ∑ r ∈ Finset.range S.n, S.dq r * dx r = - energy S.nK M dx := by
  have hex := h.exact hlin hp hi hst.dir
  have h1 : ∀ r, r < S.n → dx r * apply S M dx r = S.dq r * dx r := by
    intro r hr
    by_cases hact : S.active o.tol a.x a.q r = true
    · rw [hex r hr hact, mul_comm]
    · rw [hst.off r (by simpa using hact)]; ring
  have hsplit : ∀ r, apply S M dx r = ∑ s ∈ Finset.range S.nK, M r s * dx s + ∑ j ∈ Finset.range S.nC, M r (S.nK + j) * dx (S.nK + j) := by
    intro r; unfold apply Sys.n; rw [Finset.sum_range_add]
  set B := ∑ r ∈ Finset.range S.nK, ∑ j ∈ Finset.range S.nC, dx r * M r (S.nK + j) * dx (S.nK + j) with hB
  have hforce : energy S.nK M dx + B = 0 := by
    unfold energy
    rw [hB, ← Finset.sum_add_distrib]
    apply Finset.sum_eq_zero
    intro r hr
    have hr := Finset.mem_range.1 hr
    have e := h1 r (by unfold Sys.n; omega)
    rw [(h.force r hr).2, zero_mul, hsplit, mul_add, Finset.mul_sum, Finset.mul_sum] at e
    rw [← e]
    congr 1 <;> (apply Finset.sum_congr rfl; intro s _; ring)
  have hplate : ∑ r ∈ Finset.range S.n, S.dq r * dx r = B := by
    unfold Sys.n
    rw [Finset.sum_range_add]
    have z : ∑ r ∈ Finset.range S.nK, S.dq r * dx r = 0 := by
      apply Finset.sum_eq_zero
      intro r hr
      rw [(h.force r (Finset.mem_range.1 hr)).2, zero_mul]
    rw [z, zero_add, hB, Finset.sum_comm]
    apply Finset.sum_congr rfl
    intro j hj
    have hj := Finset.mem_range.1 hj
    rw [← h1 (S.nK + j) (by unfold Sys.n; omega), hsplit]
    have z2 : ∑ i ∈ Finset.range S.nC, M (S.nK + j) (S.nK + i) * dx (S.nK + i) = 0 := by
      apply Finset.sum_eq_zero
      intro i hi
      rw [hzero j i hj (Finset.mem_range.1 hi), zero_mul]
    rw [z2, add_zero, Finset.mul_sum]
    apply Finset.sum_congr rfl
    intro s _
    rw [h.symm (S.nK + j) s]; ring
  rw [hplate]; linarith

/-! ## Regular reduced systems -/

theorem Sound.regular (h : Sound S M rigid) {a : Rec K} (hi : StepInv S rigid a) (hreg : RegularAt S o.tol a) (y : ℕ → K)
    (h1 : ∀ r, S.active o.tol a.x a.q r = false → y r = 0)
    (h2 : ∀ r, r < S.n → S.active o.tol a.x a.q r = true → apply S M y r = 0) : ∀ r, r < S.n → y r = 0 := by
  refine hreg y h1 ?_
  intro r hr hact
  rw [h.mulVec (h.active_num hi hr hact).1, h2 r hr hact]

theorem dot_ofFn {m : ℕ} (l : List ℕ) (hl : l.length = m) (f : ℕ → K) (y : Fin m → K) :
    dot (l.map f) (List.ofFn y) = ∑ j : Fin m, f (l[j]) * y j := by
  subst hl
  rw [dot_map _ _ _ (by simp), ← List.sum_ofFn]
  congr 1
  apply List.ext_getElem
  · simp
  · intro i h1 h2
    simp

theorem spread_zero {act : List ℕ} (hnd : act.Nodup) {sol : List K} (hl : sol.length = act.length)
    (h : ∀ c ∈ act, spread act sol c = 0) : ∀ i (hi : i < sol.length), sol[i] = 0 := by
  intro i hi
  have hi' : i < act.length := by omega
  have := h act[i] (List.getElem_mem hi')
  simpa [spread, hnd.idxOf_getElem, hi, List.getD_eq_getElem?_getD] using this

/-- A regular reduced system has exactly one solution. -/
theorem Sound.unique (h : Sound S M rigid) {a : Rec K} (hi : StepInv S rigid a) (hp : o.perm.Perm (List.range S.n))
    (hreg : RegularAt S o.tol a) : ∃! x, Solves (reduced S M o a) ((S.actives o a).map S.dq) x := by
  set act := S.actives o a with hact
  have hnd : act.Nodup := nodup_actives hp
  let A : Matrix (Fin act.length) (Fin act.length) K := fun i j => M act[i] act[j]
  have hdotA : ∀ (y : Fin act.length → K) (i : Fin act.length), dot (act.map (M act[i])) (List.ofFn y) = A.mulVecLin y i := by
    intro y i
    rw [dot_ofFn act rfl]
    rfl
  have hker : ∀ sol : List K, sol.length = act.length →
      Solves (reduced S M o a) (act.map (fun _ => (0 : K))) sol → ∀ i (hi : i < sol.length), sol[i] = 0 := by
    intro sol hl hs
    have h2 := (solves_iff (M := M) hp (by rw [hl]) (fun _ => (0 : K))).1 hs
    apply spread_zero hnd hl
    intro c hc
    have hcn := (mem_actives hp c).1 hc
    refine h.regular hi hreg (spread act sol) ?_ h2 c hcn.1
    intro r hr
    unfold spread
    rw [if_neg]
    intro hm
    rw [((mem_actives hp r).1 hm).2] at hr; cases hr
  have hinj : Function.Injective A.mulVecLin := by
    rw [← LinearMap.ker_eq_bot, LinearMap.ker_eq_bot']
    intro y hy
    have hs : Solves (reduced S M o a) (act.map (fun _ => (0 : K))) (List.ofFn y) := by
      refine ⟨by simp, ?_⟩
      intro i row c h1 h2
      have hil : i < act.length := by
        have := (List.getElem?_eq_some_iff.1 h2).1
        simpa using this
      simp only [reduced, ← hact, List.getElem?_map, List.getElem?_eq_getElem hil, Option.map_some, Option.some.injEq] at h1 h2
      subst h1 h2
      have := hdotA y ⟨i, hil⟩
      rw [hy] at this
      exact this
    have := hker _ (by simp) hs
    funext i
    have := this i (by simp)
    simpa using this
  have hsurj := LinearMap.surjective_of_injective hinj
  obtain ⟨y, hy⟩ := hsurj (fun i => S.dq act[i])
  refine ⟨List.ofFn y, ?_, ?_⟩
  · refine ⟨by simp, ?_⟩
    intro i row c h1 h2
    have hil : i < act.length := by
      have := (List.getElem?_eq_some_iff.1 h2).1
      simpa using this
    simp only [reduced, ← hact, List.getElem?_map, List.getElem?_eq_getElem hil, Option.map_some, Option.some.injEq] at h1 h2
    subst h1 h2
    have := hdotA y ⟨i, hil⟩
    rw [hy] at this
    exact this
  · intro z hz
    have hzl : z.length = act.length := by simpa using hz.size
    have ez : z = List.ofFn (fun i : Fin act.length => z[i]) := by
      apply List.ext_getElem
      · simp [hzl]
      · intro i h1 h2; simp
    rw [ez]
    congr 1
    apply hinj
    rw [hy]
    funext i
    rw [← hdotA, ← ez]
    exact hz.rows i _ _ (by simp [reduced, ← hact]) (by simp)

/-- The direction found at a regular state does not depend on the order of the unknowns. -/
theorem Sound.direction_perm (h : Sound S M rigid) {o' : Opts K} {a : Rec K} (hi : StepInv S rigid a)
    (hp : o.perm.Perm (List.range S.n)) (hp' : o'.perm.Perm (List.range S.n)) (ht : o'.tol = o.tol)
    (hlin : GoodLin o.lin) (hlin' : GoodLin o'.lin) (hreg : RegularAt S o.tol a) :
    ∃ dx, S.direction o a = some dx ∧ S.direction o' a = some dx := by
  have hsol : ∀ (o : Opts K), o.perm.Perm (List.range S.n) → GoodLin o.lin → RegularAt S o.tol a → ∃ sol : List K,
      S.direction o a = some (spread (S.actives o a) sol) ∧
      ∀ r, r < S.n → S.active o.tol a.x a.q r = true → apply S M (spread (S.actives o a) sol) r = S.dq r := by
    intro o hp hlin hreg
    obtain ⟨sol, hs⟩ := hlin.2 _ _ (square_reduced S M o a) (h.unique hi hp hreg)
    have hs' := hlin.1 _ _ _ (square_reduced S M o a) hs
    refine ⟨sol, ?_, (solves_iff hp (by simpa using hs'.size) S.dq).1 hs'⟩
    unfold Sys.direction
    simp only
    rw [h.reduced_eq hi, hs]
    rfl
  obtain ⟨s1, e1, f1⟩ := hsol o hp hlin hreg
  obtain ⟨s2, e2, f2⟩ := hsol o' hp' hlin' (by rw [ht]; exact hreg)
  refine ⟨_, e1, ?_⟩
  rw [e2]
  congr 1
  rw [ht] at f2
  have hoff : ∀ (o : Opts K) (sol : List K), o.perm.Perm (List.range S.n) → ∀ r, ¬ (r < S.n ∧ S.active o.tol a.x a.q r = true) →
      spread (S.actives o a) sol r = 0 := by
    intro o sol hp r hr
    unfold spread
    rw [if_neg]
    rw [mem_actives hp]; exact hr
  have hz := h.regular hi hreg (fun r => spread (S.actives o' a) s2 r - spread (S.actives o a) s1 r) ?_ ?_
  · funext r
    by_cases hr : r < S.n
    · exact sub_eq_zero.1 (hz r hr)
    · rw [hoff o s1 hp r (fun hh => hr hh.1), hoff o' s2 hp' r (fun hh => hr hh.1)]
  · intro r hr
    rw [hoff o s1 hp r (fun hh => by rw [hh.2] at hr; cases hr),
      hoff o' s2 hp' r (fun hh => by rw [← ht, hh.2] at hr; cases hr), sub_zero]
  · intro r hr hact
    have : apply S M (fun r => spread (S.actives o' a) s2 r - spread (S.actives o a) s1 r) r =
        apply S M (spread (S.actives o' a) s2) r - apply S M (spread (S.actives o a) s1) r := by
      unfold apply
      rw [← Finset.sum_sub_distrib]
      apply Finset.sum_congr rfl
      intro c _
      ring
    rw [this, f1 r hr hact, f2 r hr hact, sub_self]

end Fibermat
