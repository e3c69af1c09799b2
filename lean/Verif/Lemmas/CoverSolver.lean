import Verif.Lemmas.RenameSolver

/-! A system that covers another one: several unknowns stand over one, and each row meets exactly one of them. -/

set_option linter.unusedSectionVars false

namespace Fibermat
variable {K : Type} [Field K] [LinearOrder K] [IsStrictOrderedRing K]
open Spec

/-- Unknown `r` of the second system lies over unknown `π r` of the first one; each row has over each column one entry, that of the first
system, all others being zero. -/
structure Covers (S S' : Sys K) (π : ℕ → ℕ) : Prop where
  lt : ∀ r, r < S'.n → π r < S.n
  surj : ∀ c, c < S.n → ∃ r, r < S'.n ∧ π r = c
  P : ∀ r c, r < S'.n → c < S.n → ∃ d, d < S'.n ∧ π d = c ∧ S'.P r d = S.P (π r) c ∧
    ∀ e, e < S'.n → π e = c → e ≠ d → S'.P r e = .fin 0
  sym : ∀ r c, r < S.n → c < S.n → S.P r c = S.P c r
  sym' : ∀ r c, r < S'.n → c < S'.n → S'.P r c = S'.P c r
  q0 : ∀ r, r < S'.n → S'.q0 r = S.q0 (π r)
  dq : ∀ r, r < S'.n → S'.dq r = S.dq (π r)
  Z0 : S'.Z0 = S.Z0

/-- The same record, seen in the covering system. -/
structure CoveredRec (n : ℕ) (π : ℕ → ℕ) (a a' : Rec K) : Prop where
  x : ∀ c, c < n → a'.x c = a.x (π c)
  q : ∀ r, r < n → a'.q r = a.q (π r)
  Z : a'.Z = a.Z
  lam : a'.rlambda = a.rlambda
  mask : ∀ r, r < n → a'.mask r = a.mask (π r)
  err : a'.errSq = a.errSq

theorem list_range_sum (g : ℕ → Cell K) (n : ℕ) : ((List.range n).map g).sum = ∑ c ∈ Finset.range n, g c := by
  induction n with
  | zero => rfl
  | succ n ih => rw [List.range_succ, List.map_append, List.sum_append, ih, Finset.sum_range_succ]; simp

/-- Sums over the covering indices, of which one over each index counts. -/
theorem cover_sum {n n' : ℕ} {π : ℕ → ℕ} (hlt : ∀ r, r < n' → π r < n) (g' g : ℕ → Cell K)
    (h : ∀ c, c < n → ∃ d, d < n' ∧ π d = c ∧ g' d = g c ∧ ∀ e, e < n' → π e = c → e ≠ d → g' e = .fin 0) :
    ((List.range n').map g').sum = ((List.range n).map g).sum := by
  rw [list_range_sum, list_range_sum, ← Finset.sum_fiberwise_of_maps_to (t := Finset.range n) (g := π)
    (fun r hr => Finset.mem_range.2 (hlt r (Finset.mem_range.1 hr)))]
  refine Finset.sum_congr rfl ?_
  intro c hc
  obtain ⟨d, h1, h2, h3, h4⟩ := h c (Finset.mem_range.1 hc)
  rw [Finset.sum_eq_single_of_mem d (Finset.mem_filter.2 ⟨Finset.mem_range.2 h1, h2⟩), h3]
  intro e he hne
  obtain ⟨e1, e2⟩ := Finset.mem_filter.1 he
  exact h4 e (Finset.mem_range.1 e1) e2 hne

variable {S S' : Sys K} {π : ℕ → ℕ} {M M' : ℕ → ℕ → K} {rigid rigid' : ℕ → Prop} {o o' : Opts K} {a a' : Rec K}

theorem Covers.mulVec (h : Covers S S' π) {x x' : ℕ → K} (hx : ∀ c, c < S'.n → x' c = x (π c)) {r : ℕ} (hr : r < S'.n) :
    S'.mulVec x' r = S.mulVec x (π r) := by
  unfold Sys.mulVec cellSum
  refine cover_sum h.lt _ _ ?_
  intro c hc
  obtain ⟨d, h1, h2, h3, h4⟩ := h.P r c hr hc
  refine ⟨d, h1, h2, by rw [h3, hx d h1, h2], fun e he hec hne => ?_⟩
  rw [h4 e he hec hne, Cell.fin_mul_fin, zero_mul]

theorem Covers.colSum (h : Covers S S' π) {c : ℕ} (hc : c < S'.n) : S'.colSum c = S.colSum (π c) := by
  unfold Sys.colSum cellSum
  refine cover_sum h.lt _ _ ?_
  intro r hr
  obtain ⟨d, h1, h2, h3, h4⟩ := h.P c r hc hr
  refine ⟨d, h1, h2, by rw [h.sym' d c h1 hc, h3, h.sym _ _ (h.lt c hc) hr], fun e he hec hne => ?_⟩
  rw [h.sym' e c he hc, h4 e he hec hne]
  simp [Cell.abs]

theorem Covers.resid_of (h : Covers S S' π) {x x' : ℕ → K} {q q' : ℕ → Cell K} (hx : ∀ c, c < S'.n → x' c = x (π c))
    (hq : ∀ r, r < S'.n → q' r = q (π r)) {r : ℕ} (hr : r < S'.n) : S'.resid x' q' r = S.resid x q (π r) := by
  unfold Sys.resid
  rw [h.mulVec hx hr, hq r hr]

theorem Covers.resid (h : Covers S S' π) (ha : CoveredRec S'.n π a a') {r : ℕ} (hr : r < S'.n) :
    S'.resid a'.x a'.q r = S.resid a.x a.q (π r) := h.resid_of ha.x ha.q hr

theorem Covers.active (h : Covers S S' π) (ha : CoveredRec S'.n π a a') (tol : K) {r : ℕ} (hr : r < S'.n) :
    S'.active tol a'.x a'.q r = S.active tol a.x a.q (π r) := by
  unfold Sys.active
  rw [h.resid ha hr, h.colSum hr]

/-- A vector of the first system, in the covering one. -/
def over (n : ℕ) (π : ℕ → ℕ) (y : ℕ → K) (c : ℕ) : K := if c < n then y (π c) else 0

theorem over_eq (y : ℕ → K) {n c : ℕ} (hc : c < n) : over n π y c = y (π c) := by rw [over, if_pos hc]

theorem over_zero (h : Covers S S' π) (ha : CoveredRec S'.n π a a') {tol : K} {y : ℕ → K}
    (h1 : ∀ r, S.active tol a.x a.q r = false → y r = 0) (r : ℕ) (hr : S'.active tol a'.x a'.q r = false) : over S'.n π y r = 0 := by
  unfold over
  split_ifs with hn
  · exact h1 _ (by rw [← h.active ha tol hn]; exact hr)
  · rfl

theorem Covers.regular (h : Covers S S' π) (ha : CoveredRec S'.n π a a') {tol : K} (hreg : RegularAt S' tol a') : RegularAt S tol a := by
  intro y h1 h2 r hr
  obtain ⟨s, hs, rfl⟩ := h.surj r hr
  rw [← over_eq (n := S'.n) y hs]
  refine hreg (over S'.n π y) (over_zero h ha h1) ?_ s hs
  intro r hr hact
  rw [h.mulVec (x := y) (fun c hc => over_eq y hc) hr]
  exact h2 _ (h.lt r hr) (by rw [← h.active ha tol hr]; exact hact)

theorem Covers.noDirection (h : Covers S S' π) (ha : CoveredRec S'.n π a a') {tol : K} (hno : NoDirection S' tol a') : NoDirection S tol a := by
  intro y h1 h2
  refine hno (over S'.n π y) (over_zero h ha h1) ?_
  intro r hr hact
  rw [h.mulVec (x := y) (fun c hc => over_eq y hc) hr, h.dq r hr]
  exact h2 _ (h.lt r hr) (by rw [← h.active ha tol hr]; exact hact)

/-- The direction of the covering system. -/
theorem Covers.direction (h : Covers S S' π) (ha : CoveredRec S'.n π a a') (hs : Sound S M rigid)
    (hs' : Sound S' M' rigid') (hi : StepInv S rigid a) (hi' : StepInv S' rigid' a') (hp : o.perm.Perm (List.range S.n))
    (hp' : o'.perm.Perm (List.range S'.n)) (ht : o'.tol = o.tol) (hlin : GoodLin o.lin) (hlin' : GoodLin o'.lin)
    (hreg' : RegularAt S' o.tol a') :
    ∃ dx dx', S.direction o a = some dx ∧ S'.direction o' a' = some dx' ∧ ∀ c, c < S'.n → dx' c = dx (π c) := by
  have hreg := h.regular ha hreg'
  obtain ⟨dx, hd, -⟩ := hs.direction_perm hi hp hp rfl hlin hlin hreg
  rw [← ht] at hreg'
  obtain ⟨dx', hd', -⟩ := hs'.direction_perm hi' hp' hp' rfl hlin' hlin' hreg'
  refine ⟨dx, dx', hd, hd', ?_⟩
  have hz : ∀ r, S.active o'.tol a.x a.q r = false → dx r = 0 := fun r hra => direction_zero hd (by rw [← ht]; exact hra)
  have key := hs'.regular hi' hreg' (fun c => over S'.n π dx c - dx' c) ?_ ?_
  · intro c hc
    rw [← over_eq (n := S'.n) dx hc, sub_eq_zero.1 (key c hc)]
  · intro r hra
    rw [over_zero h ha hz r hra, direction_zero hd' hra, sub_zero]
  · intro r hrn hra
    have hg := (hs'.active_num hi' hrn hra).1
    have e2 := hs'.exact hlin'.1 hp' hi' hd' r hrn hra
    have hra' : S.active o.tol a.x a.q (π r) = true := by rw [← ht, ← h.active ha o'.tol hrn]; exact hra
    have e1 := hs.exact hlin.1 hp hi hd (π r) (h.lt r hrn) hra'
    have e3 : apply S' M' (over S'.n π dx) r = S'.dq r := by
      have m1 := hs.mulVec (hs.active_num hi (h.lt r hrn) hra').1 dx
      rw [e1, ← h.mulVec (x' := over S'.n π dx) (fun c hc => over_eq dx hc) hrn, hs'.mulVec hg, ← h.dq r hrn] at m1
      injection m1
    have e4 : apply S' M' (fun c => over S'.n π dx c - dx' c) r = apply S' M' (over S'.n π dx) r - apply S' M' dx' r := by
      unfold apply
      rw [← Finset.sum_sub_distrib]
      exact Finset.sum_congr rfl (fun c _ => by ring)
    rw [e4, e3, e2, sub_self]

/-- The smallest of some numbers depends on which numbers occur only. -/
theorem minCells_same {l m : List (Cell K)} (h : ∀ x, x ∈ l ↔ x ∈ m) : minCells l = minCells m := by
  by_cases hn : ∃ x ∈ l, ∀ y, x ≠ .fin y
  · rw [minCells_none hn, minCells_none]
    obtain ⟨x, hx, e⟩ := hn
    exact ⟨x, (h x).1 hx, e⟩
  · push Not at hn
    by_cases he : l = []
    · subst he
      have : m = [] := List.eq_nil_iff_forall_not_mem.2 (fun x hx => by cases (h x).2 hx)
      rw [this]
    · obtain ⟨t, ht⟩ := minCells_some he hn
      obtain ⟨x0, hx0⟩ := List.exists_mem_of_ne_nil l he
      obtain ⟨t', ht'⟩ := minCells_some (l := m) (List.ne_nil_of_mem ((h x0).1 hx0)) (fun x hx => hn x ((h x).2 hx))
      obtain ⟨a1, a2⟩ := minCells_spec ht
      obtain ⟨b1, b2⟩ := minCells_spec ht'
      obtain ⟨y, e, hy⟩ := a1 _ ((h _).2 b2)
      obtain ⟨y', e', hy'⟩ := b1 _ ((h _).1 a2)
      cases e; cases e'
      rw [ht, ht', le_antisymm hy hy']

/-- A step of the covering system. -/
theorem Covers.step (h : Covers S S' π) (ha : CoveredRec S'.n π a a') (hs : Sound S M rigid)
    (hs' : Sound S' M' rigid') (hi : StepInv S rigid a) (hi' : StepInv S' rigid' a')
    (hp : o.perm.Perm (List.range S.n)) (hp' : o'.perm.Perm (List.range S'.n)) (ht : o'.tol = o.tol)
    (he : o'.errtol = o.errtol) (hlin : GoodLin o.lin) (hlin' : GoodLin o'.lin)
    (hreg : RegularAt S' o.tol a' ∨ NoDirection S' o.tol a') :
    (∃ e, S.step o a = .error e ∧ S'.step o' a' = .error e) ∨
      ∃ b b', S.step o a = .ok b ∧ S'.step o' a' = .ok b' ∧ CoveredRec S'.n π b b' := by
  have hact : ∀ r, r < S'.n → S'.active o.tol a'.x a'.q r = S.active o.tol a.x a.q (π r) := fun r hrn => h.active ha o.tol hrn
  have hlim : ∀ v v' : ℕ → Cell K, (∀ r, r < S'.n → v' r = v (π r)) → ∀ r, r < S'.n →
      (r ∈ S'.limiting o' a' v' ↔ π r ∈ S.limiting o a v) := by
    intro v v' hv r hr
    unfold Sys.limiting
    rw [List.mem_filter, List.mem_filter, List.mem_range, List.mem_range, h.resid ha hr, hv r hr, ht]
    exact and_congr_left (fun _ => ⟨fun _ => h.lt r hr, fun _ => hr⟩)
  have hltl : ∀ v, ∀ r ∈ S.limiting o a v, r < S.n := fun v r hr => List.mem_range.1 (List.mem_filter.1 hr).1
  have hltl' : ∀ v, ∀ r ∈ S'.limiting o' a' v, r < S'.n := fun v r hr => List.mem_range.1 (List.mem_filter.1 hr).1
  have hnil : ∀ v v' : ℕ → Cell K, (∀ r, r < S'.n → v' r = v (π r)) → (S'.limiting o' a' v' = [] ↔ S.limiting o a v = []) := by
    intro v v' hv
    rw [List.eq_nil_iff_forall_not_mem, List.eq_nil_iff_forall_not_mem]
    constructor
    · intro hno r hr
      obtain ⟨s, hsn, rfl⟩ := h.surj r (hltl v r hr)
      exact hno s ((hlim v v' hv s hsn).2 hr)
    · intro hno r hr
      exact hno _ ((hlim v v' hv r (hltl' v' r hr)).1 hr)
  rcases hreg with hreg | hno
  · obtain ⟨dx, dx', hd, hd', hdx⟩ := h.direction ha hs hs' hi hi' hp hp' ht hlin hlin' hreg
    have e1 := errSq_exact hs hi hp hlin.1 hd
    have e2 := errSq_exact hs' hi' hp' hlin'.1 hd'
    have hrate : ∀ r, r < S'.n → S'.rate dx' r = S.rate dx (π r) := by
      intro r hrn
      unfold Sys.rate
      rw [h.mulVec hdx hrn, h.dq r hrn]
    have hmin : minCells ((S'.limiting o' a' (S'.rate dx')).map (fun r => S'.resid a'.x a'.q r / S'.rate dx' r)) =
        minCells ((S.limiting o a (S.rate dx)).map (fun r => S.resid a.x a.q r / S.rate dx r)) := by
      refine minCells_same ?_
      intro y
      rw [List.mem_map, List.mem_map]
      constructor
      · rintro ⟨r, hr, rfl⟩
        have hrn := hltl' _ r hr
        exact ⟨π r, (hlim _ _ hrate r hrn).1 hr, by rw [h.resid ha hrn, hrate r hrn]⟩
      · rintro ⟨r, hr, rfl⟩
        obtain ⟨s, hsn, rfl⟩ := h.surj r (hltl _ r hr)
        exact ⟨s, (hlim _ _ hrate s hsn).2 hr, by rw [h.resid ha hsn, hrate s hsn]⟩
    unfold Sys.step
    rw [hd, hd']
    simp only [he, hnil _ _ hrate, e1, e2, hmin]
    split_ifs with c1 c2
    · exact Or.inl ⟨_, rfl, rfl⟩
    · exact Or.inl ⟨_, rfl, rfl⟩
    · cases minCells ((S.limiting o a (S.rate dx)).map (fun r => S.resid a.x a.q r / S.rate dx r)) with
      | none => exact Or.inl ⟨_, rfl, rfl⟩
      | some t =>
        refine Or.inr ⟨_, _, rfl, rfl, ?_, ?_, ?_, ?_, ?_, rfl⟩
        · intro c hc
          simp only [ha.x c hc, hdx c hc]
        · intro r hrn
          simp only [ha.q r hrn, h.dq r hrn]
        · simp only [ha.Z]
        · simp only [ha.Z, h.Z0]
        · intro r hrn
          simp only [ht]
          exact hact r hrn
  · have hd := noDirection_none hs hi hp hlin.1 (h.noDirection ha hno)
    rw [← ht] at hno
    have hd' := noDirection_none hs' hi' hp' hlin'.1 hno
    have hm : ∀ c, c < S'.n → (c ∈ S'.actives o' a' ↔ π c ∈ S.actives o a) := by
      intro c hc
      rw [mem_actives hp, mem_actives hp', ht, hact c hc]
      exact and_congr_left (fun _ => ⟨fun _ => h.lt c hc, fun _ => hc⟩)
    left
    unfold Sys.step
    rw [hd, hd']
    simp only
    have key := hnil (fun r => if (List.range S.n).any (fun c => decide (c ∈ S.actives o a) && decide (S.P r c ≠ .fin 0)) = true
      then .nan else .fin (S.dq r)) (fun r => if (List.range S'.n).any (fun c => decide (c ∈ S'.actives o' a') &&
        decide (S'.P r c ≠ .fin 0)) = true then .nan else .fin (S'.dq r)) ?_
    · by_cases hc : S.limiting o a (fun r => if (List.range S.n).any (fun c => decide (c ∈ S.actives o a) &&
        decide (S.P r c ≠ .fin 0)) = true then .nan else .fin (S.dq r)) = []
      · rw [if_pos hc, if_pos (key.2 hc)]
        exact ⟨_, rfl, rfl⟩
      · rw [if_neg hc, if_neg (fun e => hc (key.1 e))]
        exact ⟨_, rfl, rfl⟩
    · intro r hrn
      simp only [h.dq r hrn]
      congr 1
      rw [List.any_eq_true, List.any_eq_true]
      simp only [List.mem_range, Bool.and_eq_true, decide_eq_true_eq, eq_iff_iff]
      constructor
      · rintro ⟨c, hc, m1, m2⟩
        refine ⟨π c, h.lt c hc, (hm c hc).1 m1, fun e => m2 ?_⟩
        obtain ⟨d, h1, h2, h3, h4⟩ := h.P r (π c) hrn (h.lt c hc)
        by_cases hcd : c = d
        · rw [hcd, h3, e]
        · exact h4 c hc rfl hcd
      · rintro ⟨c, hc, m1, m2⟩
        obtain ⟨d, h1, h2, h3, h4⟩ := h.P r c hrn hc
        exact ⟨d, h1, (hm d h1).2 (by rw [h2]; exact m1), fun e => m2 (by rw [← h3, e])⟩

/-- The loop of the covering system. -/
theorem Covers.loop (h : Covers S S' π) (hs : Sound S M rigid) (hs' : Sound S' M' rigid')
    (hp : o.perm.Perm (List.range S.n)) (hp' : o'.perm.Perm (List.range S'.n)) (ht : o'.tol = o.tol)
    (he : o'.errtol = o.errtol) (hpk : o'.packing = o.packing) (hlin : GoodLin o.lin) (hlin' : GoodLin o'.lin) (n : ℕ) {a a' : Rec K}
    (ha : CoveredRec S'.n π a a') (hi : StepInv S rigid a)
    (hgood : ∀ b ∈ a' :: (S'.loop o' n a').1, StepInv S' rigid' b ∧
      (Cell.lt b.rlambda o.packing = true → RegularAt S' o.tol b ∨ NoDirection S' o.tol b)) :
    List.Forall₂ (CoveredRec S'.n π) (S.loop o n a).1 (S'.loop o' n a').1 ∧ (S'.loop o' n a').2 = (S.loop o n a).2 := by
  induction n generalizing a a' with
  | zero => exact ⟨List.Forall₂.nil, rfl⟩
  | succ n ih =>
    obtain ⟨g1, g3⟩ := hgood a' (by simp)
    unfold Sys.loop at hgood ⊢
    rw [hpk] at hgood ⊢
    rw [← ha.lam]
    split_ifs at hgood ⊢ with hl
    · rcases h.step ha hs hs' hi g1 hp hp' ht he hlin hlin' (g3 hl) with ⟨e, e1, e2⟩ | ⟨b, b', e1, e2, hb⟩
      · rw [e1, e2]; exact ⟨List.Forall₂.nil, rfl⟩
      · rw [e2] at hgood
        simp only at hgood
        rw [e1, e2]
        obtain ⟨_, _, _, hst⟩ := hs.step hi e1
        have := ih hb hst.inv (fun c hc => hgood c (List.mem_cons_of_mem _ hc))
        exact ⟨List.Forall₂.cons hb this.1, this.2⟩
    · exact ⟨List.Forall₂.nil, rfl⟩

/-- The run of the covering system. -/
theorem Covers.run (h : Covers S S' π) (hs : Sound S M rigid) (hs' : Sound S' M' rigid')
    (hp : o.perm.Perm (List.range S.n)) (hp' : o'.perm.Perm (List.range S'.n)) (ht : o'.tol = o.tol)
    (he : o'.errtol = o.errtol) (hpk : o'.packing = o.packing) (hit : o'.itermax = o.itermax) (hlin : GoodLin o.lin)
    (hlin' : GoodLin o'.lin)
    (hreg : ∀ a ∈ (S'.run o').1, Cell.lt a.rlambda o.packing = true → RegularAt S' o.tol a ∨ NoDirection S' o.tol a) :
    List.Forall₂ (CoveredRec S'.n π) (S.run o).1 (S'.run o').1 ∧ (S'.run o').2 = (S.run o).2 := by
  have hinv : ∀ b ∈ (S'.run o').1, StepInv S' rigid' b := by
    intro b hb
    obtain ⟨k, hk⟩ := List.mem_iff_getElem?.1 hb
    exact hs'.inv hk
  have hinit : CoveredRec S'.n π (S.init o) (S'.init o') := by
    refine ⟨fun c _ => rfl, h.q0, h.Z0, rfl, ?_, rfl⟩
    intro r hrn
    show Cell.le (S'.resid (fun _ => 0) S'.q0 r) (.fin o'.tol) = Cell.le (S.resid (fun _ => 0) S.q0 (π r)) (.fin o.tol)
    rw [h.resid_of (x := fun _ => 0) (fun c _ => rfl) h.q0 hrn, ht]
  have := h.loop hs hs' hp hp' ht he hpk hlin hlin' o.itermax hinit (hs.inv_init o)
    (fun b hb => by
      have hb' : b ∈ (S'.run o').1 := by unfold Sys.run; rw [hit]; exact hb
      exact ⟨hinv b hb', fun hl => hreg b hb' hl⟩)
  unfold Sys.run
  rw [hit]
  exact ⟨List.Forall₂.cons hinit this.1, this.2⟩

end Fibermat
