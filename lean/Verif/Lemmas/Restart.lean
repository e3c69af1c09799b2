import Verif.Lemmas.SolverSteps

/-! # Two systems that differ by their bounds only, one being the other at a later state -/

set_option linter.unusedSectionVars false
set_option linter.unusedSimpArgs false

namespace Fibermat
variable {K : Type} [Field K] [LinearOrder K] [IsStrictOrderedRing K]
open Spec

variable {S S' : Sys K} {M : ℕ → ℕ → K} {rigid : ℕ → Prop} {o o' : Opts K}

/-- `S'` is the system `S` seen from the state `a0`: same matrix, same increments, bounds that are what is left of the gaps. -/
structure From (S S' : Sys K) (M : ℕ → ℕ → K) (rigid : ℕ → Prop) (a0 : Rec K) : Prop where
  nK : S'.nK = S.nK
  nC : S'.nC = S.nC
  P : S'.P = S.P
  dq : S'.dq = S.dq
  Z0 : S'.Z0 = a0.Z
  bal : ∀ r, r < S.nK → ¬ rigid r → apply S M a0.x r = 0
  frozen : ∀ r, rigid r → a0.x r = 0
  force : ∀ r, r < S.nK → S'.q0 r = .fin 0
  fin : ∀ r, S.nK ≤ r → r < S.n → ∀ b, S.q0 r = .fin b → S'.q0 r = .fin (gap S M a0 b r)
  inf : ∀ r, S.nK ≤ r → r < S.n → S.q0 r = .pinf → S'.q0 r = .pinf

variable {a0 : Rec K}

theorem From.n (hf : From S S' M rigid a0) : S'.n = S.n := by unfold Sys.n; rw [hf.nK, hf.nC]

theorem From.sound (hf : From S S' M rigid a0) (h : Sound S M rigid) : Sound S' M rigid := by
  refine ⟨?_, ?_, ?_, h.symm, ?_, ?_, ?_⟩
  · rw [hf.P]; exact h.num
  · rw [hf.P]; exact h.diag
  · rw [hf.nK]; exact h.lt
  · rw [hf.nK, hf.dq]
    exact fun r hr => ⟨hf.force r hr, (h.force r hr).2⟩
  · rw [hf.nK, hf.n, hf.dq]
    intro r h1 h2
    rcases h.bound r h1 h2 with ⟨b, hb⟩ | ⟨hb, hd⟩
    · exact Or.inl ⟨_, hf.fin r h1 h2 b hb⟩
    · exact Or.inr ⟨hf.inf r h1 h2 hb, hd⟩
  · rw [hf.n, hf.dq]; exact h.zero

/-- The state `a'` of `S'` is the state `a` of `S`, counted from `a0`. -/
structure Shift (a0 a a' : Rec K) : Prop where
  x : ∀ r, a'.x r = a.x r - a0.x r
  Z : a'.Z = a.Z

theorem apply_sub' (S : Sys K) (M : ℕ → ℕ → K) (x y : ℕ → K) (r : ℕ) :
    apply S M (fun c => x c - y c) r = apply S M x r - apply S M y r := by
  unfold apply
  rw [← Finset.sum_sub_distrib]
  exact Finset.sum_congr rfl fun c _ => by ring

/-- The gaps are the same. -/
theorem From.resid (hf : From S S' M rigid a0) (h : Sound S M rigid) {a a' : Rec K} (hi : StepInv S rigid a)
    (hi' : StepInv S' rigid a') (hs : Shift a0 a a') {r : ℕ} (hr : r < S.n) : S'.resid a'.x a'.q r = S.resid a.x a.q r := by
  have h' := hf.sound h
  have hx : a'.x = fun c => a.x c - a0.x c := funext hs.x
  have hap : apply S' M a'.x r = apply S M a.x r - apply S M a0.x r := by
    rw [hx, ← apply_sub']
    unfold apply
    rw [hf.n]
  by_cases hg : rigid r
  · rw [h'.resid_rigid hi' hg, h.resid_rigid hi hg]
  · by_cases hk : r < S.nK
    · rw [h'.resid hi' hg (hf.force r hk), h.resid hi hg (h.force r hk).1]
      simp only [gap, hap, hf.bal r hk hg, hf.dq, (h.force r hk).2]
      congr 1
      ring
    · rcases h.bound r (by omega) hr with ⟨b, hb⟩ | ⟨hb, -⟩
      · rw [h'.resid hi' hg (hf.fin r (by omega) hr b hb), h.resid hi hg hb]
        simp only [gap, hap, hf.dq, hs.Z, hf.Z0]
        congr 1
        ring
      · rw [h'.resid_inf hi' hg (hf.inf r (by omega) hr hb), h.resid_inf hi hg hb]

/-- One step from states that correspond: both stop for the same reason, or the next states correspond. -/
theorem From.step (hf : From S S' M rigid a0) (h : Sound S M rigid) {a a' : Rec K} (hi : StepInv S rigid a)
    (hi' : StepInv S' rigid a') (hs : Shift a0 a a') (ht : o'.tol = o.tol) (hl : o'.lin = o.lin) (hp : o'.perm = o.perm)
    (he : o'.errtol = o.errtol) (hperm : ∀ r ∈ o.perm, r < S.n) :
    (∃ e, S.step o a = .error e ∧ S'.step o' a' = .error e) ∨
    ∃ b b', S.step o a = .ok b ∧ S'.step o' a' = .ok b' ∧ Shift a0 b b' ∧ (∀ r, r < S.n → b'.mask r = b.mask r) ∧ b'.errSq = b.errSq := by
  have hres : ∀ r, r < S.n → S'.resid a'.x a'.q r = S.resid a.x a.q r := fun r hr => hf.resid h hi hi' hs hr
  have hcol : ∀ r, S'.colSum r = S.colSum r := by intro r; unfold Sys.colSum; rw [hf.n, hf.P]
  have hact : ∀ r, r < S.n → S'.active o'.tol a'.x a'.q r = S.active o.tol a.x a.q r := by
    intro r hr
    unfold Sys.active
    rw [hres r hr, hcol, ht]
  have hacts : S'.actives o' a' = S.actives o a := by
    unfold Sys.actives
    rw [hp]
    exact List.filter_congr fun r hr => hact r (hperm r hr)
  have hd : S'.direction o' a' = S.direction o a := by
    unfold Sys.direction
    rw [hacts, hl, hf.P, hf.dq]
  have hlim : ∀ v, S'.limiting o' a' v = S.limiting o a v := by
    intro v
    unfold Sys.limiting
    rw [hf.n, ht]
    exact List.filter_congr fun r hr => by rw [hres r (List.mem_range.1 hr)]
  have hrate : ∀ dx, S'.rate dx = S.rate dx := by
    intro dx
    funext r
    unfold Sys.rate Sys.mulVec
    rw [hf.n, hf.P, hf.dq]
  have herr : ∀ dx, S'.errSq (S'.active o'.tol a'.x a'.q) dx = S.errSq (S.active o.tol a.x a.q) dx := by
    intro dx
    unfold Sys.errSq
    rw [hf.n, hf.P, hf.dq, List.filter_congr fun r hr => hact r (List.mem_range.1 hr)]
  have hquot : ∀ v : ℕ → Cell K, (S.limiting o a v).map (fun r => S'.resid a'.x a'.q r / v r) =
      (S.limiting o a v).map (fun r => S.resid a.x a.q r / v r) := by
    intro v
    apply List.map_congr_left
    intro r hr
    rw [hres r (List.mem_range.1 (List.mem_filter.1 hr).1)]
  unfold Sys.step
  simp only [hd, hlim, hrate, herr, he, hquot, hf.P, hf.dq, hf.n, hacts]
  cases S.direction o a with
  | none =>
    left
    simp only
    split_ifs
    · exact ⟨_, rfl, rfl⟩
    · exact ⟨_, rfl, rfl⟩
  | some dx =>
    simp only
    split_ifs with h1 h2
    · exact Or.inl ⟨_, rfl, rfl⟩
    · exact Or.inl ⟨_, rfl, rfl⟩
    · cases minCells ((S.limiting o a (S.rate dx)).map (fun r => S.resid a.x a.q r / S.rate dx r)) with
      | none => exact Or.inl ⟨_, rfl, rfl⟩
      | some t =>
        right
        refine ⟨_, _, rfl, rfl, ⟨fun r => ?_, ?_⟩, fun r hr => hact r hr, rfl⟩
        · simp only [hs.x]; ring
        · simp only [hs.Z]

/-- The loops from states that correspond. -/
theorem From.loop (hf : From S S' M rigid a0) (h : Sound S M rigid) (ht : o'.tol = o.tol) (hl : o'.lin = o.lin) (hp : o'.perm = o.perm)
    (he : o'.errtol = o.errtol) (hperm : ∀ r ∈ o.perm, r < S.n) (hZ : 0 < S.Z0) (hZ' : 0 < a0.Z)
    (hpk : (o.packing = .pinf ∧ o'.packing = .pinf) ∨ ∃ p, o.packing = .fin p ∧ o'.packing = .fin (p * (a0.Z / S.Z0)))
    (n : ℕ) : ∀ {a a' : Rec K}, StepInv S rigid a → StepInv S' rigid a' → Shift a0 a a' → 0 < a.Z → a.rlambda = .fin (S.Z0 / a.Z) →
      a'.rlambda = .fin (a0.Z / a'.Z) → (∀ b ∈ (S.loop o n a).1, 0 < b.Z) →
      (S'.loop o' n a').2 = (S.loop o n a).2 ∧ List.Forall₂ (fun b b' => Shift a0 b b' ∧ (∀ r, r < S.n → b'.mask r = b.mask r) ∧ b'.errSq = b.errSq)
        (S.loop o n a).1 (S'.loop o' n a').1 := by
  induction n with
  | zero => intro a a' _ _ _ _ _ _ _; exact ⟨rfl, List.Forall₂.nil⟩
  | succ n ih =>
    intro a a' hi hi' hs hpos hr hr' hall
    have hlt : Cell.lt a'.rlambda o'.packing = Cell.lt a.rlambda o.packing := by
      rw [hr, hr', hs.Z]
      rcases hpk with ⟨h1, h2⟩ | ⟨p, h1, h2⟩
      · rw [h1, h2]; rfl
      · rw [h1, h2, Bool.eq_iff_iff, Cell.lt_fin_iff, Cell.lt_fin_iff]
        rw [div_lt_iff₀ hpos, div_lt_iff₀ hpos]
        obtain ⟨q, hq⟩ : ∃ q, q = a0.Z / S.Z0 := ⟨_, rfl⟩
        have hq0 : 0 < q := by rw [hq]; exact div_pos hZ' hZ
        have e' : a0.Z = S.Z0 * q := by rw [hq]; field_simp
        rw [← hq, e', show p * q * a.Z = (p * a.Z) * q by ring]
        exact mul_lt_mul_iff_left₀ hq0
    rw [Sys.loop] at hall
    rw [Sys.loop, Sys.loop, hlt]
    by_cases h1 : Cell.lt a.rlambda o.packing = true
    · rw [if_pos h1] at hall
      rw [if_pos h1, if_pos h1]
      rcases hf.step h hi hi' hs ht hl hp he hperm with ⟨e, e1, e2⟩ | ⟨b, b', e1, e2, hsb, hmask, herr⟩
      · rw [e1, e2]
        exact ⟨rfl, List.Forall₂.nil⟩
      · rw [e1] at hall ⊢
        rw [e2]
        simp only at hall ⊢
        obtain ⟨dx, t, s, hst⟩ := h.step hi e1
        obtain ⟨dx', t', s', hst'⟩ := (hf.sound h).step hi' e2
        have hb : 0 < b.Z := hall b (by simp)
        have hb' : b'.Z ≠ 0 := by rw [hsb.Z]; exact hb.ne'
        obtain ⟨g1, g2⟩ := ih hst.inv hst'.inv hsb hb (by rw [hst.lam, Cell.fin_div_fin hb.ne'])
          (by rw [hst'.lam, Cell.fin_div_fin hb', hf.Z0]) (fun c hc => hall c (by simp [hc]))
        exact ⟨g1, List.Forall₂.cons ⟨hsb, hmask, herr⟩ g2⟩
    · rw [if_neg h1, if_neg h1]
      exact ⟨rfl, List.Forall₂.nil⟩

/-- The loop seen from one of its records. -/
theorem loop_drop {k : ℕ} {n : ℕ} {a b : Rec K} (hb : (S.loop o n a).1[k]? = some b) :
    k < n ∧ (S.loop o n a).1.drop (k + 1) = (S.loop o (n - (k + 1)) b).1 ∧ (S.loop o n a).2 = (S.loop o (n - (k + 1)) b).2 := by
  induction k generalizing n a with
  | zero =>
    cases n with
    | zero => simp [Sys.loop] at hb
    | succ n =>
      rw [Sys.loop] at hb ⊢
      by_cases h1 : Cell.lt a.rlambda o.packing = true
      · rw [if_pos h1] at hb ⊢
        cases hs : S.step o a with
        | error e => rw [hs] at hb; simp at hb
        | ok c =>
          rw [hs] at hb
          simp only [List.getElem?_cons_zero, Option.some.injEq] at hb
          subst hb
          simp
      · rw [if_neg h1] at hb; simp at hb
  | succ k ih =>
    cases n with
    | zero => simp [Sys.loop] at hb
    | succ n =>
      rw [Sys.loop] at hb ⊢
      by_cases h1 : Cell.lt a.rlambda o.packing = true
      · rw [if_pos h1] at hb ⊢
        cases hs : S.step o a with
        | error e => rw [hs] at hb; simp at hb
        | ok c =>
          rw [hs] at hb
          simp only [List.getElem?_cons_succ] at hb
          obtain ⟨g0, g1, g2⟩ := ih hb
          refine ⟨by omega, ?_, ?_⟩
          · simpa using g1
          · simpa using g2
      · rw [if_neg h1] at hb; simp at hb

/-- The run seen from one of its records. -/
theorem run_drop {k : ℕ} {b : Rec K} (hb : (S.run o).1[k]? = some b) :
    k ≤ o.itermax ∧ (S.run o).1.drop (k + 1) = (S.loop o (o.itermax - k) b).1 ∧ (S.run o).2 = (S.loop o (o.itermax - k) b).2 := by
  cases k with
  | zero =>
    simp only [Sys.run, List.getElem?_cons_zero, Option.some.injEq] at hb
    subst hb
    simp [Sys.run]
  | succ k =>
    simp only [Sys.run, List.getElem?_cons_succ] at hb
    obtain ⟨g0, g1, g2⟩ := loop_drop hb
    refine ⟨g0, ?_, ?_⟩
    · simpa [Sys.run] using g1
    · simpa [Sys.run] using g2

end Fibermat
