import Verif.Model.Chain
import Verif.Props.SolverExamples

/-! # Longer runs extend shorter ones (C105) -/

set_option linter.unusedSectionVars false
set_option linter.unusedSimpArgs false

namespace Fibermat
variable {K : Type} [Field K] [LinearOrder K] [IsStrictOrderedRing K]

/-- A record below a target is below a larger one. -/
theorem lt_target {a p p' : Cell K} (h : Cell.le p p' = true) (ha : Cell.lt a p = true) : Cell.lt a p' = true := by
  cases a <;> cases p <;> cases p' <;> simp [Cell.lt, Cell.le] at h ha ⊢
  exact lt_of_lt_of_le ha h

/-- An error refused with a larger tolerance is refused with a smaller one. -/
theorem errGt_mono {e e' : K} (h : e ≤ e') {s : Cell K} (hs : errGt e' s = true) : errGt e s = true := by
  cases s with
  | nan => exact hs
  | pinf => rfl
  | ninf => rfl
  | fin s =>
    simp only [errGt, Bool.or_eq_true, decide_eq_true_eq] at hs ⊢
    by_cases h0 : e < 0
    · exact Or.inl h0
    · right
      push Not at h0
      rcases hs with hs | hs
      · linarith
      · exact lt_of_le_of_lt (pow_le_pow_left₀ h0 h 2) hs

/-- Steps made with stricter options are made with looser ones. -/
theorem step_extend {S : Sys K} {o o' : Opts K} (ht : o'.tol = o.tol) (hl : o'.lin = o.lin) (hp : o'.perm = o.perm)
    (he : o.errtol ≤ o'.errtol) {a b : Rec K} (h : S.step o a = .ok b) : S.step o' a = .ok b := by
  have ha : S.actives o' a = S.actives o a := by simp only [Sys.actives, hp, ht]
  have hd : S.direction o' a = S.direction o a := by simp only [Sys.direction, ha, hl]
  have hlim : ∀ v, S.limiting o' a v = S.limiting o a v := by intro v; simp only [Sys.limiting, ht]
  unfold Sys.step at h ⊢
  simp only [hd, hlim, ht, ha] at h ⊢
  cases hdx : S.direction o a with
  | none =>
    simp only [hdx] at h
    split at h <;> cases h
  | some dx =>
    simp only [hdx] at h ⊢
    by_cases h1 : S.limiting o a (S.rate dx) = []
    · rw [if_pos h1] at h; cases h
    · rw [if_neg h1] at h ⊢
      by_cases h2 : errGt o.errtol (S.errSq (S.active o.tol a.x a.q) dx) = true
      · rw [if_pos h2] at h; cases h
      · have h3 : ¬ errGt o'.errtol (S.errSq (S.active o.tol a.x a.q) dx) = true := fun h3 => h2 (errGt_mono he h3)
        rw [if_neg h2] at h
        rw [if_neg h3]
        exact h

/-- Runs with stricter options are the beginning of runs with looser ones. -/
theorem loop_extend {S : Sys K} {o o' : Opts K} (ht : o'.tol = o.tol) (hl : o'.lin = o.lin) (hp : o'.perm = o.perm)
    (he : o.errtol ≤ o'.errtol) (hk : Cell.le o.packing o'.packing = true) {n n' : ℕ} (hn : n ≤ n') (a : Rec K) :
    (S.loop o n a).1 <+: (S.loop o' n' a).1 := by
  induction n generalizing n' a with
  | zero => simp [Sys.loop]
  | succ n ih =>
    obtain ⟨m, rfl⟩ : ∃ m, n' = m + 1 := ⟨n' - 1, by omega⟩
    rw [Sys.loop]
    by_cases h1 : Cell.lt a.rlambda o.packing = true
    · rw [if_pos h1]
      cases hs : S.step o a with
      | error e => simp
      | ok b =>
        have hs' := step_extend ht hl hp he hs
        rw [Sys.loop, if_pos (lt_target hk h1), hs']
        simp only [List.cons_prefix_cons, true_and]
        exact ih (by omega) b
    · rw [if_neg h1]
      simp

/-- Options looser than others: more iterations, a higher target, a larger error tolerance. -/
structure Looser (o o' : Opts K) : Prop where
  tol : o'.tol = o.tol
  lin : o'.lin = o.lin
  errtol : o.errtol ≤ o'.errtol
  packing : Cell.le o.packing o'.packing = true
  itermax : o.itermax ≤ o'.itermax

/-- C105: a run with looser options begins with the run with stricter ones. -/
theorem C105_prefix {mat : Mat K} {mesh : Mesh K} {lmin lmax : Option K} {coupling : K} {o o' : Opts K} (ho : Looser o o')
    {perm : Option (List ℕ)} {S : Sys K} {recs : List (Rec K)} {stop : Stop}
    (h : solve mat mesh lmin lmax coupling o perm = .ok (S, recs, stop)) :
    ∃ recs' stop', solve mat mesh lmin lmax coupling o' perm = .ok (S, recs', stop') ∧ recs <+: recs' := by
  unfold solve at h ⊢
  cases h1 : stiffness mat mesh lmin lmax coupling with
  | error e => rw [h1] at h; cases h
  | ok Km =>
    cases h2 : constraint mat mesh with
    | error e => rw [h1, h2] at h; cases h
    | ok cs =>
      rw [h1, h2] at h
      simp only [Bind.bind, Except.bind, pure, Except.pure, Except.ok.injEq, Prod.mk.injEq] at h ⊢
      obtain ⟨rfl, h⟩ := h
      refine ⟨_, _, ⟨rfl, rfl⟩, ?_⟩
      obtain rfl : _ = recs := congrArg Prod.fst h
      simp only [Sys.run]
      have hi : ∀ p p', (assemble Km cs).init { o' with perm := p } = (assemble Km cs).init { o with perm := p' } := by
        intro p p'
        simp only [Sys.init, ho.tol]
      rw [hi _ (perm.getD (List.range (assemble Km cs).n))]
      simp only [List.cons_prefix_cons, true_and]
      exact loop_extend (o := { o with perm := perm.getD (List.range (assemble Km cs).n) })
        (o' := { o' with perm := perm.getD (List.range (assemble Km cs).n) }) ho.tol ho.lin rfl ho.errtol ho.packing ho.itermax _

/-- With the same error tolerance the steps are the same. -/
theorem step_same {S : Sys K} {o o' : Opts K} (ht : o'.tol = o.tol) (hl : o'.lin = o.lin) (hp : o'.perm = o.perm)
    (he : o'.errtol = o.errtol) (a : Rec K) : S.step o' a = S.step o a := by
  have ha : S.actives o' a = S.actives o a := by simp only [Sys.actives, hp, ht]
  have hd : S.direction o' a = S.direction o a := by simp only [Sys.direction, ha, hl]
  have hlim : ∀ v, S.limiting o' a v = S.limiting o a v := by intro v; simp only [Sys.limiting, ht]
  unfold Sys.step
  simp only [hd, hlim, ht, ha, he]

/-- The records of the shorter run: those of the longer one up to the first that reaches the target, or the number of iterations. -/
theorem loop_cut {S : Sys K} {o o' : Opts K} (ht : o'.tol = o.tol) (hl : o'.lin = o.lin) (hp : o'.perm = o.perm)
    (he : o'.errtol = o.errtol) (hk : Cell.le o.packing o'.packing = true) {n n' : ℕ} (hn : n ≤ n') (a : Rec K) (k : ℕ) (b : Rec K) :
    (S.loop o n a).1[k]? = some b ↔ (S.loop o' n' a).1[k]? = some b ∧ k < n ∧
      ∀ j, j ≤ k → ∀ c, (a :: (S.loop o' n' a).1)[j]? = some c → Cell.lt c.rlambda o.packing = true := by
  induction n generalizing n' a k with
  | zero => simp [Sys.loop]
  | succ n ih =>
    obtain ⟨m, rfl⟩ : ∃ m, n' = m + 1 := ⟨n' - 1, by omega⟩
    rw [Sys.loop]
    by_cases h1 : Cell.lt a.rlambda o.packing = true
    · rw [if_pos h1, Sys.loop, if_pos (lt_target hk h1), step_same ht hl hp he]
      cases hs : S.step o a with
      | error e => simp
      | ok d =>
        simp only
        cases k with
        | zero =>
          simp only [List.getElem?_cons_zero, Nat.le_zero_eq, forall_eq, Option.some.injEq]
          constructor
          · intro h; exact ⟨h, by omega, fun c hc => hc ▸ h1⟩
          · exact fun h => h.1
        | succ k =>
          rw [List.getElem?_cons_succ, List.getElem?_cons_succ, ih (by omega : n ≤ m) d k]
          constructor
          · rintro ⟨g1, g2, g3⟩
            refine ⟨g1, by omega, ?_⟩
            intro j hj c hc
            cases j with
            | zero => simp only [List.getElem?_cons_zero, Option.some.injEq] at hc; exact hc ▸ h1
            | succ j => exact g3 j (by omega) c (by simpa using hc)
          · rintro ⟨g1, g2, g3⟩
            exact ⟨g1, by omega, fun j hj c hc => g3 (j + 1) (by omega) c (by simpa using hc)⟩
    · rw [if_neg h1]
      simp only [List.getElem?_nil, reduceCtorEq, false_iff]
      rintro ⟨-, -, g⟩
      exact h1 (g 0 (by omega) a rfl)

/-- C105: with the same error tolerance, the shorter run is the longer one up to the first record that reaches the target, or up to the
number of iterations. -/
theorem C105_cut {mat : Mat K} {mesh : Mesh K} {lmin lmax : Option K} {coupling : K} {o o' : Opts K} (ho : Looser o o')
    (he : o'.errtol = o.errtol) {perm : Option (List ℕ)} {S S' : Sys K} {recs recs' : List (Rec K)} {stop stop' : Stop}
    (h : solve mat mesh lmin lmax coupling o perm = .ok (S, recs, stop))
    (h' : solve mat mesh lmin lmax coupling o' perm = .ok (S', recs', stop')) (k : ℕ) (b : Rec K) :
    recs[k]? = some b ↔ recs'[k]? = some b ∧ k ≤ o.itermax ∧
      ∀ j, j < k → ∀ c, recs'[j]? = some c → Cell.lt c.rlambda o.packing = true := by
  unfold solve at h h'
  cases h1 : stiffness mat mesh lmin lmax coupling with
  | error e => rw [h1] at h; cases h
  | ok Km =>
    cases h2 : constraint mat mesh with
    | error e => rw [h1, h2] at h; cases h
    | ok cs =>
      rw [h1, h2] at h h'
      simp only [Bind.bind, Except.bind, pure, Except.pure, Except.ok.injEq, Prod.mk.injEq] at h h'
      obtain ⟨rfl, h⟩ := h
      obtain ⟨rfl, h'⟩ := h'
      obtain rfl : _ = recs := congrArg Prod.fst h
      obtain rfl : _ = recs' := congrArg Prod.fst h'
      simp only [Sys.run]
      have hi : ∀ p p', (assemble Km cs).init { o' with perm := p } = (assemble Km cs).init { o with perm := p' } := by
        intro p p'
        simp only [Sys.init, ho.tol]
      rw [hi _ (perm.getD (List.range (assemble Km cs).n))]
      cases k with
      | zero => simp
      | succ k =>
        rw [List.getElem?_cons_succ, List.getElem?_cons_succ,
          loop_cut (o := { o with perm := perm.getD (List.range (assemble Km cs).n) })
            (o' := { o' with perm := perm.getD (List.range (assemble Km cs).n) }) ho.tol ho.lin rfl he ho.packing ho.itermax]
        constructor
        · rintro ⟨g1, g2, g3⟩
          exact ⟨g1, g2, fun j hj c hc => g3 j (by omega) c hc⟩
        · rintro ⟨g1, g2, g3⟩
          exact ⟨g1, g2, fun j hj c hc => g3 j (by omega) c hc⟩

/-- C105: on the whole chain, a run to a higher target begins with the run to a lower one. -/
theorem C105_chain {lp : Linprog K} {periodic : Bool} {threshold lmin lmax : Option K} {coupling : K} {o o' : Opts K} (ho : Looser o o')
    {perm : Option (List ℕ)} {m : Mat K} {S : Sys K} {recs : List (Rec K)} {stop : Stop}
    (h : chain lp periodic threshold lmin lmax coupling o perm m = .ok (S, recs, stop)) :
    ∃ recs' stop', chain lp periodic threshold lmin lmax coupling o' perm m = .ok (S, recs', stop') ∧ recs <+: recs' := by
  unfold chain at h ⊢
  simp only [Bind.bind, Except.bind] at h ⊢
  cases h1 : netNew m periodic with
  | error e => rw [h1] at h; cases h
  | ok net =>
    rw [h1] at h
    simp only at h ⊢
    cases h2 : stackNew lp m net threshold with
    | error e => rw [h2] at h; cases h
    | ok r =>
      rw [h2] at h
      simp only at h ⊢
      cases h3 : meshNew r.2 with
      | error e => rw [h3] at h; cases h
      | ok mesh =>
        rw [h3] at h
        simp only at h ⊢
        exact C105_prefix ho h

/-- Whether the solver raises does not depend on the options. -/
theorem C105_options {mat : Mat K} {mesh : Mesh K} {lmin lmax : Option K} {coupling : K} {o : Opts K}
    {perm : Option (List ℕ)} {S : Sys K} {recs : List (Rec K)} {stop : Stop}
    (h : solve mat mesh lmin lmax coupling o perm = .ok (S, recs, stop)) (o' : Opts K) (perm' : Option (List ℕ)) :
    ∃ recs' stop', solve mat mesh lmin lmax coupling o' perm' = .ok (S, recs', stop') := by
  unfold solve at h ⊢
  cases h1 : stiffness mat mesh lmin lmax coupling with
  | error e => rw [h1] at h; cases h
  | ok Km =>
    cases h2 : constraint mat mesh with
    | error e => rw [h1, h2] at h; cases h
    | ok cs =>
      rw [h1, h2] at h
      simp only [Bind.bind, Except.bind, pure, Except.pure, Except.ok.injEq, Prod.mk.injEq] at h ⊢
      exact ⟨_, _, h.1, rfl⟩

/-- The arch pressed to a packing of 1.05 instead of as far as possible: the first two records. -/
example : ∃ S recs stop, solve duoMat archMesh none none (1 / 2) { archOpts with packing := .fin (21 / 20) } none = .ok (S, recs, stop) ∧
    recs.map (fun a => a.Z) = [11 / 4, 5 / 2] := by
  obtain ⟨S, recs', h', -, h2, -⟩ := arch_run
  obtain ⟨recs, stop, h⟩ := C105_options h' { archOpts with packing := .fin (21 / 20) } none
  have ho : Looser { archOpts with packing := .fin (21 / 20) } archOpts := ⟨rfl, rfl, le_rfl, rfl, le_rfl⟩
  have hcut := C105_cut ho rfl h h'
  have hl : recs'.length = 3 := by simpa using congrArg List.length h2
  obtain ⟨a, b, c, rfl⟩ : ∃ a b c, recs' = [a, b, c] := by
    match recs', hl with
    | [a, b, c], _ => exact ⟨a, b, c, rfl⟩
  simp only [List.map_cons, List.map_nil, List.cons.injEq, Prod.mk.injEq, and_true] at h2
  obtain ⟨⟨a1, a2, -⟩, ⟨b1, b2, -⟩, -⟩ := h2
  have h0 : recs[0]? = some a := (hcut 0 a).2 ⟨rfl, by omega, by omega⟩
  have h1 : recs[1]? = some b := (hcut 1 b).2 ⟨rfl, by simp [archOpts], fun j hj d hd => by
    obtain rfl : j = 0 := by omega
    simp only [List.getElem?_cons_zero, Option.some.injEq] at hd
    rw [← hd, a2]
    simp only [Cell.lt, decide_eq_true_eq]
    norm_num⟩
  have h3 : recs[2]? = none := by
    cases e : recs[2]? with
    | none => rfl
    | some d =>
      have := ((hcut 2 d).1 e).2.2 1 (by omega) b rfl
      rw [b2] at this
      simp only [Cell.lt, decide_eq_true_eq] at this
      norm_num at this
  refine ⟨S, recs, stop, h, ?_⟩
  have hlen : recs.length = 2 := by
    have g1 : 1 < recs.length := (List.getElem?_eq_some_iff.1 h1).1
    have g2 : recs.length ≤ 2 := List.getElem?_eq_none_iff.1 h3
    omega
  match recs, hlen, h0, h1 with
  | [x, y], _, h0, h1 =>
    simp only [List.getElem?_cons_zero, List.getElem?_cons_succ, Option.some.injEq] at h0 h1
    rw [h0, h1, List.map_cons, List.map_cons, List.map_nil, a1, b1]

end Fibermat
