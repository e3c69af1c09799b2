import Verif.Lemmas.ScaleSolver
import Mathlib.Data.List.Perm.Subperm

/-! The solver with its unknowns renumbered and some of them counted with the other sign. -/

set_option linter.unusedSectionVars false

namespace Fibermat
variable {K : Type} [Field K] [LinearOrder K] [IsStrictOrderedRing K]
open Spec

/-- A number counted with the other sign. -/
def sg (b : Bool) (y : K) : K := if b then -y else y

/-- A cell counted with the other sign. -/
def Cell.flip (b : Bool) (x : Cell K) : Cell K := if b then -x else x

theorem sg_sg (b : Bool) (y : K) : sg b (sg b y) = y := by cases b <;> simp [sg]

theorem sg_zero (b : Bool) : sg b (0 : K) = 0 := by cases b <;> simp [sg]

namespace Cell

theorem flip_fin (b : Bool) (y : K) : flip b (fin y) = fin (sg b y) := by cases b <;> rfl

theorem flip_zero (b : Bool) : flip b (fin 0 : Cell K) = fin 0 := by rw [flip_fin, sg_zero]

theorem flip_nan (b : Bool) : flip b (nan : Cell K) = nan := by cases b <;> rfl

theorem neg_add (x y : Cell K) : -(x + y) = -x + -y := by
  cases x <;> cases y <;> first | rfl | (simp only [fin_add_fin, neg_fin]; congr 1; ring)

theorem neg_neg' (x : Cell K) : - -x = x := by
  cases x <;> first | rfl | (simp only [neg_fin]; congr 1; ring)

theorem flip_flip (b : Bool) (x : Cell K) : flip b (flip b x) = x := by
  cases b
  · rfl
  · exact neg_neg' x

theorem flip_add (b : Bool) (x y : Cell K) : flip b (x + y) = flip b x + flip b y := by
  cases b
  · rfl
  · exact neg_add x y

theorem flip_sub (b : Bool) (x y : Cell K) : flip b (x - y) = flip b x - flip b y := by
  cases b
  · rfl
  · exact neg_add x (-y)

theorem flip_sum (b : Bool) (l : List (Cell K)) : (l.map (flip b)).sum = flip b l.sum := by
  induction l with
  | nil => exact (flip_zero b).symm
  | cons a t ih => simp only [List.map_cons, List.sum_cons, ih, flip_add]

theorem neg_mul_fin (x : Cell K) (y : K) : -x * fin y = -(x * fin y) := by
  cases x with
  | fin a => simp only [neg_fin, fin_mul_fin]; congr 1; ring
  | nan => rfl
  | pinf =>
    show (if y = 0 then _ else if 0 < y then _ else _) = -(if y = 0 then _ else if 0 < y then _ else _)
    split_ifs <;> rfl
  | ninf =>
    show (if y = 0 then _ else if 0 < y then _ else _) = -(if y = 0 then _ else if 0 < y then _ else _)
    split_ifs <;> rfl

theorem mul_neg_fin (x : Cell K) (y : K) : x * fin (-y) = -(x * fin y) := by
  cases x with
  | fin a => simp only [neg_fin, fin_mul_fin]; congr 1; ring
  | nan => rfl
  | pinf =>
    show (if -y = 0 then _ else if 0 < -y then _ else _) = -(if y = 0 then _ else if 0 < y then _ else _)
    rcases lt_trichotomy y 0 with h | h | h
    · rw [if_neg (by simpa using h.ne), if_pos (by linarith), if_neg h.ne, if_neg (by linarith)]; rfl
    · rw [if_pos (by simpa using h), if_pos h]; rfl
    · rw [if_neg (by simpa using h.ne'), if_neg (by linarith), if_neg h.ne', if_pos h]; rfl
  | ninf =>
    show (if -y = 0 then _ else if 0 < -y then _ else _) = -(if y = 0 then _ else if 0 < y then _ else _)
    rcases lt_trichotomy y 0 with h | h | h
    · rw [if_neg (by simpa using h.ne), if_pos (by linarith), if_neg h.ne, if_neg (by linarith)]; rfl
    · rw [if_pos (by simpa using h), if_pos h]; rfl
    · rw [if_neg (by simpa using h.ne'), if_neg (by linarith), if_neg h.ne', if_pos h]; rfl

theorem flip_mul (a b : Bool) (x : Cell K) (y : K) : flip (a != b) x * fin (sg b y) = flip a (x * fin y) := by
  cases a <;> cases b
  · rfl
  · show -x * fin (-y) = x * fin y
    rw [neg_mul_fin, mul_neg_fin, neg_neg']
  · exact neg_mul_fin x y
  · exact mul_neg_fin x y

theorem abs_flip (b : Bool) (x : Cell K) : Cell.abs (flip b x) = Cell.abs x := by
  cases b
  · rfl
  · cases x <;> first | rfl | (show Cell.abs (fin _) = Cell.abs (fin _); simp [Cell.abs])

end Cell

/-- The same system with its unknowns renumbered by `π`, those of `ε` counted with the other sign. -/
structure Renamed (S S' : Sys K) (π : ℕ → ℕ) (ε : ℕ → Bool) : Prop where
  nK : S'.nK = S.nK
  nC : S'.nC = S.nC
  lt : ∀ r, r < S.n → π r < S.n
  inj : ∀ r s, r < S.n → s < S.n → π r = π s → r = s
  bare : ∀ r, S.nK ≤ r → r < S.n → ε r = false
  P : ∀ r c, r < S.n → c < S.n → S'.P (π r) (π c) = Cell.flip (ε r != ε c) (S.P r c)
  q0 : ∀ r, r < S.n → S'.q0 (π r) = S.q0 r
  dq : ∀ r, r < S.n → S'.dq (π r) = S.dq r
  Z0 : S'.Z0 = S.Z0

/-- The same record with its unknowns renumbered. -/
structure RenamedRec (n : ℕ) (π : ℕ → ℕ) (ε : ℕ → Bool) (a a' : Rec K) : Prop where
  x : ∀ c, c < n → a'.x (π c) = sg (ε c) (a.x c)
  q : ∀ r, r < n → a'.q (π r) = a.q r
  Z : a'.Z = a.Z
  lam : a'.rlambda = a.rlambda
  mask : ∀ r, r < n → a'.mask (π r) = a.mask r
  err : a'.errSq = a.errSq

variable {S S' : Sys K} {π : ℕ → ℕ} {ε : ℕ → Bool} {M M' : ℕ → ℕ → K} {rigid rigid' : ℕ → Prop} {o o' : Opts K} {a a' : Rec K}

theorem Renamed.n (h : Renamed S S' π ε) : S'.n = S.n := by unfold Sys.n; rw [h.nK, h.nC]

theorem Renamed.perm (h : Renamed S S' π ε) : ((List.range S.n).map π).Perm (List.range S.n) := by
  refine (List.subperm_of_subset ?_ ?_).perm_of_length_le (by simp)
  · refine List.Nodup.map_on ?_ List.nodup_range
    intro r hr s hs
    exact h.inj r s (List.mem_range.1 hr) (List.mem_range.1 hs)
  · intro r hr
    obtain ⟨s, hs, rfl⟩ := List.mem_map.1 hr
    exact List.mem_range.2 (h.lt s (List.mem_range.1 hs))

theorem Renamed.surj (h : Renamed S S' π ε) {r : ℕ} (hr : r < S.n) : ∃ s, s < S.n ∧ π s = r := by
  have : r ∈ (List.range S.n).map π := h.perm.mem_iff.2 (List.mem_range.2 hr)
  obtain ⟨s, hs, e⟩ := List.mem_map.1 this
  exact ⟨s, List.mem_range.1 hs, e⟩

theorem Renamed.sum (h : Renamed S S' π ε) (g' g : ℕ → Cell K) (hg : ∀ c, c < S.n → g' (π c) = g c) :
    ((List.range S.n).map g').sum = ((List.range S.n).map g).sum := by
  rw [← (h.perm.map g').sum_eq, List.map_map]
  congr 1
  refine List.map_congr_left ?_
  intro c hc
  exact hg c (List.mem_range.1 hc)

theorem Renamed.mulVec (h : Renamed S S' π ε) {x x' : ℕ → K} (hx : ∀ c, c < S.n → x' (π c) = sg (ε c) (x c)) {r : ℕ} (hr : r < S.n) :
    S'.mulVec x' (π r) = Cell.flip (ε r) (S.mulVec x r) := by
  unfold Sys.mulVec cellSum
  rw [h.n, ← Cell.flip_sum, List.map_map]
  refine h.sum _ _ ?_
  intro c hc
  simp only [Function.comp]
  rw [h.P r c hr hc, hx c hc, Cell.flip_mul]

theorem Renamed.colSum (h : Renamed S S' π ε) {c : ℕ} (hc : c < S.n) : S'.colSum (π c) = S.colSum c := by
  unfold Sys.colSum cellSum
  rw [h.n]
  refine h.sum _ _ ?_
  intro r hr
  rw [h.P r c hr hc, Cell.abs_flip]

theorem Renamed.resid_of (h : Renamed S S' π ε) {x' : ℕ → K} {q' : ℕ → Cell K} (hx : ∀ c, c < S.n → x' (π c) = sg (ε c) (a.x c))
    (hq : ∀ r, r < S.n → q' (π r) = a.q r) (hs : Sound S M rigid) (hi : StepInv S rigid a)
    (hb : Balanced S a) {r : ℕ} (hrn : r < S.n) : S'.resid x' q' (π r) = S.resid a.x a.q r := by
  have e : Cell.flip (ε r) (a.q r) = a.q r := by
    by_cases hk : r < S.nK
    · obtain ⟨h1, h2⟩ := hs.force r hk
      rw [hi.bounds, h1, h2, Cell.fin_add_fin]
      simp only [zero_mul, add_zero, Cell.flip_zero]
    · rw [h.bare r (by omega) hrn]; rfl
  have e1 : S'.resid x' q' (π r) = Cell.flip (ε r) (S.resid a.x a.q r) := by
    unfold Sys.resid
    rw [h.mulVec hx hrn, hq r hrn, Cell.flip_sub, e]
  rw [e1]
  by_cases hk : r < S.nK
  · rcases hb r hk with e | e
    · rw [e, Cell.flip_nan]
    · rw [e, Cell.flip_zero]
  · rw [h.bare r (by omega) hrn]; rfl

theorem Renamed.resid (h : Renamed S S' π ε) (hr : RenamedRec S.n π ε a a') (hs : Sound S M rigid) (hi : StepInv S rigid a)
    (hb : Balanced S a) {r : ℕ} (hrn : r < S.n) : S'.resid a'.x a'.q (π r) = S.resid a.x a.q r :=
  h.resid_of hr.x hr.q hs hi hb hrn

theorem Renamed.active (h : Renamed S S' π ε) (hr : RenamedRec S.n π ε a a') (hs : Sound S M rigid) (hi : StepInv S rigid a)
    (hb : Balanced S a) (tol : K) {r : ℕ} (hrn : r < S.n) : S'.active tol a'.x a'.q (π r) = S.active tol a.x a.q r := by
  unfold Sys.active
  rw [h.resid hr hs hi hb hrn, h.colSum hrn]

/-- A vector of the renumbered system, in the first numbering. -/
def back (n : ℕ) (π : ℕ → ℕ) (ε : ℕ → Bool) (y : ℕ → K) (c : ℕ) : K := if c < n then sg (ε c) (y (π c)) else 0

theorem back_eq (y : ℕ → K) {n : ℕ} {c : ℕ} (hc : c < n) : y (π c) = sg (ε c) (back n π ε y c) := by
  rw [back, if_pos hc, sg_sg]

theorem back_zero (h : Renamed S S' π ε) (hr : RenamedRec S.n π ε a a') (hs : Sound S M rigid) (hi : StepInv S rigid a)
    (hb : Balanced S a) {tol : K} {y : ℕ → K} (h1 : ∀ r, S'.active tol a'.x a'.q r = false → y r = 0) (r : ℕ)
    (hra : S.active tol a.x a.q r = false) : back S.n π ε y r = 0 := by
  rw [back]
  split_ifs with hrn
  · rw [h1 (π r) (by rw [h.active hr hs hi hb tol hrn]; exact hra), sg_zero]
  · rfl

theorem Renamed.regular (h : Renamed S S' π ε) (hr : RenamedRec S.n π ε a a') (hs : Sound S M rigid) (hi : StepInv S rigid a)
    (hb : Balanced S a) {tol : K} (hreg : RegularAt S tol a) : RegularAt S' tol a' := by
  intro y h1 h2 r hrn
  rw [h.n] at hrn
  obtain ⟨s, hsn, rfl⟩ := h.surj hrn
  have := hreg (back S.n π ε y) (back_zero h hr hs hi hb h1) (fun r hrn hact => by
    have := h2 (π r) (by rw [h.n]; exact h.lt r hrn) (by rw [h.active hr hs hi hb tol hrn]; exact hact)
    rw [h.mulVec (x := back S.n π ε y) (fun c hc => back_eq y hc) hrn] at this
    rw [← Cell.flip_flip (ε r) (S.mulVec _ r), this, Cell.flip_zero]) s hsn
  rw [back_eq (ε := ε) y hsn, this, sg_zero]

theorem flip_dq (h : Renamed S S' π ε) (hs : Sound S M rigid) {r : ℕ} (hrn : r < S.n) : sg (ε r) (S.dq r) = S.dq r := by
  by_cases hk : r < S.nK
  · rw [(hs.force r hk).2, sg_zero]
  · rw [h.bare r (by omega) hrn]; rfl

theorem Renamed.noDirection (h : Renamed S S' π ε) (hr : RenamedRec S.n π ε a a') (hs : Sound S M rigid) (hi : StepInv S rigid a)
    (hb : Balanced S a) {tol : K} (hno : NoDirection S tol a) : NoDirection S' tol a' := by
  intro y h1 h2
  refine hno (back S.n π ε y) (back_zero h hr hs hi hb h1) (fun r hrn hact => ?_)
  have := h2 (π r) (by rw [h.n]; exact h.lt r hrn) (by rw [h.active hr hs hi hb tol hrn]; exact hact)
  rw [h.mulVec (x := back S.n π ε y) (fun c hc => back_eq y hc) hrn] at this
  rw [← Cell.flip_flip (ε r) (S.mulVec _ r), this, h.dq r hrn, Cell.flip_fin, flip_dq h hs hrn]

/-- The direction of the renumbered system. -/
theorem Renamed.direction (h : Renamed S S' π ε) (hr : RenamedRec S.n π ε a a') (hb : Balanced S a) (hs : Sound S M rigid)
    (hs' : Sound S' M' rigid') (hi : StepInv S rigid a) (hi' : StepInv S' rigid' a') (hp : o.perm.Perm (List.range S.n))
    (hp' : o'.perm.Perm (List.range S.n)) (ht : o'.tol = o.tol) (hlin : GoodLin o.lin) (hlin' : GoodLin o'.lin)
    (hreg : RegularAt S o.tol a) :
    ∃ dx dx', S.direction o a = some dx ∧ S'.direction o' a' = some dx' ∧ ∀ c, c < S.n → dx' (π c) = sg (ε c) (dx c) := by
  have hreg' := h.regular hr hs hi hb hreg
  obtain ⟨dx, hd, -⟩ := hs.direction_perm hi hp hp rfl hlin hlin hreg
  rw [← h.n] at hp'
  rw [← ht] at hreg'
  obtain ⟨dx', hd', -⟩ := hs'.direction_perm hi' hp' hp' rfl hlin' hlin' hreg'
  refine ⟨dx, dx', hd, hd', ?_⟩
  have hz : ∀ r, S'.active o.tol a'.x a'.q r = false → dx' r = 0 := fun r hra => direction_zero hd' (by rw [ht]; exact hra)
  have key := hs.regular hi hreg (fun c => back S.n π ε dx' c - dx c) ?_ ?_
  · intro c hc
    rw [back_eq (ε := ε) dx' hc, sub_eq_zero.1 (key c hc)]
  · intro r hra
    rw [back_zero h hr hs hi hb hz r hra, direction_zero hd hra, sub_zero]
  · intro r hrn hra
    have hg := (hs.active_num hi hrn hra).1
    have e2 := hs.exact hlin.1 hp hi hd r hrn hra
    have hra' : S'.active o'.tol a'.x a'.q (π r) = true := by rw [ht, h.active hr hs hi hb o.tol hrn]; exact hra
    have hrn' : π r < S'.n := by rw [h.n]; exact h.lt r hrn
    have e1 := hs'.exact hlin'.1 hp' hi' hd' (π r) hrn' hra'
    have e3 : apply S M (back S.n π ε dx') r = S.dq r := by
      have m1 := hs'.mulVec (hs'.active_num hi' hrn' hra').1 dx'
      rw [e1, h.mulVec (x := back S.n π ε dx') (fun c hc => back_eq dx' hc) hrn, hs.mulVec hg, Cell.flip_fin, h.dq r hrn] at m1
      have m2 : sg (ε r) (apply S M (back S.n π ε dx') r) = S.dq r := by injection m1
      rw [← sg_sg (ε r) (apply S M _ r), m2, flip_dq h hs hrn]
    have e4 : apply S M (fun c => back S.n π ε dx' c - dx c) r = apply S M (back S.n π ε dx') r - apply S M dx r := by
      unfold apply
      rw [← Finset.sum_sub_distrib]
      exact Finset.sum_congr rfl (fun c _ => by ring)
    rw [e4, e3, e2, sub_self]

theorem minCells_cons (y : K) (l : List (Cell K)) (hl : l ≠ []) : minCells (.fin y :: l) = (minCells l).map (min y) := by
  cases l with
  | nil => exact absurd rfl hl
  | cons b t => rfl

theorem minCells_none {l : List (Cell K)} (h : ∃ x ∈ l, ∀ y, x ≠ .fin y) : minCells l = none := by
  induction l with
  | nil => rfl
  | cons c t ih =>
    obtain ⟨x, hx, hn⟩ := h
    cases c with
    | fin y =>
      rcases List.mem_cons.1 hx with e | e
      · exact absurd e (hn y)
      · rw [minCells_cons y t (by rintro rfl; cases e), ih ⟨x, e, hn⟩]; rfl
    | pinf => cases t <;> rfl
    | ninf => cases t <;> rfl
    | nan => cases t <;> rfl

theorem minCells_perm {l m : List (Cell K)} (h : l.Perm m) : minCells l = minCells m := by
  by_cases hn : ∃ x ∈ l, ∀ y, x ≠ .fin y
  · rw [minCells_none hn, minCells_none]
    obtain ⟨x, hx, e⟩ := hn
    exact ⟨x, h.mem_iff.1 hx, e⟩
  · push Not at hn
    by_cases he : l = []
    · subst he
      rw [List.nil_perm.1 h]
    · obtain ⟨t, ht⟩ := minCells_some he hn
      obtain ⟨t', ht'⟩ := minCells_some (l := m) (by rintro rfl; exact he (List.perm_nil.1 h)) (fun x hx => hn x (h.mem_iff.2 hx))
      obtain ⟨a1, a2⟩ := minCells_spec ht
      obtain ⟨b1, b2⟩ := minCells_spec ht'
      obtain ⟨y, e, hy⟩ := a1 _ (h.mem_iff.2 b2)
      obtain ⟨y', e', hy'⟩ := b1 _ (h.mem_iff.1 a2)
      cases e; cases e'
      rw [ht, ht', le_antisymm hy hy']

/-- A step of the renumbered system. -/
theorem Renamed.step (h : Renamed S S' π ε) (hr : RenamedRec S.n π ε a a') (hb : Balanced S a) (hs : Sound S M rigid)
    (hs' : Sound S' M' rigid') (hi : StepInv S rigid a) (hi' : StepInv S' rigid' a') (htol : 0 ≤ o.tol)
    (hp : o.perm.Perm (List.range S.n)) (hp' : o'.perm.Perm (List.range S.n)) (ht : o'.tol = o.tol)
    (he : o'.errtol = o.errtol) (hlin : GoodLin o.lin) (hlin' : GoodLin o'.lin)
    (hreg : RegularAt S o.tol a ∨ NoDirection S o.tol a) :
    (∃ e, S.step o a = .error e ∧ S'.step o' a' = .error e) ∨
      ∃ b b', S.step o a = .ok b ∧ S'.step o' a' = .ok b' ∧ RenamedRec S.n π ε b b' := by
  have hact : ∀ r, r < S.n → S'.active o.tol a'.x a'.q (π r) = S.active o.tol a.x a.q r :=
    fun r hrn => h.active hr hs hi hb o.tol hrn
  have hp2 := hp'
  rw [← h.n] at hp2
  have hlow : ∀ r, r < S.nK → Cell.lt (.fin o.tol) (S.resid a.x a.q r) = false := by
    intro r hk
    rcases hb r hk with e | e
    · rw [e]; rfl
    · rw [e, ← Bool.not_eq_true, Cell.lt_fin_iff]; exact not_lt.2 htol
  have hlim : ∀ v v' : ℕ → Cell K, (∀ r, S.nK ≤ r → r < S.n → v' (π r) = v r) →
      ((S.limiting o a v).map π).Perm (S'.limiting o' a' v') := by
    intro v v' hv
    unfold Sys.limiting
    rw [h.n, ht]
    refine List.Perm.trans ?_ (h.perm.filter _)
    rw [List.filter_map]
    refine List.Perm.of_eq ?_
    congr 1
    refine List.filter_congr ?_
    intro r hrn
    have hrn := List.mem_range.1 hrn
    simp only [Function.comp]
    rw [h.resid hr hs hi hb hrn]
    by_cases hk : r < S.nK
    · rw [hlow r hk]; rfl
    · rw [hv r (by omega) hrn]
  have hnil : ∀ v v' : ℕ → Cell K, (∀ r, S.nK ≤ r → r < S.n → v' (π r) = v r) →
      (S'.limiting o' a' v' = [] ↔ S.limiting o a v = []) := by
    intro v v' hv
    have := hlim v v' hv
    constructor
    · intro e
      rw [e] at this
      exact List.map_eq_nil_iff.1 (List.perm_nil.1 this)
    · intro e
      rw [e] at this
      exact List.nil_perm.1 this
  rcases hreg with hreg | hno
  · obtain ⟨dx, dx', hd, hd', hdx⟩ := h.direction hr hb hs hs' hi hi' hp hp' ht hlin hlin' hreg
    have e1 := errSq_exact hs hi hp hlin.1 hd
    have e2 := errSq_exact hs' hi' hp2 hlin'.1 hd'
    have hrate : ∀ r, S.nK ≤ r → r < S.n → S'.rate dx' (π r) = S.rate dx r := by
      intro r hk hrn
      unfold Sys.rate
      rw [h.mulVec hdx hrn, h.dq r hrn, h.bare r hk hrn]
      rfl
    have hl := hlim _ _ hrate
    have hmin : minCells ((S'.limiting o' a' (S'.rate dx')).map (fun r => S'.resid a'.x a'.q r / S'.rate dx' r)) =
        minCells ((S.limiting o a (S.rate dx)).map (fun r => S.resid a.x a.q r / S.rate dx r)) := by
      rw [← minCells_perm (hl.map _), List.map_map]
      congr 1
      refine List.map_congr_left ?_
      intro r hrl
      obtain ⟨m1, m2⟩ := List.mem_filter.1 hrl
      have hrn := List.mem_range.1 m1
      have hk : S.nK ≤ r := by
        by_contra hk
        rw [hlow r (by omega)] at m2
        cases m2
      simp only [Function.comp]
      rw [h.resid hr hs hi hb hrn, hrate r hk hrn]
    unfold Sys.step
    rw [hd, hd']
    simp only [he, hnil _ _ hrate, e1, e2, hmin]
    split_ifs with c1 c2
    · exact Or.inl ⟨_, rfl, rfl⟩
    · exact Or.inl ⟨_, rfl, rfl⟩
    · cases minCells ((S.limiting o a (S.rate dx)).map (fun r => S.resid a.x a.q r / S.rate dx r)) with
      | none => exact Or.inl ⟨_, rfl, rfl⟩
      | some t =>
        refine Or.inr ⟨_, _, rfl, rfl, ?_, ?_, ?_, ?_, ?_, rfl⟩
        · intro c hc
          simp only [hr.x c hc, hdx c hc]
          cases ε c
          · rfl
          · simp only [sg, if_true]; ring
        · intro r hrn
          simp only [hr.q r hrn, h.dq r hrn]
        · simp only [hr.Z]
        · simp only [hr.Z, h.Z0]
        · intro r hrn
          simp only [ht]
          exact hact r hrn
  · have hd := noDirection_none hs hi hp hlin.1 hno
    have hno' := h.noDirection hr hs hi hb hno
    rw [← ht] at hno'
    have hd' := noDirection_none hs' hi' hp2 hlin'.1 hno'
    have hm : ∀ c, c < S.n → (π c ∈ S'.actives o' a' ↔ c ∈ S.actives o a) := by
      intro c hc
      rw [mem_actives hp, mem_actives hp2, ht, hact c hc, h.n]
      exact and_congr_left (fun _ => ⟨fun _ => hc, fun _ => h.lt c hc⟩)
    have hP : ∀ r c, r < S.n → c < S.n → (S'.P (π r) (π c) = .fin 0 ↔ S.P r c = .fin 0) := by
      intro r c hrn hcn
      rw [h.P r c hrn hcn]
      constructor
      · intro e
        rw [← Cell.flip_flip (ε r != ε c) (S.P r c), e, Cell.flip_zero]
      · intro e; rw [e, Cell.flip_zero]
    left
    unfold Sys.step
    rw [hd, hd']
    simp only
    have key := hnil (fun r => if (List.range S.n).any (fun c => decide (c ∈ S.actives o a) && decide (S.P r c ≠ .fin 0)) = true
      then .nan else .fin (S.dq r)) (fun r => if (List.range S'.n).any (fun c => decide (c ∈ S'.actives o' a') &&
        decide (S'.P r c ≠ .fin 0)) = true then .nan else .fin (S'.dq r)) ?_
    · by_cases hc : S.limiting o a (fun r => if (List.range S.n).any (fun c => decide (c ∈ S.actives o a) &&
        decide (S.P r c ≠ .fin 0)) = true then .nan else .fin (S.dq r)) = []
      · rw [if_pos hc, if_pos (key.2 hc)]
        exact ⟨_, rfl, rfl⟩
      · rw [if_neg hc, if_neg (fun e => hc (key.1 e))]
        exact ⟨_, rfl, rfl⟩
    · intro r hk hrn
      simp only [h.dq r hrn]
      congr 1
      rw [List.any_eq_true, List.any_eq_true]
      simp only [List.mem_range, Bool.and_eq_true, decide_eq_true_eq, h.n, eq_iff_iff]
      constructor
      · rintro ⟨c, hc, m1, m2⟩
        obtain ⟨d, hd, rfl⟩ := h.surj hc
        exact ⟨d, hd, (hm d hd).1 m1, fun e => m2 ((hP r d hrn hd).2 e)⟩
      · rintro ⟨c, hc, m1, m2⟩
        exact ⟨π c, h.lt c hc, (hm c hc).2 m1, fun e => m2 ((hP r c hrn hc).1 e)⟩

/-- The loop of the renumbered system. -/
theorem Renamed.loop (h : Renamed S S' π ε) (hs : Sound S M rigid) (hs' : Sound S' M' rigid') (htol : 0 ≤ o.tol)
    (hp : o.perm.Perm (List.range S.n)) (hp' : o'.perm.Perm (List.range S.n)) (ht : o'.tol = o.tol)
    (he : o'.errtol = o.errtol) (hpk : o'.packing = o.packing) (hlin : GoodLin o.lin) (hlin' : GoodLin o'.lin) (n : ℕ) {a a' : Rec K}
    (hr : RenamedRec S.n π ε a a') (hi' : StepInv S' rigid' a')
    (hgood : ∀ b ∈ a :: (S.loop o n a).1, StepInv S rigid b ∧ Balanced S b ∧
      (Cell.lt b.rlambda o.packing = true → RegularAt S o.tol b ∨ NoDirection S o.tol b)) :
    List.Forall₂ (RenamedRec S.n π ε) (S.loop o n a).1 (S'.loop o' n a').1 ∧ (S'.loop o' n a').2 = (S.loop o n a).2 := by
  induction n generalizing a a' with
  | zero => exact ⟨List.Forall₂.nil, rfl⟩
  | succ n ih =>
    obtain ⟨g1, g2, g3⟩ := hgood a (by simp)
    unfold Sys.loop at hgood ⊢
    rw [hpk, hr.lam]
    split_ifs at hgood ⊢ with hl
    · rcases h.step hr g2 hs hs' g1 hi' htol hp hp' ht he hlin hlin' (g3 hl) with ⟨e, e1, e2⟩ | ⟨b, b', e1, e2, hb⟩
      · rw [e1, e2]; exact ⟨List.Forall₂.nil, rfl⟩
      · rw [e1] at hgood
        simp only at hgood
        rw [e1, e2]
        obtain ⟨_, _, _, hst⟩ := hs'.step hi' e2
        have := ih hb hst.inv (fun c hc => hgood c (List.mem_cons_of_mem _ hc))
        exact ⟨List.Forall₂.cons hb this.1, this.2⟩
    · exact ⟨List.Forall₂.nil, rfl⟩

/-- The run of the renumbered system. -/
theorem Renamed.run (h : Renamed S S' π ε) (hs : Sound S M rigid) (hs' : Sound S' M' rigid') (htol : 0 ≤ o.tol)
    (hp : o.perm.Perm (List.range S.n)) (hp' : o'.perm.Perm (List.range S.n)) (ht : o'.tol = o.tol)
    (he : o'.errtol = o.errtol) (hpk : o'.packing = o.packing) (hit : o'.itermax = o.itermax) (hlin : GoodLin o.lin)
    (hlin' : GoodLin o'.lin)
    (hreg : ∀ a ∈ (S.run o).1, Cell.lt a.rlambda o.packing = true → RegularAt S o.tol a ∨ NoDirection S o.tol a) :
    List.Forall₂ (RenamedRec S.n π ε) (S.run o).1 (S'.run o').1 ∧ (S'.run o').2 = (S.run o).2 := by
  have hbal : ∀ b ∈ (S.run o).1, StepInv S rigid b ∧ Balanced S b := by
    intro b hb
    obtain ⟨k, hk⟩ := List.mem_iff_getElem?.1 hb
    have hi := hs.inv hk
    refine ⟨hi, fun r hr => ?_⟩
    by_cases hg : rigid r
    · exact Or.inl (hs.resid_rigid hi hg)
    · right
      obtain ⟨h1, h2⟩ := hs.force r hr
      rw [hs.resid hi hg h1, gap, hs.balance_exact hlin.1 hp htol hr hg hk, h2]
      congr 1
      ring
  have hinit : RenamedRec S.n π ε (S.init o) (S'.init o') := by
    have hx : ∀ c : ℕ, (0 : K) = sg (ε c) 0 := fun c => (sg_zero _).symm
    refine ⟨fun c _ => hx c, h.q0, h.Z0, rfl, ?_, rfl⟩
    intro r hrn
    have h0 := hbal (S.init o) (by simp [Sys.run])
    have h1 := h.resid_of (a := S.init o) (x' := fun _ => 0) (q' := S'.q0) (fun c _ => hx c) h.q0 hs h0.1 h0.2 hrn
    show Cell.le (S'.resid (fun _ => 0) S'.q0 (π r)) (.fin o'.tol) = Cell.le (S.resid (fun _ => 0) S.q0 r) (.fin o.tol)
    rw [h1, ht]
    rfl
  have := h.loop hs hs' htol hp hp' ht he hpk hlin hlin' o.itermax hinit (hs'.inv_init o')
    (fun b hb => ⟨(hbal b hb).1, (hbal b hb).2, fun hl => hreg b hb hl⟩)
  unfold Sys.run
  rw [hit]
  exact ⟨List.Forall₂.cons hinit this.1, this.2⟩

end Fibermat
