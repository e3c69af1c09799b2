import Verif.Lemmas.CellScale
import Verif.Lemmas.SolverSteps

/-! The solver in other units: rows multiplied by `ρ`, unknowns by `κ`. -/

set_option linter.unusedSectionVars false

namespace Fibermat
variable {K : Type} [Field K] [LinearOrder K] [IsStrictOrderedRing K]
open Spec

theorem Cell.sc_inj {c : K} (hc : c ≠ 0) {x y : Cell K} (h : Cell.sc c x = Cell.sc c y) : x = y := by
  have := congrArg (Cell.sc c⁻¹) h
  rwa [Cell.sc_sc, Cell.sc_sc, inv_mul_cancel₀ hc, Cell.sc_one, Cell.sc_one] at this

/-- The same system in other units. -/
structure Scaled (S S' : Sys K) (α β : K) (ρ κ : ℕ → K) : Prop where
  α_pos : 0 < α
  β_pos : 0 < β
  κ_pos : ∀ c, 0 < κ c
  ρ_pos : ∀ r, 0 < ρ r
  dual : ∀ r, ρ r * κ r = β
  nK : S'.nK = S.nK
  nC : S'.nC = S.nC
  P : ∀ r c, S'.P r c = Cell.sc (ρ r / κ c) (S.P r c)
  q0 : ∀ r, S'.q0 r = Cell.sc (ρ r) (S.q0 r)
  dq : ∀ r, S'.dq r = ρ r / α * S.dq r
  Z0 : S'.Z0 = α * S.Z0
  row : ∀ r, S.nK ≤ r → ρ r = α

/-- The same record in other units. -/
structure ScaledRec (α : K) (ρ κ : ℕ → K) (a a' : Rec K) : Prop where
  x : ∀ c, a'.x c = κ c * a.x c
  q : ∀ r, a'.q r = Cell.sc (ρ r) (a.q r)
  Z : a'.Z = α * a.Z
  lam : a'.rlambda = a.rlambda
  mask : a'.mask = a.mask
  err : a'.errSq = a.errSq

variable {S S' : Sys K} {α β : K} {ρ κ : ℕ → K} {M : ℕ → ℕ → K} {rigid : ℕ → Prop} {o o' : Opts K} {a a' : Rec K}

theorem Scaled.n (h : Scaled S S' α β ρ κ) : S'.n = S.n := by unfold Sys.n; rw [h.nK, h.nC]

theorem Scaled.mulVec (h : Scaled S S' α β ρ κ) {x x' : ℕ → K} (hx : ∀ c, x' c = κ c * x c) (r : ℕ) :
    S'.mulVec x' r = Cell.sc (ρ r) (S.mulVec x r) := by
  unfold Sys.mulVec cellSum
  rw [h.n, ← Cell.sc_sum, List.map_map]
  congr 1
  refine List.map_congr_left ?_
  intro c _
  have e : (Cell.fin (x' c) : Cell K) = Cell.sc (κ c) (Cell.fin (x c)) := by rw [hx, Cell.sc_fin]
  simp only [Function.comp]
  rw [h.P, e, Cell.sc_mul (div_pos (h.ρ_pos r) (h.κ_pos c)) (h.κ_pos c), div_mul_cancel₀ _ (h.κ_pos c).ne']

theorem Scaled.resid (h : Scaled S S' α β ρ κ) {x x' : ℕ → K} (hx : ∀ c, x' c = κ c * x c) {q q' : ℕ → Cell K}
    (hq : ∀ r, q' r = Cell.sc (ρ r) (q r)) (r : ℕ) : S'.resid x' q' r = Cell.sc (ρ r) (S.resid x q r) := by
  unfold Sys.resid
  rw [h.mulVec hx, hq, Cell.sc_sub]

/-- Cells of a sum of absolute values, up to positive factors. -/
def Alike (x y : Cell K) : Prop :=
  (x = .nan ∧ y = .nan) ∨ (x = .pinf ∧ y = .pinf) ∨ ∃ a b : K, x = .fin a ∧ y = .fin b ∧ 0 ≤ a ∧ 0 ≤ b ∧ (a = 0 ↔ b = 0)

theorem Alike.add {x y z w : Cell K} (h : Alike x y) (h' : Alike z w) : Alike (x + z) (y + w) := by
  rcases h with ⟨rfl, rfl⟩ | ⟨rfl, rfl⟩ | ⟨a, b, rfl, rfl, ha, hb, hab⟩
  · exact Or.inl ⟨Cell.nan_add _, Cell.nan_add _⟩
  · rcases h' with ⟨rfl, rfl⟩ | ⟨rfl, rfl⟩ | ⟨c, d, rfl, rfl, hc, hd, hcd⟩
    · exact Or.inl ⟨rfl, rfl⟩
    · exact Or.inr (Or.inl ⟨rfl, rfl⟩)
    · exact Or.inr (Or.inl ⟨rfl, rfl⟩)
  · rcases h' with ⟨rfl, rfl⟩ | ⟨rfl, rfl⟩ | ⟨c, d, rfl, rfl, hc, hd, hcd⟩
    · exact Or.inl ⟨rfl, rfl⟩
    · exact Or.inr (Or.inl ⟨rfl, rfl⟩)
    · refine Or.inr (Or.inr ⟨a + c, b + d, rfl, rfl, by linarith, by linarith, ?_⟩)
      rw [add_eq_zero_iff_of_nonneg ha hc, add_eq_zero_iff_of_nonneg hb hd, hab, hcd]

theorem Alike.lt {x y : Cell K} (h : Alike x y) : Cell.lt (.fin 0) y = Cell.lt (.fin 0) x := by
  rcases h with ⟨rfl, rfl⟩ | ⟨rfl, rfl⟩ | ⟨a, b, rfl, rfl, ha, hb, hab⟩
  · rfl
  · rfl
  · rw [Bool.eq_iff_iff, Cell.lt_fin_iff, Cell.lt_fin_iff, ha.lt_iff_ne', hb.lt_iff_ne', ne_eq, ne_eq, hab]

theorem Scaled.colSum (h : Scaled S S' α β ρ κ) (c : ℕ) : Cell.lt (.fin 0) (S'.colSum c) = Cell.lt (.fin 0) (S.colSum c) := by
  apply Alike.lt
  unfold Sys.colSum cellSum
  rw [h.n]
  induction List.range S.n with
  | nil => exact Or.inr (Or.inr ⟨0, 0, rfl, rfl, le_rfl, le_rfl, Iff.rfl⟩)
  | cons r l ih =>
    simp only [List.map_cons, List.sum_cons]
    refine Alike.add ?_ ih
    have hw := div_pos (h.ρ_pos r) (h.κ_pos c)
    rw [h.P, Cell.sc_abs hw]
    cases S.P r c with
    | nan => exact Or.inl ⟨rfl, rfl⟩
    | pinf => exact Or.inr (Or.inl ⟨rfl, rfl⟩)
    | ninf => exact Or.inr (Or.inl ⟨rfl, rfl⟩)
    | fin a =>
      refine Or.inr (Or.inr ⟨|a|, _, rfl, rfl, abs_nonneg a, mul_nonneg hw.le (abs_nonneg a), ?_⟩)
      rw [mul_eq_zero]
      simp [hw.ne']

/-- The force rows are balanced (or carry an infinite modulus). -/
def Balanced (S : Sys K) (a : Rec K) : Prop := ∀ r, r < S.nK → S.resid a.x a.q r = .nan ∨ S.resid a.x a.q r = .fin 0

theorem Scaled.le_tol (h : Scaled S S' α β ρ κ) (hr : ScaledRec α ρ κ a a') (hb : Balanced S a) (tol : K) (r : ℕ) :
    Cell.le (S'.resid a'.x a'.q r) (.fin (α * tol)) = Cell.le (S.resid a.x a.q r) (.fin tol) := by
  rw [h.resid hr.x hr.q]
  by_cases hk : r < S.nK
  · rcases hb r hk with e | e
    · rw [e]; rfl
    · rw [e, Cell.sc_fin, Bool.eq_iff_iff, Cell.le_fin_iff, Cell.le_fin_iff, mul_zero, mul_nonneg_iff_of_pos_left h.α_pos]
  · rw [h.row r (by omega), ← Cell.sc_fin, Cell.sc_le h.α_pos]

theorem Scaled.tol_lt (h : Scaled S S' α β ρ κ) (hr : ScaledRec α ρ κ a a') (hb : Balanced S a) (tol : K) (r : ℕ) :
    Cell.lt (.fin (α * tol)) (S'.resid a'.x a'.q r) = Cell.lt (.fin tol) (S.resid a.x a.q r) := by
  rw [h.resid hr.x hr.q]
  by_cases hk : r < S.nK
  · rcases hb r hk with e | e
    · rw [e]; rfl
    · rw [e, Cell.sc_fin, Bool.eq_iff_iff, Cell.lt_fin_iff, Cell.lt_fin_iff, mul_zero]
      exact ⟨fun h1 => neg_of_mul_neg_right h1 h.α_pos.le, fun h1 => mul_neg_of_pos_of_neg h.α_pos h1⟩
  · rw [h.row r (by omega), ← Cell.sc_fin, Cell.sc_lt h.α_pos]

theorem Scaled.active (h : Scaled S S' α β ρ κ) (hr : ScaledRec α ρ κ a a') (hb : Balanced S a) (tol : K) :
    S'.active (α * tol) a'.x a'.q = S.active tol a.x a.q := by
  funext r
  unfold Sys.active
  rw [h.le_tol hr hb, h.colSum]

theorem Scaled.sound (h : Scaled S S' α β ρ κ) (hs : Sound S M rigid) : Sound S' (fun r c => ρ r / κ c * M r c) rigid := by
  refine ⟨?_, ?_, ?_, ?_, ?_, ?_, ?_⟩
  · intro r c hrc
    rw [h.P, hs.num r c hrc, Cell.sc_fin]
  · intro r hr
    rw [h.P, hs.diag r hr]; rfl
  · intro r hr; rw [h.nK]; exact hs.lt r hr
  · intro r c
    have e : ρ r / κ c = ρ c / κ r := by
      rw [div_eq_div_iff (h.κ_pos c).ne' (h.κ_pos r).ne', h.dual, h.dual]
    rw [e, hs.symm r c]
  · intro r hr
    rw [h.nK] at hr
    obtain ⟨h1, h2⟩ := hs.force r hr
    rw [h.q0, h.dq, h1, h2, mul_zero, Cell.sc_fin, mul_zero]
    exact ⟨rfl, rfl⟩
  · intro r h1 h2
    rw [h.nK] at h1
    rw [h.n] at h2
    rcases hs.bound r h1 h2 with ⟨b, e⟩ | ⟨e1, e2, e3⟩
    · exact Or.inl ⟨_, by rw [h.q0, e, Cell.sc_fin]⟩
    · refine Or.inr ⟨by rw [h.q0, e1]; rfl, by rw [h.dq, e2, mul_zero], fun c => by simp only [e3 c, mul_zero]⟩
  · intro r hr hg hz
    rw [h.n] at hr hz
    rw [h.dq, hs.zero r hr hg, mul_zero]
    intro c hc
    exact (mul_eq_zero.1 (hz c hc)).resolve_left (div_pos (h.ρ_pos c) (h.κ_pos r)).ne'

theorem Scaled.inv (h : Scaled S S' α β ρ κ) (hr : ScaledRec α ρ κ a a') (hi : StepInv S rigid a) : StepInv S' rigid a' := by
  refine ⟨fun r hg => by rw [hr.x, hi.frozen r hg, mul_zero], fun r => ?_⟩
  rw [hr.q, hi.bounds, ← Cell.sc_add, h.q0, Cell.sc_fin, h.dq, hr.Z, h.Z0]
  congr 2
  have := h.α_pos.ne'
  field_simp

theorem Scaled.regular (h : Scaled S S' α β ρ κ) (hr : ScaledRec α ρ κ a a') (hb : Balanced S a) {tol : K}
    (hreg : RegularAt S tol a) : RegularAt S' (α * tol) a' := by
  intro y h1 h2 r hrn
  rw [h.active hr hb] at h1 h2
  rw [h.n] at h2 hrn
  have hy : ∀ c, y c = κ c * (y c / κ c) := fun c => by rw [mul_div_cancel₀ _ (h.κ_pos c).ne']
  have := hreg (fun c => y c / κ c) (fun r hr => by simp only [h1 r hr, zero_div]) (fun r hrn hact => by
    have := h2 r hrn hact
    rw [h.mulVec (x := fun c => y c / κ c) hy] at this
    refine Cell.sc_inj (h.ρ_pos r).ne' ?_
    rw [this, Cell.sc_fin, mul_zero]) r hrn
  rw [hy r, this, mul_zero]

/-- No direction satisfies the equations of the active rows. -/
def NoDirection (S : Sys K) (tol : K) (a : Rec K) : Prop :=
  ∀ y : ℕ → K, (∀ r, S.active tol a.x a.q r = false → y r = 0) →
    ¬ ∀ r, r < S.n → S.active tol a.x a.q r = true → S.mulVec y r = .fin (S.dq r)

theorem Scaled.noDirection (h : Scaled S S' α β ρ κ) (hr : ScaledRec α ρ κ a a') (hb : Balanced S a) {tol : K}
    (hno : NoDirection S tol a) : NoDirection S' (α * tol) a' := by
  intro y h1 h2
  rw [h.active hr hb] at h1 h2
  rw [h.n] at h2
  have hα := h.α_pos.ne'
  have hy : ∀ c, y c = κ c * (y c / κ c) := fun c => by rw [mul_div_cancel₀ _ (h.κ_pos c).ne']
  have hy2 : ∀ c, (κ c * (α * (y c / κ c))) = α * y c := fun c => by
    have := (h.κ_pos c).ne'
    field_simp
  refine hno (fun c => α * (y c / κ c)) (fun r hr => by simp only [h1 r hr, zero_div, mul_zero]) (fun r hrn hact => ?_)
  have e := h2 r hrn hact
  have e1 : S.mulVec (fun c => α * (y c / κ c)) r = Cell.sc α (S.mulVec (fun c => y c / κ c) r) := by
    unfold Sys.mulVec cellSum
    rw [← Cell.sc_sum, List.map_map]
    congr 1
    refine List.map_congr_left ?_
    intro c _
    simp only [Function.comp]
    have e : (Cell.fin (α * (y c / κ c)) : Cell K) = Cell.sc α (Cell.fin (y c / κ c)) := rfl
    have e2 := Cell.sc_mul (a := (1 : K)) one_pos h.α_pos (S.P r c) (.fin (y c / κ c))
    rw [Cell.sc_one, one_mul] at e2
    rw [e, e2]
  rw [h.mulVec (x := fun c => y c / κ c) hy] at e
  refine Cell.sc_inj (h.ρ_pos r).ne' ?_
  rw [e1, Cell.sc_sc, mul_comm, ← Cell.sc_sc, e, Cell.sc_fin, Cell.sc_fin, h.dq]
  congr 1
  field_simp

theorem noDirection_none (hs : Sound S M rigid) (hi : StepInv S rigid a) (hp : o.perm.Perm (List.range S.n)) (hlin : ExactLin o.lin)
    (hno : NoDirection S o.tol a) : S.direction o a = none := by
  cases hd : S.direction o a with
  | none => rfl
  | some dx =>
    exfalso
    refine hno dx (fun r hr => direction_zero hd hr) (fun r hr hact => ?_)
    rw [hs.mulVec (hs.active_num hi hr hact).1, hs.exact hlin hp hi hd r hr hact]

theorem direction_range {dx : ℕ → K} (hp : o.perm.Perm (List.range S.n)) (hd : S.direction o a = some dx) {r : ℕ} (hr : ¬ r < S.n) :
    dx r = 0 := by
  unfold Sys.direction at hd
  simp only [Option.map_eq_some_iff] at hd
  obtain ⟨sol, -, rfl⟩ := hd
  simp only
  rw [if_neg]
  intro hm
  exact hr ((mem_actives hp r).1 hm).1

/-- The direction in other units. -/
theorem Scaled.direction (h : Scaled S S' α β ρ κ) (hr : ScaledRec α ρ κ a a') (hb : Balanced S a) (hs : Sound S M rigid)
    (hi : StepInv S rigid a) (hp : o.perm.Perm (List.range S.n)) (hp' : o'.perm.Perm (List.range S.n)) (ht : o'.tol = α * o.tol)
    (hlin : GoodLin o.lin) (hlin' : GoodLin o'.lin) (hreg : RegularAt S o.tol a) :
    ∃ dx dx', S.direction o a = some dx ∧ S'.direction o' a' = some dx' ∧ ∀ c, dx' c = κ c * (dx c / α) := by
  have hs' := h.sound hs
  have hi' := h.inv hr hi
  have hreg' := h.regular hr hb hreg
  obtain ⟨dx, hd, -⟩ := hs.direction_perm hi hp hp rfl hlin hlin hreg
  rw [← h.n] at hp'
  rw [← ht] at hreg'
  obtain ⟨dx', hd', -⟩ := hs'.direction_perm hi' hp' hp' rfl hlin' hlin' hreg'
  refine ⟨dx, dx', hd, hd', ?_⟩
  have hact := h.active hr hb o.tol
  rw [← ht] at hact
  have hα := h.α_pos.ne'
  have key := hs'.regular hi' hreg' (fun c => dx' c - κ c * (dx c / α)) ?_ ?_
  · intro c
    by_cases hc : c < S.n
    · exact sub_eq_zero.1 (key c (by rw [h.n]; exact hc))
    · rw [direction_range hp hd hc, direction_range hp' hd' (by rw [h.n]; exact hc)]; simp
  · intro r hra
    rw [direction_zero hd' hra, direction_zero hd (by rw [← hact]; exact hra)]; simp
  · intro r hrn hra
    have e1 := hs'.exact hlin'.1 hp' hi' hd' r hrn hra
    rw [hact] at hra
    rw [h.n] at hrn
    have e2 := hs.exact hlin.1 hp hi hd r hrn hra
    have e3 : apply S' (fun r c => ρ r / κ c * M r c) (fun c => dx' c - κ c * (dx c / α)) r =
        apply S' (fun r c => ρ r / κ c * M r c) dx' r - ρ r / α * apply S M dx r := by
      unfold apply
      rw [Finset.mul_sum, h.n, ← Finset.sum_sub_distrib]
      refine Finset.sum_congr rfl ?_
      intro c _
      have := (h.κ_pos c).ne'
      field_simp
    rw [e3, e1, e2, h.dq, sub_self]

theorem minCells_sc {c : K} (hc : 0 < c) (l : List (Cell K)) : minCells (l.map (Cell.sc c)) = (minCells l).map (fun t => c * t) := by
  induction l with
  | nil => rfl
  | cons a t ih =>
    cases a with
    | fin a =>
      cases t with
      | nil => rfl
      | cons b t =>
        simp only [List.map_cons, Cell.sc_fin, minCells] at ih ⊢
        rw [ih, Option.map_map, Option.map_map]
        congr 1
        funext x
        simp only [Function.comp, mul_min_of_nonneg _ _ hc.le]
    | pinf => rfl
    | ninf => rfl
    | nan => rfl

theorem errSq_exact (hs : Sound S M rigid) (hi : StepInv S rigid a) (hp : o.perm.Perm (List.range S.n)) (hlin : ExactLin o.lin)
    {dx : ℕ → K} (hd : S.direction o a = some dx) : S.errSq (S.active o.tol a.x a.q) dx = .fin 0 := by
  rw [errSq_eq hs (fun r hr hg => by rw [hs.not_active_rigid hi hg] at hr; cases hr) (fun r hr => direction_zero hd hr)]
  congr 1
  apply List.sum_eq_zero
  intro y hy
  obtain ⟨r, hr, rfl⟩ := List.mem_map.1 hy
  obtain ⟨h1, h2⟩ := List.mem_filter.1 hr
  rw [hs.exact hlin hp hi hd r (List.mem_range.1 h1) h2, sub_self]
  ring

/-- A step in other units. -/
theorem Scaled.step (h : Scaled S S' α β ρ κ) (hr : ScaledRec α ρ κ a a') (hb : Balanced S a) (hs : Sound S M rigid)
    (hi : StepInv S rigid a) (hp : o.perm.Perm (List.range S.n)) (hp' : o'.perm.Perm (List.range S.n)) (ht : o'.tol = α * o.tol)
    (he : o'.errtol = o.errtol) (hlin : GoodLin o.lin) (hlin' : GoodLin o'.lin)
    (hreg : RegularAt S o.tol a ∨ NoDirection S o.tol a) :
    (∃ e, S.step o a = .error e ∧ S'.step o' a' = .error e) ∨
      ∃ b b', S.step o a = .ok b ∧ S'.step o' a' = .ok b' ∧ ScaledRec α ρ κ b b' := by
  have hs' := h.sound hs
  have hi' := h.inv hr hi
  have hact := h.active hr hb o.tol
  have hp2 := hp'
  rw [← h.n] at hp2
  have hlim : ∀ v v' : ℕ → Cell K, (∀ r, Cell.lt (.fin 0) (v' r) = Cell.lt (.fin 0) (v r)) → S'.limiting o' a' v' = S.limiting o a v := by
    intro v v' hv
    unfold Sys.limiting
    rw [h.n, ht]
    congr 1
    funext r
    rw [h.tol_lt hr hb, hv]
  rcases hreg with hreg | hno
  · obtain ⟨dx, dx', hd, hd', hdx⟩ := h.direction hr hb hs hi hp hp' ht hlin hlin' hreg
    have e1 := errSq_exact hs hi hp hlin.1 hd
    have e2 := errSq_exact hs' hi' hp2 hlin'.1 hd'
    rw [ht] at e2
    have hα := h.α_pos
    have hrate : ∀ r, S'.rate dx' r = Cell.sc (ρ r / α) (S.rate dx r) := by
      intro r
      have e3 : S'.mulVec dx' r = Cell.sc (ρ r / α) (S.mulVec dx r) := by
        rw [h.mulVec (x := fun c => dx c / α) hdx]
        unfold Sys.mulVec cellSum
        rw [← Cell.sc_sum, ← Cell.sc_sum, List.map_map, List.map_map]
        congr 1
        refine List.map_congr_left ?_
        intro c _
        simp only [Function.comp]
        have e4 := Cell.sc_mul (a := (1 : K)) one_pos (b := 1 / α) (by positivity) (S.P r c) (.fin (dx c))
        rw [Cell.sc_one, one_mul, Cell.sc_fin, one_div_mul_eq_div] at e4
        rw [e4, Cell.sc_sc, mul_one_div]
      unfold Sys.rate
      rw [e3, h.dq, ← Cell.sc_fin, Cell.sc_sub]
    have hl := hlim (S.rate dx) (S'.rate dx') (fun r => by
      have := Cell.sc_lt (div_pos (h.ρ_pos r) hα) (.fin 0) (S.rate dx r)
      rw [Cell.sc_fin, mul_zero, ← hrate] at this
      exact this)
    have hmin : minCells ((S.limiting o a (S.rate dx)).map (fun r => S'.resid a'.x a'.q r / S'.rate dx' r)) =
        (minCells ((S.limiting o a (S.rate dx)).map (fun r => S.resid a.x a.q r / S.rate dx r))).map (fun t => α * t) := by
      rw [← minCells_sc hα, List.map_map]
      congr 1
      refine List.map_congr_left ?_
      intro r _
      simp only [Function.comp]
      rw [h.resid hr.x hr.q, hrate, Cell.sc_div (h.ρ_pos r) (div_pos (h.ρ_pos r) hα)]
      congr 1
      have := (h.ρ_pos r).ne'
      have := hα.ne'
      field_simp
    unfold Sys.step
    rw [hd, hd']
    simp only [ht, he, hact, hl, e1, hmin]
    rw [hact] at e2
    rw [e2]
    split_ifs with c1 c2
    · exact Or.inl ⟨_, rfl, rfl⟩
    · exact Or.inl ⟨_, rfl, rfl⟩
    · cases minCells ((S.limiting o a (S.rate dx)).map (fun r => S.resid a.x a.q r / S.rate dx r)) with
      | none => exact Or.inl ⟨_, rfl, rfl⟩
      | some t =>
        refine Or.inr ⟨_, _, rfl, rfl, ?_, ?_, ?_, ?_, rfl, rfl⟩
        · intro c
          simp only [hr.x, hdx]
          have := hα.ne'
          field_simp
        · intro r
          simp only [hr.q, h.dq]
          rw [← Cell.sc_add, Cell.sc_fin]
          congr 2
          have := hα.ne'
          field_simp
        · simp only [hr.Z]; ring
        · simp only [hr.Z, h.Z0]
          have := Cell.sc_div hα hα (.fin S.Z0) (.fin (a.Z + -t))
          rw [div_self hα.ne', Cell.sc_one, Cell.sc_fin, Cell.sc_fin] at this
          rw [← this]
          congr 2
          ring
  · have hd := noDirection_none hs hi hp hlin.1 hno
    have hno' := h.noDirection hr hb hno
    rw [← ht] at hno'
    have hd' := noDirection_none hs' hi' hp2 hlin'.1 hno'
    have hm : ∀ c, c ∈ S'.actives o' a' ↔ c ∈ S.actives o a := by
      intro c
      rw [mem_actives hp, mem_actives hp2, ht, hact, h.n]
    have hP : ∀ r c, S'.P r c = .fin 0 ↔ S.P r c = .fin 0 := by
      intro r c
      rw [h.P]
      constructor
      · intro e
        refine Cell.sc_inj (div_pos (h.ρ_pos r) (h.κ_pos c)).ne' ?_
        rw [e, Cell.sc_fin, mul_zero]
      · intro e; rw [e, Cell.sc_fin, mul_zero]
    left
    unfold Sys.step
    rw [hd, hd']
    simp only [hm, ne_eq, hP, h.n]
    rw [hlim (fun r => if (List.range S.n).any (fun c => decide (c ∈ S.actives o a) && decide (¬ S.P r c = .fin 0)) = true
      then .nan else .fin (S.dq r))]
    · split_ifs
      · exact ⟨_, rfl, rfl⟩
      · exact ⟨_, rfl, rfl⟩
    · intro r
      split_ifs
      · rfl
      · have := Cell.sc_lt (div_pos (h.ρ_pos r) h.α_pos) (.fin 0) (.fin (S.dq r))
        rw [Cell.sc_fin, mul_zero, Cell.sc_fin, ← h.dq] at this
        exact this

/-- The loop in other units. -/
theorem Scaled.loop (h : Scaled S S' α β ρ κ) (hs : Sound S M rigid)
    (hp : o.perm.Perm (List.range S.n)) (hp' : o'.perm.Perm (List.range S.n)) (ht : o'.tol = α * o.tol)
    (he : o'.errtol = o.errtol) (hpk : o'.packing = o.packing) (hlin : GoodLin o.lin) (hlin' : GoodLin o'.lin) (n : ℕ) {a a' : Rec K}
    (hr : ScaledRec α ρ κ a a')
    (hgood : ∀ b ∈ a :: (S.loop o n a).1, StepInv S rigid b ∧ Balanced S b ∧
      (Cell.lt b.rlambda o.packing = true → RegularAt S o.tol b ∨ NoDirection S o.tol b)) :
    List.Forall₂ (ScaledRec α ρ κ) (S.loop o n a).1 (S'.loop o' n a').1 ∧ (S'.loop o' n a').2 = (S.loop o n a).2 := by
  induction n generalizing a a' with
  | zero => exact ⟨List.Forall₂.nil, rfl⟩
  | succ n ih =>
    obtain ⟨g1, g2, g3⟩ := hgood a (by simp)
    unfold Sys.loop at hgood ⊢
    rw [hpk, hr.lam]
    split_ifs at hgood ⊢ with hl
    · rcases h.step hr g2 hs g1 hp hp' ht he hlin hlin' (g3 hl) with ⟨e, e1, e2⟩ | ⟨b, b', e1, e2, hb⟩
      · rw [e1, e2]; exact ⟨List.Forall₂.nil, rfl⟩
      · rw [e1] at hgood
        simp only at hgood
        rw [e1, e2]
        have := ih hb (fun c hc => hgood c (List.mem_cons_of_mem _ hc))
        exact ⟨List.Forall₂.cons hb this.1, this.2⟩
    · exact ⟨List.Forall₂.nil, rfl⟩

/-- The run in other units. -/
theorem Scaled.run (h : Scaled S S' α β ρ κ) (hs : Sound S M rigid) (htol : 0 ≤ o.tol)
    (hp : o.perm.Perm (List.range S.n)) (hp' : o'.perm.Perm (List.range S.n)) (ht : o'.tol = α * o.tol)
    (he : o'.errtol = o.errtol) (hpk : o'.packing = o.packing) (hit : o'.itermax = o.itermax) (hlin : GoodLin o.lin)
    (hlin' : GoodLin o'.lin)
    (hreg : ∀ a ∈ (S.run o).1, Cell.lt a.rlambda o.packing = true → RegularAt S o.tol a ∨ NoDirection S o.tol a) :
    List.Forall₂ (ScaledRec α ρ κ) (S.run o).1 (S'.run o').1 ∧ (S'.run o').2 = (S.run o).2 := by
  have hbal : ∀ b ∈ (S.run o).1, StepInv S rigid b ∧ Balanced S b := by
    intro b hb
    obtain ⟨k, hk⟩ := List.mem_iff_getElem?.1 hb
    have hi := hs.inv hk
    refine ⟨hi, fun r hr => ?_⟩
    by_cases hg : rigid r
    · exact Or.inl (hs.resid_rigid hi hg)
    · right
      obtain ⟨h1, h2⟩ := hs.force r hr
      rw [hs.resid hi hg h1, gap, hs.balance_exact hlin.1 hp htol hr hg hk, h2]
      congr 1
      ring
  have hinit : ScaledRec α ρ κ (S.init o) (S'.init o') := by
    have hx : ∀ c : ℕ, (0 : K) = κ c * 0 := fun c => by ring
    refine ⟨fun c => hx c, h.q0, h.Z0, rfl, ?_, rfl⟩
    funext r
    have h0 := hbal (S.init o) (by simp [Sys.run])
    have h1 := h.le_tol (a := S.init o) (a' := { S.init o with x := fun _ => 0, q := S'.q0, Z := S'.Z0 })
      ⟨fun c => hx c, h.q0, h.Z0, rfl, rfl, rfl⟩ h0.2 o.tol r
    rw [← ht] at h1
    exact h1
  have := h.loop hs hp hp' ht he hpk hlin hlin' o.itermax hinit
    (fun b hb => ⟨(hbal b hb).1, (hbal b hb).2, fun hl => hreg b hb hl⟩)
  unfold Sys.run
  rw [hit]
  exact ⟨List.Forall₂.cons hinit this.1, this.2⟩

end Fibermat
