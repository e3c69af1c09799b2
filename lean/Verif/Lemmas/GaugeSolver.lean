import Verif.Lemmas.RenameSolver

/-! The solver seen from a frame that moves along a vector without stiffness. -/

set_option linter.unusedSectionVars false

namespace Fibermat
variable {K : Type} [Field K] [LinearOrder K] [IsStrictOrderedRing K]
open Spec

/-- The system in the frame moving along `e`. -/
def gauged (S : Sys K) (M : ℕ → ℕ → K) (e : ℕ → K) : Sys K := { S with dq := fun r => S.dq r - apply S M e r }

/-- A motion of some free unknowns that the stiffness does not resist. -/
structure Gauge (S : Sys K) (M : ℕ → ℕ → K) (rigid : ℕ → Prop) (e : ℕ → K) : Prop where
  zero : ∀ r, r < S.nK → apply S M e r = 0
  support : ∀ r, e r ≠ 0 → r < S.nK ∧ ¬ rigid r ∧ ∃ c, c < S.n ∧ M c r ≠ 0

/-- The same record in the moving frame. -/
structure GaugedRec (S : Sys K) (M : ℕ → ℕ → K) (e : ℕ → K) (a a' : Rec K) : Prop where
  x : ∀ c, c < S.n → a'.x c = a.x c - (a.Z - S.Z0) * e c
  q : ∀ r, r < S.n → a'.q r = a.q r + .fin (-((a.Z - S.Z0) * apply S M e r))
  Z : a'.Z = a.Z
  lam : a'.rlambda = a.rlambda
  mask : ∀ r, r < S.n → a'.mask r = a.mask r
  err : a'.errSq = a.errSq

variable {S : Sys K} {M : ℕ → ℕ → K} {rigid : ℕ → Prop} {e : ℕ → K} {o : Opts K} {a a' : Rec K}

theorem apply_lin (x y : ℕ → K) (t : K) (r : ℕ) : apply S M (fun c => x c + t * y c) r = apply S M x r + t * apply S M y r := by
  unfold apply
  rw [Finset.mul_sum, ← Finset.sum_add_distrib]
  exact Finset.sum_congr rfl (fun c _ => by ring)

theorem apply_congr {x y : ℕ → K} (h : ∀ c, c < S.n → x c = y c) (r : ℕ) : apply S M x r = apply S M y r := by
  unfold apply
  exact Finset.sum_congr rfl (fun c hc => by rw [h c (Finset.mem_range.1 hc)])

theorem mulVec_congr {x y : ℕ → K} (h : ∀ c, c < S.n → x c = y c) (r : ℕ) : S.mulVec x r = S.mulVec y r := by
  unfold Sys.mulVec
  congr 1
  exact List.map_congr_left (fun c hc => by rw [h c (List.mem_range.1 hc)])

theorem gauged_sound (hs : Sound S M rigid) (hg : Gauge S M rigid e) : Sound (gauged S M e) M rigid := by
  refine ⟨hs.num, hs.diag, hs.lt, hs.symm, ?_, ?_, ?_⟩
  · intro r hr
    obtain ⟨h1, h2⟩ := hs.force r hr
    exact ⟨h1, by simp only [gauged]; rw [h2, hg.zero r hr, sub_zero]⟩
  · intro r hr hrn
    rcases hs.bound r hr hrn with h | ⟨h1, h2, h3⟩
    · exact Or.inl h
    · refine Or.inr ⟨h1, ?_, h3⟩
      have : apply S M e r = 0 := Finset.sum_eq_zero (fun c _ => by rw [h3 c, zero_mul])
      simp only [gauged]
      rw [h2, this, sub_zero]
  · intro r hrn hrg h
    have : apply S M e r = 0 := Finset.sum_eq_zero (fun c hc => by
      rw [hs.symm, h c (Finset.mem_range.1 hc), zero_mul])
    simp only [gauged]
    rw [hs.zero r hrn hrg h, this, sub_zero]

theorem gauged_resid (hs : Sound S M rigid) (hg : Gauge S M rigid e) (hr : GaugedRec S M e a a') (hi : StepInv S rigid a)
    (hi' : StepInv (gauged S M e) rigid a') {r : ℕ} (hrn : r < S.n) : (gauged S M e).resid a'.x a'.q r = S.resid a.x a.q r := by
  have hs' := gauged_sound hs hg
  rcases hs.cases hrn with h | ⟨h, hb, -⟩ | ⟨h, b, hb⟩
  · rw [hs'.resid_rigid hi' h, hs.resid_rigid hi h]
  · rw [hs'.resid_inf hi' h hb, hs.resid_inf hi h hb]
  · rw [hs'.resid hi' h hb, hs.resid hi h hb]
    congr 1
    have e1 : apply (gauged S M e) M a'.x r = apply S M a.x r + -(a.Z - S.Z0) * apply S M e r := by
      rw [← apply_lin]
      exact apply_congr (S := S) (fun c hc => by rw [hr.x c hc]; ring) r
    unfold gap
    rw [e1, hr.Z]
    simp only [gauged]
    ring

theorem gauged_active (hs : Sound S M rigid) (hg : Gauge S M rigid e) (hr : GaugedRec S M e a a') (hi : StepInv S rigid a)
    (hi' : StepInv (gauged S M e) rigid a') (tol : K) {r : ℕ} (hrn : r < S.n) :
    (gauged S M e).active tol a'.x a'.q r = S.active tol a.x a.q r := by
  unfold Sys.active
  rw [gauged_resid hs hg hr hi hi' hrn]
  rfl

/-- The unknowns that the frame moves are always active. -/
theorem gauge_active (hs : Sound S M rigid) (hg : Gauge S M rigid e) (hb : Balanced S a) (hi : StepInv S rigid a) {tol : K}
    (htol : 0 ≤ tol) {r : ℕ} (he : e r ≠ 0) : r < S.n ∧ S.active tol a.x a.q r = true := by
  obtain ⟨h1, h2, h3⟩ := hg.support r he
  refine ⟨by unfold Sys.n; omega, ?_⟩
  rw [hs.active_iff hi h2 (hs.force r h1).1]
  refine ⟨?_, h3⟩
  have h4 := hs.resid hi h2 (hs.force r h1).1
  rcases hb r h1 with h5 | h5
  · rw [h5] at h4; cases h4
  · rw [h5] at h4
    injection h4 with h4
    rw [← h4]; exact htol

/-- A vector without its entries beyond the system. -/
def trunc (n : ℕ) (y : ℕ → K) (r : ℕ) : K := if r < n then y r else 0

theorem trunc_eq (y : ℕ → K) {n r : ℕ} (h : r < n) : trunc n y r = y r := if_pos h

theorem trunc_zero {n : ℕ} {y : ℕ → K} {r : ℕ} (h : r < n → y r = 0) : trunc n y r = 0 := by
  unfold trunc
  split_ifs with hr
  · exact h hr
  · rfl

theorem gauged_regular (hs : Sound S M rigid) (hg : Gauge S M rigid e) (hr : GaugedRec S M e a a') (hi : StepInv S rigid a)
    (hi' : StepInv (gauged S M e) rigid a') {tol : K} (hreg : RegularAt S tol a) : RegularAt (gauged S M e) tol a' := by
  intro y h1 h2 r hrn
  have hrn : r < S.n := hrn
  have := hreg (trunc S.n y) (fun r hra => trunc_zero (fun hrn => h1 r (by rw [gauged_active hs hg hr hi hi' tol hrn]; exact hra)))
    (fun r hrn hra => by
      rw [mulVec_congr (fun c hc => trunc_eq y hc) r]
      exact h2 r hrn (by rw [gauged_active hs hg hr hi hi' tol hrn]; exact hra)) r hrn
  rwa [trunc_eq y hrn] at this

theorem gauged_noDirection (hs : Sound S M rigid) (hg : Gauge S M rigid e) (hr : GaugedRec S M e a a') (hi : StepInv S rigid a)
    (hi' : StepInv (gauged S M e) rigid a') (hb : Balanced S a) {tol : K} (htol : 0 ≤ tol) (hno : NoDirection S tol a) :
    NoDirection (gauged S M e) tol a' := by
  have hs' := gauged_sound hs hg
  intro y h1 h2
  refine hno (trunc S.n (fun c => y c + 1 * e c)) (fun r hra => trunc_zero (fun hrn => ?_)) (fun r hrn hra => ?_)
  · have e1 := h1 r (by rw [gauged_active hs hg hr hi hi' tol hrn]; exact hra)
    have e2 : e r = 0 := by
      by_contra hne
      rw [(gauge_active hs hg hb hi htol hne).2] at hra; cases hra
    rw [e1, e2]; ring
  · have hact : (gauged S M e).active tol a'.x a'.q r = true := by rw [gauged_active hs hg hr hi hi' tol hrn]; exact hra
    have hgr := (hs.active_num hi hrn hra).1
    have e1 := h2 r hrn hact
    rw [hs'.mulVec hgr] at e1
    injection e1 with e1
    have e1 : apply S M y r = S.dq r - apply S M e r := e1
    rw [mulVec_congr (fun c hc => trunc_eq _ hc) r, hs.mulVec hgr, apply_lin, e1]
    congr 1
    ring

/-- The direction in the moving frame. -/
theorem gauged_direction (hs : Sound S M rigid) (hg : Gauge S M rigid e) (hr : GaugedRec S M e a a') (hi : StepInv S rigid a)
    (hi' : StepInv (gauged S M e) rigid a') (hb : Balanced S a) (htol : 0 ≤ o.tol) (hp : o.perm.Perm (List.range S.n)) (hlin : GoodLin o.lin)
    (hreg : RegularAt S o.tol a) :
    ∃ dx dx', S.direction o a = some dx ∧ (gauged S M e).direction o a' = some dx' ∧ ∀ c, c < S.n → dx' c = dx c - e c := by
  have hs' := gauged_sound hs hg
  have hreg' := gauged_regular hs hg hr hi hi' hreg
  obtain ⟨dx, hd, -⟩ := hs.direction_perm hi hp hp rfl hlin hlin hreg
  obtain ⟨dx', hd', -⟩ := hs'.direction_perm hi' hp hp rfl hlin hlin hreg'
  refine ⟨dx, dx', hd, hd', ?_⟩
  have key := hs.regular hi hreg (trunc S.n (fun c => (dx' c + 1 * e c) + -1 * dx c)) (fun r hra => trunc_zero (fun hrn => ?_)) ?_
  · intro c hc
    have := key c hc
    rw [trunc_eq _ hc] at this
    have h1 : dx' c = dx c - e c + ((dx' c + 1 * e c) + -1 * dx c) := by ring
    rw [h1, this, add_zero]
  · have e1 : dx' r = 0 := direction_zero hd' (by rw [gauged_active hs hg hr hi hi' o.tol hrn]; exact hra)
    have e2 : e r = 0 := by
      by_contra hne
      rw [(gauge_active hs hg hb hi htol hne).2] at hra; cases hra
    rw [e1, e2, direction_zero hd hra]; ring
  · intro r hrn hra
    have e1 := hs.exact hlin.1 hp hi hd r hrn hra
    have e2 := hs'.exact hlin.1 hp hi' hd' r hrn (by rw [gauged_active hs hg hr hi hi' o.tol hrn]; exact hra)
    have e2 : apply S M dx' r = S.dq r - apply S M e r := e2
    rw [apply_congr (fun c hc => trunc_eq _ hc) r, apply_lin, apply_lin, e1, e2]
    ring

/-- A step in the moving frame. -/
theorem gauged_step (hs : Sound S M rigid) (hg : Gauge S M rigid e) (hr : GaugedRec S M e a a') (hi : StepInv S rigid a)
    (hi' : StepInv (gauged S M e) rigid a') (hb : Balanced S a) (htol : 0 ≤ o.tol) (hp : o.perm.Perm (List.range S.n)) (hlin : GoodLin o.lin)
    (hreg : RegularAt S o.tol a ∨ NoDirection S o.tol a) :
    (∃ err, S.step o a = .error err ∧ (gauged S M e).step o a' = .error err) ∨
      ∃ b b', S.step o a = .ok b ∧ (gauged S M e).step o a' = .ok b' ∧ GaugedRec S M e b b' := by
  have hs' := gauged_sound hs hg
  have hact : ∀ r, r < S.n → (gauged S M e).active o.tol a'.x a'.q r = S.active o.tol a.x a.q r :=
    fun r hrn => gauged_active hs hg hr hi hi' o.tol hrn
  have hlow : ∀ r, r < S.nK → Cell.lt (.fin o.tol) (S.resid a.x a.q r) = false := by
    intro r hk
    rcases hb r hk with e | e
    · rw [e]; rfl
    · rw [e, ← Bool.not_eq_true, Cell.lt_fin_iff]; exact not_lt.2 htol
  have hlim : ∀ v v' : ℕ → Cell K, (∀ r, S.nK ≤ r → r < S.n → v' r = v r) →
      (gauged S M e).limiting o a' v' = S.limiting o a v := by
    intro v v' hv
    unfold Sys.limiting
    refine List.filter_congr ?_
    intro r hrn
    have hrn : r < S.n := List.mem_range.1 hrn
    rw [gauged_resid hs hg hr hi hi' hrn]
    by_cases hk : r < S.nK
    · rw [hlow r hk]; rfl
    · rw [hv r (by omega) hrn]
  rcases hreg with hreg | hno
  · obtain ⟨dx, dx', hd, hd', hdx⟩ := gauged_direction hs hg hr hi hi' hb htol hp hlin hreg
    have e1 := errSq_exact hs hi hp hlin.1 hd
    have e2 := errSq_exact hs' hi' hp hlin.1 hd'
    have hrate : ∀ r, S.nK ≤ r → r < S.n → (gauged S M e).rate dx' r = S.rate dx r := by
      intro r hk hrn
      have hgr : ¬ rigid r := fun hh => by have := hs.lt r hh; omega
      rw [hs'.rate hgr, hs.rate hgr]
      congr 1
      have e3 : apply (gauged S M e) M dx' r = apply S M dx r + -1 * apply S M e r := by
        rw [← apply_lin]
        exact apply_congr (S := S) (fun c hc => by rw [hdx c hc]; ring) r
      rw [e3]
      simp only [gauged]
      ring
    have hl := hlim _ _ hrate
    have hmin : ((gauged S M e).limiting o a' ((gauged S M e).rate dx')).map
          (fun r => (gauged S M e).resid a'.x a'.q r / (gauged S M e).rate dx' r) =
        (S.limiting o a (S.rate dx)).map (fun r => S.resid a.x a.q r / S.rate dx r) := by
      rw [hl]
      refine List.map_congr_left ?_
      intro r hrl
      obtain ⟨m1, m2⟩ := List.mem_filter.1 hrl
      have hrn := List.mem_range.1 m1
      have hk : S.nK ≤ r := by
        by_contra hk
        rw [hlow r (by omega)] at m2
        cases m2
      rw [gauged_resid hs hg hr hi hi' hrn, hrate r hk hrn]
    unfold Sys.step
    rw [hd, hd']
    simp only [e1, e2]
    rw [hmin, hl]
    split_ifs with c1 c2
    · exact Or.inl ⟨_, rfl, rfl⟩
    · exact Or.inl ⟨_, rfl, rfl⟩
    · cases minCells ((S.limiting o a (S.rate dx)).map (fun r => S.resid a.x a.q r / S.rate dx r)) with
      | none => exact Or.inl ⟨_, rfl, rfl⟩
      | some t =>
        refine Or.inr ⟨_, _, rfl, rfl, ?_, ?_, ?_, ?_, ?_, rfl⟩
        · intro c hc
          simp only [hr.x c hc, hdx c hc]
          ring
        · intro r hrn
          simp only [hr.q r hrn]
          simp only [gauged, add_assoc, Cell.fin_add_fin]
          congr 2
          ring
        · simp only [hr.Z]
        · simp only [hr.Z]; rfl
        · intro r hrn
          exact hact r hrn
  · have hd := noDirection_none hs hi hp hlin.1 hno
    have hd' := noDirection_none hs' hi' hp hlin.1 (gauged_noDirection hs hg hr hi hi' hb htol hno)
    have hm : ∀ c, c < S.n → (c ∈ (gauged S M e).actives o a' ↔ c ∈ S.actives o a) := by
      intro c hc
      rw [mem_actives hp, mem_actives (S := gauged S M e) hp, hact c hc]
      rfl
    left
    unfold Sys.step
    rw [hd, hd']
    simp only
    rw [hlim (fun r => if (List.range S.n).any (fun c => decide (c ∈ S.actives o a) && decide (S.P r c ≠ .fin 0)) = true
      then .nan else .fin (S.dq r))]
    · split_ifs
      · exact ⟨_, rfl, rfl⟩
      · exact ⟨_, rfl, rfl⟩
    · intro r hk hrn
      have hany : (List.range (gauged S M e).n).any (fun c => decide (c ∈ (gauged S M e).actives o a') &&
          decide ((gauged S M e).P r c ≠ .fin 0)) =
          (List.range S.n).any (fun c => decide (c ∈ S.actives o a) && decide (S.P r c ≠ .fin 0)) := by
        rw [Bool.eq_iff_iff, List.any_eq_true, List.any_eq_true]
        refine exists_congr (fun c => and_congr_right (fun hc => ?_))
        rw [Bool.and_eq_true, Bool.and_eq_true, decide_eq_true_eq, decide_eq_true_eq, hm c (List.mem_range.1 hc),
          decide_eq_true_eq, decide_eq_true_eq]
        rfl
      rw [hany]
      split_ifs with hc
      · rfl
      · have hgr : ¬ rigid r := fun hh => by have := hs.lt r hh; omega
        have : apply S M e r = 0 := by
          refine Finset.sum_eq_zero (fun c hcn => ?_)
          by_cases he : e c = 0
          · rw [he, mul_zero]
          · obtain ⟨g1, g2⟩ := gauge_active hs hg hb hi htol he
            rw [Bool.not_eq_true, List.any_eq_false] at hc
            have := hc c hcn
            rw [Bool.and_eq_true, decide_eq_true_eq, decide_eq_true_eq, not_and, not_not] at this
            have := this ((mem_actives hp c).2 ⟨g1, g2⟩)
            rw [hs.num r c (fun hh => hgr hh.1)] at this
            injection this with this
            rw [this, zero_mul]
        simp only [gauged]
        rw [this, sub_zero]

/-- The loop in the moving frame. -/
theorem gauged_loop (hs : Sound S M rigid) (hg : Gauge S M rigid e) (htol : 0 ≤ o.tol) (hp : o.perm.Perm (List.range S.n))
    (hlin : GoodLin o.lin) (n : ℕ) {a a' : Rec K} (hr : GaugedRec S M e a a') (hi' : StepInv (gauged S M e) rigid a')
    (hgood : ∀ b ∈ a :: (S.loop o n a).1, StepInv S rigid b ∧ Balanced S b ∧
      (Cell.lt b.rlambda o.packing = true → RegularAt S o.tol b ∨ NoDirection S o.tol b)) :
    List.Forall₂ (GaugedRec S M e) (S.loop o n a).1 ((gauged S M e).loop o n a').1 ∧ ((gauged S M e).loop o n a').2 = (S.loop o n a).2 := by
  induction n generalizing a a' with
  | zero => exact ⟨List.Forall₂.nil, rfl⟩
  | succ n ih =>
    obtain ⟨g1, g2, g3⟩ := hgood a (by simp)
    unfold Sys.loop at hgood ⊢
    rw [hr.lam]
    split_ifs at hgood ⊢ with hl
    · rcases gauged_step hs hg hr g1 hi' g2 htol hp hlin (g3 hl) with ⟨er, e1, e2⟩ | ⟨b, b', e1, e2, hb⟩
      · rw [e1, e2]; exact ⟨List.Forall₂.nil, rfl⟩
      · rw [e1] at hgood
        simp only at hgood
        rw [e1, e2]
        obtain ⟨_, _, _, hst⟩ := (gauged_sound hs hg).step hi' e2
        have := ih hb hst.inv (fun c hc => hgood c (List.mem_cons_of_mem _ hc))
        exact ⟨List.Forall₂.cons hb this.1, this.2⟩
    · exact ⟨List.Forall₂.nil, rfl⟩

/-- Recorded states are balanced. -/
theorem run_balanced (hs : Sound S M rigid) (htol : 0 ≤ o.tol) (hp : o.perm.Perm (List.range S.n)) (hlin : ExactLin o.lin) :
    ∀ b ∈ (S.run o).1, StepInv S rigid b ∧ Balanced S b := by
  intro b hb
  obtain ⟨k, hk⟩ := List.mem_iff_getElem?.1 hb
  have hi := hs.inv hk
  refine ⟨hi, fun r hr => ?_⟩
  by_cases hg : rigid r
  · exact Or.inl (hs.resid_rigid hi hg)
  · right
    obtain ⟨h1, h2⟩ := hs.force r hr
    rw [hs.resid hi hg h1, gap, hs.balance_exact hlin hp htol hr hg hk, h2]
    congr 1
    ring

/-- The run in the moving frame; its states are regular where those of the first run are. -/
theorem gauged_run (hs : Sound S M rigid) (hg : Gauge S M rigid e) (htol : 0 ≤ o.tol) (hp : o.perm.Perm (List.range S.n))
    (hlin : GoodLin o.lin)
    (hreg : ∀ a ∈ (S.run o).1, Cell.lt a.rlambda o.packing = true → RegularAt S o.tol a ∨ NoDirection S o.tol a) :
    List.Forall₂ (GaugedRec S M e) (S.run o).1 ((gauged S M e).run o).1 ∧ ((gauged S M e).run o).2 = (S.run o).2 ∧
    ∀ a ∈ ((gauged S M e).run o).1, Cell.lt a.rlambda o.packing = true →
      RegularAt (gauged S M e) o.tol a ∨ NoDirection (gauged S M e) o.tol a := by
  have hbal := run_balanced hs htol hp hlin.1
  have hinit : GaugedRec S M e (S.init o) ((gauged S M e).init o) := by
    refine ⟨fun c _ => ?_, fun r _ => ?_, rfl, rfl, fun r _ => rfl, rfl⟩
    · simp [Sys.init]
    · simp only [Sys.init, sub_self, zero_mul, neg_zero]
      exact (add_zero (S.q0 r)).symm
  have hloop := gauged_loop hs hg htol hp hlin o.itermax hinit ((gauged_sound hs hg).inv_init o)
    (fun b hb => ⟨(hbal b hb).1, (hbal b hb).2, fun hl => hreg b hb hl⟩)
  have hrun : List.Forall₂ (GaugedRec S M e) (S.run o).1 ((gauged S M e).run o).1 := List.Forall₂.cons hinit hloop.1
  refine ⟨hrun, hloop.2, ?_⟩
  intro a' ha' hl
  have hi' := (run_balanced (o := o) (gauged_sound hs hg) htol hp hlin.1 a' ha').1
  obtain ⟨k, hk⟩ := List.mem_iff_getElem?.1 ha'
  have hlen := hrun.length_eq
  have hkl : k < (S.run o).1.length := by rw [hlen]; exact (List.getElem?_eq_some_iff.1 hk).1
  have hr : GaugedRec S M e ((S.run o).1[k]) a' := by
    have := hrun.get hkl (by rw [← hlen]; exact hkl)
    rw [List.getElem?_eq_getElem (by rw [← hlen]; exact hkl)] at hk
    simp only [List.get_eq_getElem] at this
    injection hk with hk
    rw [hk] at this
    exact this
  have hmem : (S.run o).1[k] ∈ (S.run o).1 := List.getElem_mem hkl
  have hi := hbal _ hmem
  rcases hreg _ hmem (by rw [← hr.lam]; exact hl) with h | h
  · exact Or.inl (gauged_regular hs hg hr hi.1 hi' h)
  · exact Or.inr (gauged_noDirection hs hg hr hi.1 hi' hi.2 htol h)

end Fibermat
