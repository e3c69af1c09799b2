import Verif.Props.Solver

/-! Why the solver stops. -/

set_option linter.unusedSectionVars false
set_option linter.unusedSimpArgs false

namespace Fibermat
variable {K : Type} [Field K] [LinearOrder K]
open Spec

/-- A loop that did not end by the target or the iterations stopped on its last record. -/
theorem loop_stop (S : Sys K) (o : Opts K) (n : ℕ) (a : Rec K) {e : Stop} (h : (S.loop o n a).2 = e) (he : e ≠ .reached) :
    ∃ b, (a :: (S.loop o n a).1).getLast? = some b ∧ Cell.lt b.rlambda o.packing = true ∧ S.step o b = .error e := by
  induction n generalizing a with
  | zero => exact absurd h.symm he
  | succ n ih =>
    unfold Sys.loop at h ⊢
    split_ifs at h ⊢ with hl
    · cases hst : S.step o a with
      | error e' =>
        rw [hst] at h
        simp only at h
        subst h
        exact ⟨a, rfl, hl, hst⟩
      | ok b =>
        rw [hst] at h
        simp only at h ⊢
        obtain ⟨c, h1, h2⟩ := ih b h
        exact ⟨c, by rw [List.getLast?_cons_cons]; exact h1, h2⟩
    · exact absurd h.symm he

theorem step_ne_reached (S : Sys K) (o : Opts K) (b : Rec K) : S.step o b ≠ .error .reached := by
  intro hb
  unfold Sys.step at hb
  cases hd : S.direction o b with
  | none =>
    rw [hd] at hb
    simp only at hb
    split_ifs at hb <;> cases hb
  | some dx =>
    rw [hd] at hb
    simp only at hb
    split_ifs at hb
    · cases hb
    · cases hb
    · split at hb <;> cases hb

variable [IsStrictOrderedRing K] {S : Sys K} {M : ℕ → ℕ → K} {rigid : ℕ → Prop} {o : Opts K}

/-- When the linear solver answers, the step has a finite length. -/
theorem Sound.step_some (h : Sound S M rigid) {a : Rec K} (hi : StepInv S rigid a) {dx : ℕ → K}
    (hd : S.direction o a = some dx) : S.step o a ≠ .error .unmodelled := by
  intro hs
  unfold Sys.step at hs
  rw [hd] at hs
  simp only at hs
  split_ifs at hs with h1 h2
  · cases hs
  · cases hs
  obtain ⟨t, ht⟩ := minCells_some (l := (S.limiting o a (S.rate dx)).map (fun r => S.resid a.x a.q r / S.rate dx r))
    (by simpa using h1) (by
      intro x hx
      obtain ⟨r, hr, rfl⟩ := List.mem_map.1 hx
      simp only [Sys.limiting, List.mem_filter, List.mem_range, Bool.and_eq_true] at hr
      obtain ⟨r1, r2, r3⟩ := hr
      rcases h.cases r1 with hg | ⟨hg, hb, -, hdq, hM⟩ | ⟨hg, c, hb⟩
      · rw [h.resid_rigid hi hg] at r2; cases r2
      · rw [h.rate hg, Cell.lt_fin_iff, hdq] at r3
        have : apply S M dx r = 0 := by
          unfold apply; apply Finset.sum_eq_zero; intro c _; rw [hM]; ring
        rw [this] at r3; simp at r3
      · rw [h.rate hg, Cell.lt_fin_iff] at r3
        rw [h.resid hi hg hb, h.rate hg, Cell.fin_div_fin r3.ne']
        exact ⟨_, rfl⟩)
  rw [ht] at hs
  cases hs

/-- The error of an exact answer is zero. -/
theorem Sound.err_zero (h : Sound S M rigid) (hlin : ExactLin o.lin) (hp : o.perm.Perm (List.range S.n)) {a : Rec K}
    (hi : StepInv S rigid a) {dx : ℕ → K} (hd : S.direction o a = some dx) :
    S.errSq (S.active o.tol a.x a.q) dx = .fin 0 := by
  have hoff : ∀ r, S.active o.tol a.x a.q r = false → dx r = 0 := fun r hr => direction_zero hd hr
  have hact : ∀ r, S.active o.tol a.x a.q r = true → ¬ rigid r := by
    intro r hr hg
    rw [h.not_active_rigid hi hg] at hr; cases hr
  rw [errSq_eq h hact hoff]
  congr 1
  have hex := h.exact hlin hp hi hd
  apply List.sum_eq_zero
  intro x hx
  obtain ⟨r, hr, rfl⟩ := List.mem_map.1 hx
  obtain ⟨h1, h2⟩ := List.mem_filter.1 hr
  rw [hex r (List.mem_range.1 h1) h2]; ring

/-! ## Rows of the assembled system -/

section
variable {mat : Mat K} {rows : List (MeshRow K)} {Km : Coo (Cell K)} {cs : ConstraintSys K} {hs : List K}
  {l : List (Contact K)} {T : ℕ → ℕ → K}

theorem Contacts.q0 (hc : Contacts mat rows cs hs l) (hN : Km.nrows = 2 * rows.length) {k d : ℕ} {x : Contact K}
    (hk : l[k]? = some x) (hd : d < 3) :
    (assemble Km cs).q0 (2 * rows.length + (3 * k + d)) = ((contactBounds cs.Z x)[d]?).getD (.fin 0) := by
  have hnl : ¬ 2 * rows.length + (3 * k + d) < 2 * rows.length := by omega
  simp only [assemble, hN, if_neg hnl, Nat.add_sub_cancel_left, List.getD_eq_getElem?_getD, hc.bound hk hd]

theorem Contacts.dq (hc : Contacts mat rows cs hs l) (hN : Km.nrows = 2 * rows.length) {k d : ℕ} {x : Contact K}
    (hk : l[k]? = some x) (hd : d < 3) :
    (assemble Km cs).dq (2 * rows.length + (3 * k + d)) = if d = 2 then 1 else 0 := by
  have hnl : ¬ 2 * rows.length + (3 * k + d) < 2 * rows.length := by omega
  have hkl := (List.getElem?_eq_some_iff.1 hk).1
  simp only [assemble, hN, if_neg hnl, Nat.add_sub_cancel_left]
  rw [hc.incr (by omega)]
  have : (3 * k + d) % 3 = d := by omega
  rw [this]

/-- The three gaps of a contact. -/
def geoGap (mat : Mat K) (rows : List (MeshRow K)) (Z : K) (u : ℕ → K) (x : Contact K) (d : ℕ) : K :=
  if d = 0 then floorGap mat rows u x.i else if d = 1 then pairGap mat rows u x.i x.j else roofGap mat rows Z u x.j

theorem Contacts.isPair (hc : Contacts mat rows cs hs l) {x : Contact K} (hx : x ∈ l) : IsPair rows x.i x.j := by
  have := hc.contact x hx
  obtain ⟨r, p, h1, -, h2, -⟩ := this.rows
  exact ⟨this.le, r, h1, h2⟩

theorem Contacts.ofPair (hc : Contacts mat rows cs hs l) {i j : ℕ} (h : IsPair rows i j) :
    ∃ (k : ℕ) (x : Contact K), l[k]? = some x ∧ x.i = i ∧ x.j = j := by
  obtain ⟨hle, r, hr, hj⟩ := h
  obtain ⟨x, hx, rfl⟩ := hc.all i r hr (by omega)
  obtain ⟨k, hk⟩ := List.mem_iff_getElem?.1 hx
  refine ⟨k, x, hk, rfl, ?_⟩
  obtain ⟨r', p, h1, -, h2, -⟩ := (hc.contact x hx).rows
  rw [hr] at h1; cases h1
  omega

/-- A contact row is active exactly when its gap is closed (the middle row of a node without partner is never active). -/
theorem Contacts.active (hc : Contacts mat rows cs hs l) (hN : Km.nrows = 2 * rows.length)
    (hsd : Sound (assemble Km cs) (wholeTable (2 * rows.length) T cs.C) rigid)
    (hn : (assemble Km cs).n = 2 * rows.length + 3 * l.length) {a : Rec K} (hi : StepInv (assemble Km cs) rigid a) {k d : ℕ}
    {x : Contact K} (hk : l[k]? = some x) (hd : d < 3) (tol : K) :
    (assemble Km cs).active tol a.x a.q (2 * rows.length + (3 * k + d)) = true ↔
      (d = 1 → x.i ≠ x.j) ∧ geoGap mat rows a.Z a.x x d ≤ tol := by
  have hxl := List.mem_of_getElem? hk
  have hkl := (List.getElem?_eq_some_iff.1 hk).1
  have hlt := hc.lt x hxl
  obtain ⟨i1, i2, e1, e2, e3, e4⟩ := contact_data hc.thick (hc.contact x hxl)
  have hnr : ¬ rigid (2 * rows.length + (3 * k + d)) := by
    intro hr
    have : _ < Km.nrows := hsd.lt _ hr
    omega
  have hq := hc.q0 (Km := Km) hN hk hd
  have hrow := hc.row hk hd a.x
  have hap := apply_constraint (N := 2 * rows.length) (T := T) (C := cs.C) hn (by rw [hc.C]) a.x (3 * k + d)
  have hdq := hc.dq (Km := Km) hN hk hd
  have hcol : ∀ s, s < 2 * rows.length → wholeTable (2 * rows.length) T cs.C s (2 * rows.length + (3 * k + d)) =
      cs.C.get (3 * k + d) s := by
    intro s hs'
    simp [wholeTable, hs']
  have hZ0 : (assemble Km cs).Z0 = cs.Z := rfl
  rcases (by omega : d = 0 ∨ d = 1 ∨ d = 2) with rfl | rfl | rfl
  · have hb : (assemble Km cs).q0 (2 * rows.length + (3 * k + 0)) = .fin (x.zi - x.hi / 2) := by
      rw [hq]; rfl
    rw [hsd.active_iff hi hnr hb]
    have : gap (assemble Km cs) (wholeTable (2 * rows.length) T cs.C) a (x.zi - x.hi / 2) (2 * rows.length + (3 * k + 0)) =
        geoGap mat rows a.Z a.x x 0 := by
      simp only [gap, hap, hrow, hdq, geoGap, floorGap, if_true, e1, e3]
      simp; ring
    rw [this]
    constructor
    · rintro ⟨h, -⟩; exact ⟨by omega, h⟩
    · rintro ⟨-, h⟩
      refine ⟨h, 2 * x.i, by omega, ?_⟩
      rw [hcol _ (by omega), hc.entry hk (by omega) (by omega)]; simp
  · by_cases hij : x.i = x.j
    · have hb : (assemble Km cs).q0 (2 * rows.length + (3 * k + 1)) = .pinf := by
        rw [hq]; simp [contactBounds, hij]
      rw [hsd.not_active_inf hi hnr hb]
      constructor
      · intro h; cases h
      · rintro ⟨h, -⟩; exact absurd hij (h rfl)
    · have hb : (assemble Km cs).q0 (2 * rows.length + (3 * k + 1)) = .fin (x.zj - x.zi - (x.hi + x.hj) / 2) := by
        rw [hq]; simp [contactBounds, hij]
      rw [hsd.active_iff hi hnr hb]
      have : gap (assemble Km cs) (wholeTable (2 * rows.length) T cs.C) a (x.zj - x.zi - (x.hi + x.hj) / 2)
          (2 * rows.length + (3 * k + 1)) = geoGap mat rows a.Z a.x x 1 := by
        simp only [gap, hap, hrow, hdq, geoGap, pairGap, e1, e2, e3, e4]
        simp; ring
      rw [this]
      constructor
      · rintro ⟨h, -⟩; exact ⟨fun _ => hij, h⟩
      · rintro ⟨-, h⟩
        refine ⟨h, 2 * x.i, by omega, ?_⟩
        rw [hcol _ (by omega), hc.entry hk (by omega) (by omega)]
        have : ¬ (2 * x.j = 2 * x.i) := by omega
        simp [this, Ne.symm hij]
  · have hb : (assemble Km cs).q0 (2 * rows.length + (3 * k + 2)) = .fin (cs.Z - x.zj - x.hj / 2) := by
      rw [hq]; rfl
    rw [hsd.active_iff hi hnr hb]
    have : gap (assemble Km cs) (wholeTable (2 * rows.length) T cs.C) a (cs.Z - x.zj - x.hj / 2)
        (2 * rows.length + (3 * k + 2)) = geoGap mat rows a.Z a.x x 2 := by
      simp only [gap, hap, hrow, hdq, geoGap, roofGap, e2, e4, hZ0]
      simp; ring
    rw [this]
    constructor
    · rintro ⟨h, -⟩; exact ⟨by omega, h⟩
    · rintro ⟨-, h⟩
      refine ⟨h, 2 * x.j, by omega, ?_⟩
      rw [hcol _ (by omega), hc.entry hk (by omega) (by omega)]; simp

/-- The displacement rows of the nodes of a contact are always active in an exact run. -/
theorem Contacts.active_node (hc : Contacts mat rows cs hs l) (hN : Km.nrows = 2 * rows.length)
    (hsd : Sound (assemble Km cs) (wholeTable (2 * rows.length) T cs.C) rigid)
    (hn : (assemble Km cs).n = 2 * rows.length + 3 * l.length) (hodd : ∀ r, rigid r → r % 2 = 1)
    (hlin : ExactLin o.lin) (hp : o.perm.Perm (List.range (assemble Km cs).n)) (htol : 0 ≤ o.tol) {m : ℕ} {a : Rec K}
    (ha : ((assemble Km cs).run o).1[m]? = some a) {x : Contact K} (hx : x ∈ l) {i : ℕ} (hix : i = x.i ∨ i = x.j) :
    (assemble Km cs).active o.tol a.x a.q (2 * i) = true := by
  obtain ⟨k, hk⟩ := List.mem_iff_getElem?.1 hx
  have hkl := (List.getElem?_eq_some_iff.1 hk).1
  have hlt := hc.lt x hx
  have hi := hsd.inv ha
  have hrg : ¬ rigid (2 * i) := by intro hr; have := hodd _ hr; omega
  have hr : 2 * i < 2 * rows.length := by omega
  have hr' : 2 * i < (assemble Km cs).nK := by change _ < Km.nrows; omega
  obtain ⟨f1, f2⟩ := hsd.force (2 * i) hr'
  rw [hsd.active_iff hi hrg f1]
  constructor
  · rw [gap, f2, hsd.balance_exact hlin hp htol hr' hrg ha]; simpa using htol
  · have hcol : ∀ d, wholeTable (2 * rows.length) T cs.C (2 * rows.length + (3 * k + d)) (2 * i) = cs.C.get (3 * k + d) (2 * i) := by
      intro d; simp [wholeTable, hr]
    rcases hix with rfl | rfl
    · refine ⟨2 * rows.length + (3 * k + 0), by omega, ?_⟩
      rw [hcol, hc.entry hk (by omega) hr]; simp
    · refine ⟨2 * rows.length + (3 * k + 2), by omega, ?_⟩
      rw [hcol, hc.entry hk (by omega) hr]; simp

/-- A linear solver without answer blocks the run. -/
theorem Contacts.step_none (hc : Contacts mat rows cs hs l) (hN : Km.nrows = 2 * rows.length)
    (hsd : Sound (assemble Km cs) (wholeTable (2 * rows.length) T cs.C) rigid)
    (hn : (assemble Km cs).n = 2 * rows.length + 3 * l.length) (hodd : ∀ r, rigid r → r % 2 = 1)
    (hlin : ExactLin o.lin) (hp : o.perm.Perm (List.range (assemble Km cs).n)) (htol : 0 ≤ o.tol) {m : ℕ} {a : Rec K}
    (ha : ((assemble Km cs).run o).1[m]? = some a) (hd : (assemble Km cs).direction o a = none) :
    (assemble Km cs).step o a = .error .blocked := by
  unfold Sys.step
  rw [hd]
  simp only
  rw [if_pos]
  rw [List.eq_nil_iff_forall_not_mem]
  intro r hr
  simp only [Sys.limiting, List.mem_filter, List.mem_range, Bool.and_eq_true] at hr
  obtain ⟨r1, -, r3⟩ := hr
  split_ifs at r3 with hany
  · cases r3
  · rw [Cell.lt_fin_iff] at r3
    apply hany
    by_cases hrN : r < 2 * rows.length
    · have : r < (assemble Km cs).nK := by change _ < Km.nrows; omega
      rw [(hsd.force r this).2] at r3
      exact absurd r3 (lt_irrefl _)
    · obtain ⟨q, d, hd3, rfl⟩ : ∃ q d, d < 3 ∧ r = 2 * rows.length + (3 * q + d) :=
        ⟨(r - 2 * rows.length) / 3, (r - 2 * rows.length) % 3, by omega, by omega⟩
      have hq : l[q]? = some l[q] := List.getElem?_eq_getElem (by omega)
      generalize l[q] = x at hq
      have hxl := List.mem_of_getElem? hq
      have hlt := hc.lt x hxl
      rw [hc.dq hN hq hd3] at r3
      have hd2 : d = 2 := by
        by_contra hne
        rw [if_neg hne] at r3
        exact lt_irrefl _ r3
      subst hd2
      rw [List.any_eq_true]
      refine ⟨2 * x.j, List.mem_range.2 (by omega), ?_⟩
      rw [Bool.and_eq_true, decide_eq_true_eq, decide_eq_true_eq]
      refine ⟨(mem_actives hp _).2 ⟨by omega, hc.active_node hN hsd hn hodd hlin hp htol ha hxl (Or.inr rfl)⟩, ?_⟩
      rw [hsd.num _ _ (by
        rintro ⟨h1, -⟩
        have : _ < Km.nrows := hsd.lt _ h1
        omega)]
      intro he
      have he : wholeTable (2 * rows.length) T cs.C (2 * rows.length + (3 * q + 2)) (2 * x.j) = 0 := by simpa using he
      simp only [wholeTable, hlt.2, if_true] at he
      rw [if_neg (by omega), Nat.add_sub_cancel_left, hc.entry hq (by omega) hlt.2] at he
      simp at he

/-- Rate at which the gaps of a contact close. -/
theorem Contacts.rates (hc : Contacts mat rows cs hs l) (hN : Km.nrows = 2 * rows.length)
    (hn : (assemble Km cs).n = 2 * rows.length + 3 * l.length) {k d : ℕ} {x : Contact K} (hk : l[k]? = some x) (hd : d < 3)
    (dx : ℕ → K) : (assemble Km cs).dq (2 * rows.length + (3 * k + d)) -
      apply (assemble Km cs) (wholeTable (2 * rows.length) T cs.C) dx (2 * rows.length + (3 * k + d)) =
      if d = 0 then dx (2 * x.i) else if d = 1 then dx (2 * x.j) - dx (2 * x.i) else 1 - dx (2 * x.j) := by
  rw [hc.dq hN hk hd, apply_constraint (N := 2 * rows.length) (T := T) (C := cs.C) hn (by rw [hc.C]) dx (3 * k + d),
    hc.row hk hd dx]
  rcases (by omega : d = 0 ∨ d = 1 ∨ d = 2) with rfl | rfl | rfl <;> simp

/-- With at least one contact, an exact answer always leads to a step. -/
theorem Contacts.step_some (hc : Contacts mat rows cs hs l) (hN : Km.nrows = 2 * rows.length)
    (hsd : Sound (assemble Km cs) (wholeTable (2 * rows.length) T cs.C) rigid)
    (hn : (assemble Km cs).n = 2 * rows.length + 3 * l.length)
    (hlin : ExactLin o.lin) (hp : o.perm.Perm (List.range (assemble Km cs).n)) (herr : 0 ≤ o.errtol) {a : Rec K}
    (hi : StepInv (assemble Km cs) rigid a) (hne : l ≠ []) {dx : ℕ → K} (hd : (assemble Km cs).direction o a = some dx) :
    ∃ b, (assemble Km cs).step o a = .ok b := by
  cases hst : (assemble Km cs).step o a with
  | ok b => exact ⟨b, rfl⟩
  | error e =>
    exfalso
    have h1 := hsd.step_some hi hd
    have h2 := step_ne_reached (assemble Km cs) o a
    have he : e = .blocked := by
      cases e with
      | reached => exact absurd hst h2
      | unmodelled => exact absurd hst h1
      | blocked => rfl
    subst he
    have hz := hsd.err_zero hlin hp hi hd
    unfold Sys.step at hst
    rw [hd] at hst
    simp only at hst
    rw [hz] at hst
    have hg : errGt o.errtol (Cell.fin (0 : K)) = false := by
      simp only [errGt, Bool.or_eq_false_iff, decide_eq_false_iff_not, not_lt]
      exact ⟨herr, by positivity⟩
    rw [hg] at hst
    by_cases hlim : (assemble Km cs).limiting o a ((assemble Km cs).rate dx) = []
    · obtain ⟨x, l', rfl⟩ := List.exists_cons_of_ne_nil hne
      have hk : (x :: l')[0]? = some x := rfl
      have hex := hsd.exact hlin hp hi hd
      -- some row of the contact closes
      have hrate : ∀ d, d < 3 → (assemble Km cs).active o.tol a.x a.q (2 * rows.length + (3 * 0 + d)) = true →
          (if d = 0 then dx (2 * x.i) else if d = 1 then dx (2 * x.j) - dx (2 * x.i) else 1 - dx (2 * x.j)) = 0 := by
        intro d hd3 hact
        rw [← hc.rates (Km := Km) (T := T) hN hn hk hd3 dx, hex _ (by rw [hn]; simp only [List.length_cons]; omega) hact, sub_self]
      have hnot : ∀ d, d < 3 → (d = 1 → x.i ≠ x.j) →
          (if d = 0 then dx (2 * x.i) else if d = 1 then dx (2 * x.j) - dx (2 * x.i) else 1 - dx (2 * x.j)) ≤ 0 := by
        intro d hd3 hdj
        by_contra hpos
        push Not at hpos
        have hna : ¬ (assemble Km cs).active o.tol a.x a.q (2 * rows.length + (3 * 0 + d)) = true := by
          intro hact
          rw [hrate d hd3 hact] at hpos
          exact lt_irrefl _ hpos
        have hlt : 2 * rows.length + (3 * 0 + d) < (assemble Km cs).n := by
          rw [hn]; simp only [List.length_cons]; omega
        have hnr : ¬ rigid (2 * rows.length + (3 * 0 + d)) := by
          intro hr
          have : _ < Km.nrows := hsd.lt _ hr
          omega
        have hmem : 2 * rows.length + (3 * 0 + d) ∈ (assemble Km cs).limiting o a ((assemble Km cs).rate dx) := by
          simp only [Sys.limiting, List.mem_filter, List.mem_range, Bool.and_eq_true]
          refine ⟨hlt, ?_, ?_⟩
          · rcases hsd.cases hlt with hg | ⟨-, hb, -⟩ | ⟨-, c, hb⟩
            · exact absurd hg hnr
            · rw [hsd.resid_inf hi hnr hb]; rfl
            · rw [hsd.resid hi hnr hb, Cell.lt_fin_iff]
              by_contra hle
              apply hna
              rw [hsd.active_iff hi hnr hb]
              refine ⟨not_lt.1 hle, ?_⟩
              by_contra hz
              push Not at hz
              have := hsd.zero_rate hlt hnr hz dx
              rw [hc.rates (Km := Km) (T := T) hN hn hk hd3 dx] at this
              rw [this] at hpos
              exact lt_irrefl _ hpos
          · rw [hsd.rate hnr, Cell.lt_fin_iff, hc.rates (Km := Km) (T := T) hN hn hk hd3 dx]
            exact hpos
        rw [hlim] at hmem
        cases hmem
      have n0 := hnot 0 (by omega) (by omega)
      have n2 := hnot 2 (by omega) (by omega)
      simp at n0 n2
      by_cases hij : x.i = x.j
      · rw [hij] at n0; linarith
      · have n1 := hnot 1 (by omega) (fun _ => hij)
        simp at n1
        linarith
    · rw [if_neg hlim] at hst
      simp only [Bool.false_eq_true, if_false] at hst
      split at hst <;> cases hst

end

end Fibermat
