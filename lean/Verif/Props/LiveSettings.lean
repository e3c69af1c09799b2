import Verif.Spec.LiveSettings
import Verif.Props.WidgetsInit

/-! # C120: the settings during a notebook session, exceptions included -/

set_option linter.unusedSectionVars false
set_option linter.unusedSimpArgs false

namespace Fibermat
open Spec
variable {K : Type} [Field K] [LinearOrder K] [IsStrictOrderedRing K]

theorem hasSwitch_iff (name : Name) : name.hasSwitch = true ↔ Switched name := by
  simp [Name.hasSwitch, Switched, isModulus_iff, isOptional_iff]

theorem setSwitch_widgets (s : Live K) (name : Name) (on : Bool) : (s.setSwitch name on).widgets = toggle s.widgets name on := by
  unfold Live.setSwitch
  split_ifs with h
  · funext m
    unfold toggle setWidget
    split_ifs with e
    · subst e; rw [← h]
    · rfl
  · rfl

/-- C120: an assignment raises exactly when `C58` refuses it, and otherwise gives the settings of `C58`. -/
theorem C120_agrees (s : Live K) (name : Name) (v : PyVal K) :
    (∀ st, setItem s.widgets name v = .ok st → (s.setItem name v).2 = none ∧ (s.setItem name v).1.widgets = st) ∧
    (∀ e, setItem s.widgets name v = .error e → (s.setItem name v).2 = some e) := by
  have key : ∀ (b : Bool) (a : PyVal K), setWidget (toggle s.widgets name b) name ⟨a, b⟩ = setWidget s.widgets name ⟨a, b⟩ := by
    intro b a; funext m; simp only [setWidget, toggle]; split_ifs <;> rfl
  have key2 : ∀ b, toggle s.widgets name b name = ⟨(s.widgets name).value, b⟩ := by intro b; simp [toggle, setWidget]
  unfold Live.setItem setItem Live.setValue
  by_cases h1 : name.isModulus = true
  · by_cases h2 : v = .npInf
    · simp [h1, h2, setSwitch_widgets, toggle]
    · cases ha : assign name v <;> simp [h1, h2, setSwitch_widgets, Bind.bind, Except.bind, pure, Except.pure, key, key2]
  · by_cases h3 : name.isOptional = true
    · by_cases h2 : v = .none
      · simp [h1, h3, h2, setSwitch_widgets, toggle]
      · cases ha : assign name v <;> simp [h1, h3, h2, setSwitch_widgets, Bind.bind, Except.bind, pure, Except.pure, key, key2]
    · cases ha : assign name v <;> simp [h1, h3, Bind.bind, Except.bind, pure, Except.pure]

theorem live_raises_iff (s : Live K) (name : Name) (v : PyVal K) : (s.setItem name v).2 = none ↔ Accepts name v := by
  rw [← C58_accepts s.widgets name v]
  obtain ⟨h1, h2⟩ := C120_agrees s name v
  cases h : setItem s.widgets name v with
  | ok st => simp [(h1 st h).1]
  | error e => simp [h2 e h]

theorem assign_of_refused {name : Name} {v : PyVal K} (h : ¬ Accepts name v) :
    (∃ e, assign name v = .error e) ∧ ¬ Off name v := by
  constructor
  · cases name <;> cases v <;> simp [Accepts, Ticked, Optional, Integer] at h <;> simp [assign, sliderBounds, Name.isInt]
  · cases name <;> cases v <;> simp [Accepts, Ticked, Optional, Integer] at h <;> simp [Off, Modulus, Optional]

/-- After a refused assignment: nothing but the check box of the setting has moved, and it is on. -/
theorem live_refused {s : Live K} {name : Name} {v : PyVal K} (h : ¬ Accepts name v) :
    (s.setItem name v).1 = if name.hasSwitch then s.setSwitch name true else s := by
  obtain ⟨⟨e, he⟩, ho⟩ := assign_of_refused h
  unfold Live.setItem Live.setValue Name.hasSwitch
  by_cases h1 : name.isModulus = true
  · have h2 : v ≠ .npInf := fun h2 => ho (Or.inl ⟨(isModulus_iff _).1 h1, h2⟩)
    simp [h1, h2, he]
  · by_cases h3 : name.isOptional = true
    · have h2 : v ≠ .none := fun h2 => ho (Or.inr ⟨(isOptional_iff _).1 h3, h2⟩)
      simp [h1, h3, h2, he]
    · simp [h1, h3, he]

/-- C120: what a refused assignment leaves behind.  Every stored value is kept, every other setting reads as before, and so does the
setting itself if it has no check box or was on; but if it was off, it is now on and reads as the value stored before. -/
theorem C120_refused (floor : K → ℤ) {s s' : Live K} {name : Name} {v : PyVal K} {e : Err} (h : s.setItem name v = (s', some e)) :
    e = .typeError ∧ (∀ m, (s'.widgets m).value = (s.widgets m).value) ∧
    (∀ m, m ≠ name → getItem floor s'.widgets m = getItem floor s.widgets m) ∧
    (¬ Switched name ∨ (s.widgets name).switch = true → getItem floor s'.widgets name = getItem floor s.widgets name) ∧
    (Switched name → getItem floor s'.widgets name = (s.widgets name).value) := by
  have hA : ¬ Accepts name v := by
    rw [← live_raises_iff s name v, h]; simp
  have he : setItem s.widgets name v = .error e := by
    obtain ⟨h1, h2⟩ := C120_agrees s name v
    cases hs : setItem s.widgets name v with
    | ok st => have := (h1 st hs).1; rw [h] at this; cases this
    | error e' => have := h2 e' hs; rw [h] at this; cases this; rfl
  have hs : s' = if name.hasSwitch then s.setSwitch name true else s := by
    rw [← live_refused hA, h]
  have hw : s'.widgets = if name.hasSwitch then toggle s.widgets name true else s.widgets := by
    rw [hs]; split_ifs <;> simp [setSwitch_widgets]
  have hsw : Switched name → getItem floor s'.widgets name = (s.widgets name).value := by
    intro hn
    rw [hw, if_pos ((hasSwitch_iff _).2 hn)]
    rcases hn with (rfl | rfl) | (rfl | rfl | rfl | rfl | rfl) <;>
      simp [getItem, toggle, setWidget, Name.isModulus, Name.isOptional]
  refine ⟨C58_refused he, ?_, ?_, ?_, hsw⟩
  · intro m
    rw [hw]; split_ifs
    · simp only [toggle, setWidget]; split_ifs with e
      · rw [e]
      · rfl
    · rfl
  · intro m hm
    have : s'.widgets m = s.widgets m := by
      rw [hw]; split_ifs
      · simp [toggle, setWidget, hm]
      · rfl
    unfold getItem; rw [this]
  · intro hn
    have : s'.widgets name = s.widgets name := by
      rw [hw]; split_ifs with h1
      · rcases hn with hn | hn
        · exact absurd ((hasSwitch_iff _).1 h1) hn
        · simp [toggle, setWidget, ← hn]
      · rfl
    unfold getItem; rw [this]

/-- C120: a call that raises has carried out the writes before the refused one, as a call without exception, then the refused one as
in `C120_refused`; the later ones are not done. -/
theorem C120_call (s : Live K) (kw : List (Name × PyVal K)) :
    (∃ st, (s.call kw).2 = none ∧ callSettings s.widgets kw = .ok st ∧ (s.call kw).1.widgets = st ∧ ∀ p ∈ kw, Accepts p.1 p.2) ∨
    (∃ l name v l' s1, kw = l ++ (name, v) :: l' ∧ (∀ p ∈ l, Accepts p.1 p.2) ∧ ¬ Accepts name v ∧ s.call l = (s1, none) ∧
      s.call kw = s1.setItem name v) := by
  induction kw generalizing s with
  | nil => exact Or.inl ⟨s.widgets, rfl, rfl, rfl, by simp⟩
  | cons p kw ih =>
    obtain ⟨name, v⟩ := p
    by_cases hA : Accepts name v
    · have h0 := (live_raises_iff s name v).2 hA
      have h1 : s.setItem name v = ((s.setItem name v).1, none) := Prod.ext rfl h0
      have hc : ∀ k, s.call ((name, v) :: k) = (s.setItem name v).1.call k := by
        intro k; simp only [Live.call]; rw [h1]
      rcases ih (s.setItem name v).1 with ⟨st, h2, h3, h4, h5⟩ | ⟨l, n', v', l', s1, h2, h3, h4, h5, h6⟩
      · refine Or.inl ⟨st, by rw [hc]; exact h2, ?_, by rw [hc]; exact h4, ?_⟩
        · obtain ⟨st1, hst1⟩ := (C58_accepts s.widgets name v).2 hA
          rw [callSettings_cons, hst1]
          simp only [Except.bind]
          rw [← ((C120_agrees s name v).1 st1 hst1).2]; exact h3
        · intro q hq
          rcases List.mem_cons.1 hq with rfl | hq
          · exact hA
          · exact h5 q hq
      · refine Or.inr ⟨(name, v) :: l, n', v', l', s1, by rw [h2]; rfl, ?_, h4, by rw [hc]; exact h5, by rw [hc]; exact h6⟩
        intro q hq
        rcases List.mem_cons.1 hq with rfl | hq
        · exact hA
        · exact h3 q hq
    · refine Or.inr ⟨[], name, v, kw, s, rfl, by simp, hA, rfl, ?_⟩
      have : (s.setItem name v).2 ≠ none := fun h => hA ((live_raises_iff s name v).1 h)
      simp only [Live.call]
      rcases h : s.setItem name v with ⟨s', _ | e⟩
      · rw [h] at this; exact absurd rfl this
      · rfl

/-! ### Whole sessions -/

/-- A property of the settings kept by check boxes and accepted values is kept by sessions. -/
theorem session_induct {Q : Live K → Prop} (hsw : ∀ s name on, Switched name → Q s → Q (s.setSwitch name on))
    (hval : ∀ s name v, Q s → Q (s.setValue name v).1) {s : Live K} (h0 : Q s) (l : List (LiveOp K)) : Q (s.session l) := by
  have hset : ∀ s name v, Q s → Q (s.setItem name v).1 := by
    intro s name v hs
    unfold Live.setItem
    split_ifs with h1 h2 h3 h4
    · exact hsw _ _ _ (Or.inl ((isModulus_iff _).1 h1)) hs
    · exact hval _ _ _ (hsw _ _ _ (Or.inl ((isModulus_iff _).1 h1)) hs)
    · exact hsw _ _ _ (Or.inr ((isOptional_iff _).1 h3)) hs
    · exact hval _ _ _ (hsw _ _ _ (Or.inr ((isOptional_iff _).1 h3)) hs)
    · exact hval _ _ _ hs
  have hcall : ∀ (kw : List (Name × PyVal K)) s, Q s → Q (s.call kw).1 := by
    intro kw
    induction kw with
    | nil => exact fun s hs => hs
    | cons p kw ih =>
      intro s hs
      have h1 := hset s p.1 p.2 hs
      simp only [Live.call]
      rcases h : s.setItem p.1 p.2 with ⟨s', _ | e⟩
      · rw [h] at h1; exact ih _ h1
      · rw [h] at h1; exact h1
  unfold Live.session
  induction l generalizing s with
  | nil => exact h0
  | cons o l ih =>
    refine ih ?_
    cases o with
    | write name v => exact hset _ _ _ h0
    | call kw => exact hcall _ _ h0
    | click name on =>
      simp only [Live.act]
      split_ifs with h
      · exact hsw _ _ _ ((hasSwitch_iff _).1 h) h0
      · exact h0
    | edit name v =>
      simp only [Live.act]
      split_ifs
      · exact h0
      · exact hval _ _ _ h0

theorem setValue_switch (s : Live K) (name : Name) (v : PyVal K) (m : Name) :
    ((s.setValue name v).1.widgets m).switch = (s.widgets m).switch ∧ (s.setValue name v).1.disabled = s.disabled := by
  unfold Live.setValue
  cases assign name v with
  | error e => exact ⟨rfl, rfl⟩
  | ok a =>
    refine ⟨?_, rfl⟩
    simp only [setWidget]
    split_ifs with e
    · rw [e]
    · rfl

/-- C120: in every session from newly created settings, whatever exceptions were raised, a widget is grey exactly when its check box
is off. -/
theorem C120_grey {args : Name → PyVal K} {s : Live K} (h : liveNew args = .ok s) (l : List (LiveOp K)) : GreyIffOff (s.session l) := by
  refine session_induct (Q := GreyIffOff) ?_ ?_ ?_ l
  · intro s name on hn hs m
    unfold Live.setSwitch
    split_ifs with h
    · exact hs m
    · by_cases e : m = name
      · subst e
        simp only [toggle, setWidget, if_true]
        cases on <;> simp [hn]
      · simp only [toggle, setWidget, if_neg e]
        exact hs m
  · intro s name v hs m
    rw [(setValue_switch s name v m).1, (setValue_switch s name v m).2]
    exact hs m
  · unfold liveNew at h
    cases hs : settingsNew args with
    | error e => rw [hs] at h; cases h
    | ok st =>
      rw [hs] at h
      cases h
      intro m
      simp [hasSwitch_iff]

/-- C120: the sliders stay in range in every session. -/
theorem C120_ranges {floor : K → ℤ} (hf : IsFloor floor) {s : Live K} (hr : InRange s.widgets) (l : List (LiveOp K)) :
    (∃ a, getItem floor (s.session l).widgets .theta = .num a ∧ 0 ≤ a ∧ a ≤ npPi) ∧
    (∃ k : ℤ, getItem floor (s.session l).widgets .itermax = .num (k : K) ∧ 1 ≤ k ∧ k ≤ 1000000) ∧
    (∃ a, getItem floor (s.session l).widgets .tol = .num a ∧ 1 / 10000000000 ≤ a ∧ a ≤ 1 / 10) := by
  have : InRange (s.session l).widgets := by
    refine session_induct (Q := fun s => InRange s.widgets) ?_ ?_ hr l
    · intro s name on _ hs
      rw [setSwitch_widgets]
      have e : ∀ nm, (toggle s.widgets name on nm).value = (s.widgets nm).value := by
        intro nm
        simp only [toggle, setWidget]
        split_ifs with e
        · rw [e]
        · rfl
      simpa only [InRange, e] using hs
    · intro s name v hs
      by_cases hsl : Slider name
      · have hm : name.isModulus = false ∧ name.isOptional = false := by
          rcases hsl with rfl | rfl | rfl <;> exact ⟨rfl, rfl⟩
        have e : s.setValue name v = s.setItem name v := by simp [Live.setItem, hm.1, hm.2]
        rw [e]
        by_cases hA : Accepts name v
        · obtain ⟨st, hst⟩ := (C58_accepts s.widgets name v).2 hA
          rw [((C120_agrees s name v).1 st hst).2]
          exact setItem_ranges (floor := floor) hst hs
        · rw [live_refused hA]
          simpa [Name.hasSwitch, hm.1, hm.2] using hs
      · have e : ∀ nm, Slider nm → (s.setValue name v).1.widgets nm = s.widgets nm := by
          intro nm hnm
          have : nm ≠ name := fun e => hsl (e ▸ hnm)
          unfold Live.setValue
          cases assign name v with
          | error e => rfl
          | ok a => simp [setWidget, this]
        unfold InRange
        rw [e .theta (Or.inl rfl), e .itermax (Or.inr (Or.inl rfl)), e .tol (Or.inr (Or.inr rfl))]
        exact hs
  exact C58_ranges hf (l := []) (st := (s.session l).widgets) rfl this

/-! ### The check boxes are where the last event put them -/

theorem setItem_switch (s : Live K) (name : Name) (v : PyVal K) (m : Name) (hm : Switched m) (b : Bool) :
    (m ≠ name → ((s.setItem name v).1.widgets m).switch = (s.widgets m).switch) ∧
    (m = name → (b = false ↔ Off name v) → ((s.setItem name v).1.widgets m).switch = b) := by
  have h1 : ∀ on, ((s.setSwitch name on).widgets m).switch = if m = name then on else (s.widgets m).switch := by
    intro on
    rw [setSwitch_widgets]
    simp only [toggle, setWidget]
    split_ifs <;> rfl
  have h2 : ∀ (s : Live K), ((s.setValue name v).1.widgets m).switch = (s.widgets m).switch := fun s => (setValue_switch s name v m).1
  constructor
  · intro hne
    unfold Live.setItem
    split_ifs <;> simp [h1, h2, hne]
  · intro e hb
    subst e
    unfold Live.setItem
    rcases hm with hm | hm
    · have hm' := (isModulus_iff _).2 hm
      have ho : m.isOptional = false := by rcases hm with rfl | rfl <;> rfl
      have hno : ¬ Optional m := by rw [← isOptional_iff, ho]; simp
      by_cases hv : v = .npInf <;> cases b <;> simp [hm', hv, h1, h2, Off, hm, hno] at hb ⊢
    · have hm' := (isOptional_iff _).2 hm
      have ho : m.isModulus = false := by rcases hm with rfl | rfl | rfl | rfl | rfl <;> rfl
      have hno : ¬ Modulus m := by rw [← isModulus_iff, ho]; simp
      by_cases hv : v = .none <;> cases b <;> simp [hm', ho, hv, h1, h2, Off, hm, hno] at hb ⊢

/-- The settings after single writes and clicks, ignoring exceptions. -/
def replay (s : Live K) : List (Name × PyVal K ⊕ Name × Bool) → Live K
  | [] => s
  | .inl p :: t => replay (s.setItem p.1 p.2).1 t
  | .inr p :: t => replay (s.act (.click p.1 p.2)) t

theorem replay_append (s : Live K) (t t' : List (Name × PyVal K ⊕ Name × Bool)) : replay s (t ++ t') = replay (replay s t) t' := by
  induction t generalizing s with
  | nil => rfl
  | cons e t ih => cases e <;> exact ih _

theorem call_replay (s : Live K) {kw kw' : List (Name × PyVal K)} (h : Tried kw kw') : (s.call kw).1 = replay s (kw'.map .inl) := by
  induction h generalizing s with
  | nil => rfl
  | @stop name v l hA =>
    have : (s.setItem name v).2 ≠ none := fun h => hA ((live_raises_iff s name v).1 h)
    simp only [Live.call, List.map_cons, List.map_nil, replay]
    rcases h : s.setItem name v with ⟨s', _ | e⟩
    · rw [h] at this; exact absurd rfl this
    · rfl
  | @next name v l l' hA _ ih =>
    have h1 : s.setItem name v = ((s.setItem name v).1, none) := Prod.ext rfl ((live_raises_iff s name v).2 hA)
    simp only [Live.call, List.map_cons, replay]
    rw [h1]
    exact ih _

theorem replay_switch_congr {t : List (Name × PyVal K ⊕ Name × Bool)} {m : Name} (hm : Switched m) (s : Live K) :
    (∀ e ∈ t, ¬ Concerns m e) → ((replay s t).widgets m).switch = (s.widgets m).switch := by
  induction t generalizing s with
  | nil => exact fun _ => rfl
  | cons e t ih =>
    intro h
    have he := h e (by simp)
    have ht : ∀ e ∈ t, ¬ Concerns m e := fun e he => h e (by simp [he])
    cases e with
    | inl p =>
      simp only [replay]
      rw [ih _ ht]
      exact (setItem_switch s p.1 p.2 m hm true).1 (fun e => he e.symm)
    | inr p =>
      simp only [replay]
      rw [ih _ ht]
      simp only [Live.act]
      split_ifs
      · rw [setSwitch_widgets]
        have : m ≠ p.1 := fun e => he e.symm
        simp [toggle, setWidget, this]
      · rfl

theorem session_replay_switch (l : List (LiveOp K)) {t : List (Name × PyVal K ⊕ Name × Bool)} (h : Wrote l t) (m : Name) (hm : Switched m) :
    ∀ (s r : Live K), (s.widgets m).switch = (r.widgets m).switch → ((s.session l).widgets m).switch = ((replay r t).widgets m).switch := by
  have step : ∀ (s r : Live K) name v, (s.widgets m).switch = (r.widgets m).switch →
      ((s.setItem name v).1.widgets m).switch = ((r.setItem name v).1.widgets m).switch := by
    intro s r name v hsr
    by_cases e : m = name
    · classical
      have hb : ∃ b : Bool, (b = false ↔ Off name v) := by
        by_cases ho : Off name v
        · exact ⟨false, by simp [ho]⟩
        · exact ⟨true, by simp [ho]⟩
      obtain ⟨b, hb⟩ := hb
      rw [(setItem_switch s name v m hm b).2 e hb, (setItem_switch r name v m hm b).2 e hb]
    · rw [(setItem_switch s name v m hm true).1 e, (setItem_switch r name v m hm true).1 e, hsr]
  have steps : ∀ (kw : List (Name × PyVal K)) (s r : Live K), (s.widgets m).switch = (r.widgets m).switch →
      ((replay s (kw.map .inl)).widgets m).switch = ((replay r (kw.map .inl)).widgets m).switch := by
    intro kw
    induction kw with
    | nil => exact fun s r h => h
    | cons p kw ih => exact fun s r h => ih _ _ (step s r p.1 p.2 h)
  induction h with
  | nil => exact fun s r h => h
  | write _ ih => exact fun s r h => ih _ _ (step s r _ _ h)
  | @call kw kw' l t hk _ ih =>
    intro s r h
    rw [replay_append]
    refine ih _ _ ?_
    simp only [Live.act]
    rw [call_replay s hk]
    exact steps kw' s r h
  | @click name on l t _ ih =>
    intro s r h
    refine ih _ _ ?_
    simp only [Live.act]
    split_ifs
    · simp only [setSwitch_widgets, toggle, setWidget]
      split_ifs
      · rfl
      · exact h
    · exact h
  | @edit name v l t _ ih =>
    intro s r h
    refine ih _ _ ?_
    simp only [Live.act]
    split_ifs
    · exact h
    · rw [(setValue_switch s name v m).1]; exact h

/-- C120: after every session, a check box is where the last event concerning it put it, refused values counting as values: only
`None` (infinity for the moduli) and clicks switch a setting off. -/
theorem C120_switch {s : Live K} {l : List (LiveOp K)} {t t' : List (Name × PyVal K ⊕ Name × Bool)}
    {e : Name × PyVal K ⊕ Name × Bool} (hw : Wrote l (t ++ e :: t')) {name : Name} (hn : Switched name) {b : Bool} (he : Puts name e b)
    (ht : ∀ e' ∈ t', ¬ Concerns name e') : ((s.session l).widgets name).switch = b := by
  rw [session_replay_switch l hw name hn s s rfl, replay_append]
  cases e with
  | inl p =>
    obtain ⟨h1, h2⟩ := he
    simp only [replay]
    rw [replay_switch_congr hn _ ht]
    refine (setItem_switch _ p.1 p.2 name hn b).2 h1.symm ?_
    rw [h1]; exact h2
  | inr p =>
    obtain ⟨h1, h2⟩ := he
    simp only [replay]
    rw [replay_switch_congr hn _ ht]
    have h3 : p.1 = name := h1
    have h4 : b = p.2 := h2
    simp [Live.act, h3, h4, (hasSwitch_iff _).2 hn, setSwitch_widgets, toggle, setWidget]

/-! ### The values are the last accepted ones -/

theorem setItem_noValue (s : Live K) {name n : Name} {v : PyVal K} (h : NoValue name n v) :
    ((s.setItem n v).1.widgets name).value = (s.widgets name).value := by
  have h1 : ∀ on, ((s.setSwitch n on).widgets name).value = (s.widgets name).value := by
    intro on
    rw [setSwitch_widgets]
    simp only [toggle, setWidget]
    split_ifs with e
    · rw [e]
    · rfl
  have h2 : ∀ s : Live K, name ≠ n → ((s.setValue n v).1.widgets name) = s.widgets name := by
    intro s hne
    unfold Live.setValue
    cases assign n v with
    | error e => rfl
    | ok a => simp [setWidget, hne]
  by_cases e : n = name
  · subst e
    rcases h with h | h | h
    · exact absurd rfl h
    · unfold Live.setItem
      rcases h with ⟨h, rfl⟩ | ⟨h, rfl⟩
      · simp [(isModulus_iff _).2 h, h1]
      · have ho : n.isModulus = false := by rcases h with rfl | rfl | rfl | rfl | rfl <;> rfl
        simp [(isOptional_iff _).2 h, ho, h1]
    · rw [live_refused h]
      split_ifs
      · exact h1 _
      · rfl
  · have hne : name ≠ n := fun h => e h.symm
    unfold Live.setItem
    split_ifs <;> simp [h1, h2 _ hne]

theorem session_keepsValue {name : Name} {l : List (LiveOp K)} (h : ∀ o ∈ l, KeepsValue name o) (s : Live K) :
    ((s.session l).widgets name).value = (s.widgets name).value := by
  have hcall : ∀ (kw : List (Name × PyVal K)) (s : Live K), (∀ p ∈ kw, NoValue name p.1 p.2) →
      ((s.call kw).1.widgets name).value = (s.widgets name).value := by
    intro kw
    induction kw with
    | nil => exact fun s _ => rfl
    | cons p kw ih =>
      intro s hp
      have h1 := setItem_noValue s (hp p (by simp))
      simp only [Live.call]
      rcases h : s.setItem p.1 p.2 with ⟨s', _ | e⟩
      · rw [h] at h1
        exact (ih s' (fun q hq => hp q (by simp [hq]))).trans h1
      · rw [h] at h1; exact h1
  induction l generalizing s with
  | nil => rfl
  | cons o l ih =>
    have ho := h o (by simp)
    refine (ih (fun o ho => h o (by simp [ho])) (s.act o)).trans ?_
    cases o with
    | write n v => exact setItem_noValue s ho
    | call kw => exact hcall kw s ho
    | click n on =>
      simp only [Live.act]
      split_ifs
      · rw [setSwitch_widgets]
        simp only [toggle, setWidget]
        split_ifs with e
        · rw [e]
        · rfl
      · rfl
    | edit n v =>
      have hne : name ≠ n := fun e => ho e.symm
      simp only [Live.act]
      split_ifs
      · rfl
      · unfold Live.setValue
        cases assign n v with
        | error e => rfl
        | ok a => simp [setWidget, hne]

/-- C120: a setting in use reads as the last value it was given, whatever happened before and whatever refused values, clicks and
writes to other settings came after. -/
theorem C120_value {floor : K → ℤ} (hf : IsFloor floor) (s : Live K) (l l' : List (LiveOp K)) {name : Name} {v w : PyVal K}
    (hA : Accepts name v) (hv : ¬ Off name v) (hr : ReadsAs name v w) (hk : ∀ o ∈ l', KeepsValue name o)
    (hu : InUse (s.session (l ++ .write name v :: l')) name) :
    getItem floor (s.session (l ++ .write name v :: l')).widgets name = w := by
  have e : s.session (l ++ .write name v :: l') = (((s.session l).setItem name v).1).session l' := by
    simp [Live.session, Live.act]
  rw [e] at hu ⊢
  obtain ⟨st, hst⟩ := (C58_accepts (s.session l).widgets name v).2 hA
  have h1 := ((C120_agrees (s.session l) name v).1 st hst).2
  have h2 := C58_read_back hf hst hr
  have h3 := session_keepsValue hk ((s.session l).setItem name v).1
  rw [h1] at h3
  rw [← h2]
  unfold getItem
  by_cases hs : Switched name
  · have hb : (st name).switch = true := by
      have := (setItem_switch (s.session l) name v name hs true).2 rfl (by simp [hv])
      rwa [h1] at this
    rw [h3, hu hs, hb]
  · have hm : ¬ name.isModulus = true := fun h => hs (Or.inl ((isModulus_iff _).1 h))
    have ho : ¬ name.isOptional = true := fun h => hs (Or.inr ((isOptional_iff _).1 h))
    simp only [h3, hm, ho, if_false, Bool.false_eq_true]

/-- Every session has its list of events. -/
theorem wrote_exists (l : List (LiveOp K)) : ∃ t, Wrote l t := by
  have tried : ∀ kw : List (Name × PyVal K), ∃ kw', Tried kw kw' := by
    intro kw
    induction kw with
    | nil => exact ⟨[], .nil⟩
    | cons p kw ih =>
      obtain ⟨kw', h⟩ := ih
      by_cases hA : Accepts p.1 p.2
      · exact ⟨_, .next hA h⟩
      · exact ⟨_, .stop hA⟩
  induction l with
  | nil => exact ⟨[], .nil⟩
  | cons o l ih =>
    obtain ⟨t, h⟩ := ih
    cases o with
    | write name v => exact ⟨_, .write h⟩
    | call kw => obtain ⟨kw', hk⟩ := tried kw; exact ⟨_, .call hk h⟩
    | click name on => exact ⟨_, .click h⟩
    | edit name v => exact ⟨_, .edit h⟩

end Fibermat
