import Verif.Spec.Widgets
import Mathlib.Data.Rat.Floor
import Mathlib.Algebra.Order.Field.Basic
import Mathlib.Tactic.Linarith
import Mathlib.Tactic.Positivity

/-! # C58-C59: the settings -/

set_option linter.unusedSectionVars false
set_option linter.unusedSimpArgs false

namespace Fibermat
open Spec
variable {K : Type} [Field K] [LinearOrder K] [IsStrictOrderedRing K]

theorem isModulus_iff (name : Name) : name.isModulus = true ↔ Modulus name := by
  cases name <;> simp [Name.isModulus, Modulus]
theorem isOptional_iff (name : Name) : name.isOptional = true ↔ Optional name := by
  cases name <;> simp [Name.isOptional, Optional]

/-- C58: which values are accepted, independently of the state. -/
theorem C58_accepts (st : Settings K) (name : Name) (v : PyVal K) :
    (∃ st', setItem st name v = .ok st') ↔ Accepts name v := by
  cases name <;> cases v <;>
    simp [setItem, assign, sliderBounds, Name.isModulus, Name.isOptional, Name.isInt, Accepts, Ticked, Optional, Integer,
      Bind.bind, Except.bind, pure, Except.pure]

theorem setItem_other {st st' : Settings K} {name : Name} {v : PyVal K} (h : setItem st name v = .ok st') {other : Name}
    (ho : other ≠ name) : st' other = st other := by
  unfold setItem at h
  split_ifs at h
  · cases h; simp [setWidget, ho]
  · cases ha : assign name v with
    | error e => simp [ha, Bind.bind, Except.bind] at h
    | ok a =>
      simp only [ha, Bind.bind, Except.bind, pure, Except.pure, Except.ok.injEq] at h
      subst h; simp [setWidget, ho]
  · cases h; simp [setWidget, ho]
  · cases ha : assign name v with
    | error e => simp [ha, Bind.bind, Except.bind] at h
    | ok a =>
      simp only [ha, Bind.bind, Except.bind, pure, Except.pure, Except.ok.injEq] at h
      subst h; simp [setWidget, ho]
  · cases ha : assign name v with
    | error e => simp [ha, Bind.bind, Except.bind] at h
    | ok a =>
      simp only [ha, Bind.bind, Except.bind, pure, Except.pure, Except.ok.injEq] at h
      subst h; simp [setWidget, ho]

/-- C58: writing a setting changes no other. -/
theorem C58_others (floor : K → ℤ) {st st' : Settings K} {name : Name} {v : PyVal K} (h : setItem st name v = .ok st')
    {other : Name} (ho : other ≠ name) : getItem floor st' other = getItem floor st other := by
  unfold getItem
  rw [setItem_other h ho]

theorem floor_unique {floor : K → ℤ} (hf : IsFloor floor) {a : K} {k : ℤ} (h1 : (k : K) ≤ a) (h2 : a < k + 1) :
    floor a = k := by
  obtain ⟨h3, h4⟩ := hf a
  have h5 : floor a < k + 1 := by
    have : (floor a : K) < ((k + 1 : ℤ) : K) := by push_cast; linarith
    exact_mod_cast this
  have h6 : k < floor a + 1 := by
    have : (k : K) < ((floor a + 1 : ℤ) : K) := by push_cast; linarith
    exact_mod_cast this
  omega

theorem pyInt_floor {floor : K → ℤ} (hf : IsFloor floor) {a : K} (h0 : 0 ≤ a) {k : ℤ} (h1 : (k : K) ≤ a) (h2 : a < k + 1) :
    pyInt floor a = k := by
  rw [pyInt, if_pos h0, floor_unique hf h1 h2]

/-- C58: what was written is read back. -/
theorem C58_read_back {floor : K → ℤ} (hf : IsFloor floor) {st st' : Settings K} {name : Name} {v w : PyVal K}
    (h : setItem st name v = .ok st') (hr : ReadsAs name v w) : getItem floor st' name = w := by
  have h10 : (1 : K) / 10000000000 ≤ 1 / 10 := by
    apply div_le_div_of_nonneg_left <;> norm_num
  have hbig : (1 : K) ≤ 1000000 := by norm_num
  cases hr with
  | plain hns =>
    cases name <;> cases v <;>
      simp [setItem, assign, sliderBounds, Name.isModulus, Name.isOptional, Name.isInt, Slider,
        Bind.bind, Except.bind, pure, Except.pure] at h hns ⊢ <;>
      (subst h; simp [getItem, setWidget, Name.isModulus, Name.isOptional])
  | theta h0 h1 =>
    simp [setItem, assign, sliderBounds, Name.isModulus, Name.isOptional, Name.isInt, Bind.bind, Except.bind, pure, Except.pure] at h
    subst h; simp [getItem, setWidget, h0, h1]
  | itermax h0 h1 h2 h3 =>
    simp [setItem, assign, sliderBounds, Name.isModulus, Name.isOptional, Name.isInt, Bind.bind, Except.bind, pure, Except.pure] at h
    subst h
    simp [getItem, setWidget, h0, h1, Name.isModulus, Name.isOptional]
    rw [pyInt_floor hf (by linarith) h2 h3]
  | tol h0 h1 =>
    simp only [one_div] at h0 h1
    simp [setItem, assign, sliderBounds, Name.isModulus, Name.isOptional, Name.isInt, Bind.bind, Except.bind, pure, Except.pure] at h
    subst h; simp [getItem, setWidget, h0, h1, Name.isModulus, Name.isOptional]
  | thetaLow h0 =>
    simp [setItem, assign, sliderBounds, Name.isModulus, Name.isOptional, Name.isInt, Bind.bind, Except.bind, pure, Except.pure] at h
    subst h; simp [getItem, setWidget, h0.le]
  | thetaHigh h0 =>
    simp [setItem, assign, sliderBounds, Name.isModulus, Name.isOptional, Name.isInt, Bind.bind, Except.bind, pure, Except.pure] at h
    subst h
    have : (0 : K) ≤ _ := zero_le_one.trans h0.le
    simp [getItem, setWidget, h0.le, this]
  | itermaxLow h0 =>
    simp [setItem, assign, sliderBounds, Name.isModulus, Name.isOptional, Name.isInt, Bind.bind, Except.bind, pure, Except.pure] at h
    subst h; simp [getItem, setWidget, h0.le, hbig, Name.isModulus, Name.isOptional]
    rw [pyInt_floor hf zero_le_one (k := 1) (by simp) (by simp)]
  | itermaxHigh h0 =>
    simp [setItem, assign, sliderBounds, Name.isModulus, Name.isOptional, Name.isInt, Bind.bind, Except.bind, pure, Except.pure] at h
    subst h
    simp [getItem, setWidget, hbig.trans h0.le, h0.le, Name.isModulus, Name.isOptional]
    rw [pyInt_floor hf (by linarith) (k := 1000000) (by simp) (by simp)]; simp
  | tolLow h0 =>
    simp [setItem, assign, sliderBounds, Name.isModulus, Name.isOptional, Name.isInt, Bind.bind, Except.bind, pure, Except.pure] at h
    subst h
    simp only [one_div] at h0 h10
    simp [getItem, setWidget, h0.le, h10, Name.isModulus, Name.isOptional]
  | tolHigh h0 =>
    simp [setItem, assign, sliderBounds, Name.isModulus, Name.isOptional, Name.isInt, Bind.bind, Except.bind, pure, Except.pure] at h
    subst h
    simp only [one_div] at h0 h10
    simp [getItem, setWidget, h0.le, h10.trans h0.le, Name.isModulus, Name.isOptional]
  | thetaInf hv =>
    rcases hv with rfl | rfl <;>
    · simp [setItem, assign, sliderBounds, Name.isModulus, Name.isOptional, Name.isInt, Bind.bind, Except.bind, pure, Except.pure] at h
      subst h; simp [getItem, setWidget]
  | itermaxInf hv =>
    rcases hv with rfl | rfl <;>
    · simp [setItem, assign, sliderBounds, Name.isModulus, Name.isOptional, Name.isInt, Bind.bind, Except.bind, pure, Except.pure] at h
      subst h; simp [getItem, setWidget, Name.isModulus, Name.isOptional]
      rw [pyInt_floor hf (by linarith) (k := 1000000) (by simp) (by simp)]; simp
  | tolInf hv =>
    rcases hv with rfl | rfl <;>
    · simp [setItem, assign, sliderBounds, Name.isModulus, Name.isOptional, Name.isInt, Bind.bind, Except.bind, pure, Except.pure] at h
      subst h; simp [getItem, setWidget, Name.isModulus, Name.isOptional]

/-- C58: every accepted value has a reading. -/
theorem C58_reads {floor : K → ℤ} (hf : IsFloor floor) {name : Name} {v : PyVal K} (h : Accepts name v) :
    ∃ w, ReadsAs name v w := by
  by_cases hs : Slider name
  · rcases hs with rfl | rfl | rfl <;> cases v with
    | bool b => simp [Accepts, Ticked] at h
    | none => simp [Accepts, Optional] at h
    | npInf => first | exact ⟨_, .thetaInf (Or.inl rfl)⟩ | exact ⟨_, .itermaxInf (Or.inl rfl)⟩ | exact ⟨_, .tolInf (Or.inl rfl)⟩
    | otherInf => first | exact ⟨_, .thetaInf (Or.inr rfl)⟩ | exact ⟨_, .itermaxInf (Or.inr rfl)⟩ | exact ⟨_, .tolInf (Or.inr rfl)⟩
    | num a =>
      first
      | (rcases lt_or_ge a 0 with h1 | h1
         · exact ⟨_, .thetaLow h1⟩
         · rcases lt_or_ge 1 a with h2 | h2
           · exact ⟨_, .thetaHigh h2⟩
           · exact ⟨_, .theta h1 h2⟩)
      | (rcases lt_or_ge a 1 with h1 | h1
         · exact ⟨_, .itermaxLow h1⟩
         · rcases lt_or_ge 1000000 a with h2 | h2
           · exact ⟨_, .itermaxHigh h2⟩
           · exact ⟨_, .itermax h1 h2 (hf a).1 (hf a).2⟩)
      | (rcases lt_or_ge a (1 / 10000000000) with h1 | h1
         · exact ⟨_, .tolLow h1⟩
         · rcases lt_or_ge (1 / 10) a with h2 | h2
           · exact ⟨_, .tolHigh h2⟩
           · exact ⟨_, .tol h1 h2⟩)
  · exact ⟨v, .plain hs⟩

theorem callSettings_cons (st : Settings K) (p : Name × PyVal K) (l : List (Name × PyVal K)) :
    callSettings st (p :: l) = (setItem st p.1 p.2).bind (fun st' => callSettings st' l) := rfl

/-- C58: two calls in a row are one call with all the writes. -/
theorem C58_calls_append (st : Settings K) (l l' : List (Name × PyVal K)) :
    callSettings st (l ++ l') = (callSettings st l).bind (fun st' => callSettings st' l') := by
  induction l generalizing st with
  | nil => rfl
  | cons p l ih =>
    rw [List.cons_append, callSettings_cons, callSettings_cons]
    cases setItem st p.1 p.2 with
    | error e => rfl
    | ok st1 => exact ih st1

/-- C58: a call succeeds exactly when all values are accepted. -/
theorem C58_calls_accept (st : Settings K) (l : List (Name × PyVal K)) :
    (∃ st', callSettings st l = .ok st') ↔ ∀ p ∈ l, Accepts p.1 p.2 := by
  induction l generalizing st with
  | nil => simp [callSettings]
  | cons p l ih =>
    rw [callSettings_cons]
    constructor
    · rintro ⟨st', h⟩
      cases hp : setItem st p.1 p.2 with
      | error e => rw [hp] at h; simp [Except.bind] at h
      | ok st1 =>
        rw [hp] at h
        intro q hq
        rcases List.mem_cons.1 hq with rfl | hq
        · exact (C58_accepts st _ _).1 ⟨st1, hp⟩
        · exact (ih st1).1 ⟨st', h⟩ q hq
    · intro h
      obtain ⟨st1, h1⟩ := (C58_accepts st p.1 p.2).2 (h p (by simp))
      rw [h1]
      exact (ih st1).2 (fun q hq => h q (by simp [hq]))

theorem calls_untouched {st st' : Settings K} {l : List (Name × PyVal K)} (h : callSettings st l = .ok st') {name : Name}
    (hn : ∀ p ∈ l, p.1 ≠ name) : st' name = st name := by
  induction l generalizing st with
  | nil => cases h; rfl
  | cons p l ih =>
    rw [callSettings_cons] at h
    cases hp : setItem st p.1 p.2 with
    | error e => rw [hp] at h; simp [Except.bind] at h
    | ok st1 =>
      rw [hp] at h
      rw [ih h (fun q hq => hn q (by simp [hq]))]
      exact setItem_other hp (fun e => hn p (by simp) e.symm)

/-- C58: after any calls, the last value written to a setting is read. -/
theorem C58_last_wins {floor : K → ℤ} (hf : IsFloor floor) {st st' : Settings K} {l : List (Name × PyVal K)}
    (h : callSettings st l = .ok st') {name : Name} {v w : PyVal K} (hl : LastWrite l name v) (hr : ReadsAs name v w) :
    getItem floor st' name = w := by
  obtain ⟨l1, l2, rfl, hn⟩ := hl
  rw [C58_calls_append] at h
  cases h1 : callSettings st l1 with
  | error e => rw [h1] at h; simp [Except.bind] at h
  | ok s1 =>
    rw [h1] at h
    simp only [Except.bind] at h
    rw [callSettings_cons] at h
    cases h2 : setItem s1 name v with
    | error e => rw [h2] at h; simp [Except.bind] at h
    | ok s2 =>
      rw [h2] at h
      have h3 := C58_read_back hf h2 hr
      have h4 := calls_untouched (st := s2) h hn
      rw [← h3]
      unfold getItem
      rw [h4]

/-- C58: a setting that is not written keeps its value. -/
theorem C58_unwritten (floor : K → ℤ) {st st' : Settings K} {l : List (Name × PyVal K)}
    (h : callSettings st l = .ok st') {name : Name} (hn : ∀ p ∈ l, p.1 ≠ name) :
    getItem floor st' name = getItem floor st name := by
  unfold getItem
  rw [calls_untouched h hn]

/-- C58: a refused value is refused with a TraitError. -/
theorem C58_refused {st : Settings K} {name : Name} {v : PyVal K} {e : Err} (h : setItem st name v = .error e) :
    e = .typeError := by
  cases name <;> cases v <;>
    simp [setItem, assign, sliderBounds, Name.isModulus, Name.isOptional, Name.isInt, Bind.bind, Except.bind, pure, Except.pure] at h <;>
    exact h.symm

theorem int_between {floor : K → ℤ} (hf : IsFloor floor) {a : K} {lo hi : ℤ} (h0 : 0 ≤ a) (h1 : (lo : K) ≤ a) (h2 : a ≤ hi) :
    lo ≤ pyInt floor a ∧ pyInt floor a ≤ hi := by
  rw [pyInt, if_pos h0]
  obtain ⟨h3, h4⟩ := hf a
  constructor
  · have : (lo : K) < ((floor a + 1 : ℤ) : K) := by push_cast; linarith
    have : lo < floor a + 1 := by exact_mod_cast this
    omega
  · have : (floor a : K) ≤ ((hi : ℤ) : K) := h3.trans h2
    exact_mod_cast this

/-- One write keeps the sliders in their ranges. -/
theorem setItem_ranges {floor : K → ℤ} {st st' : Settings K} {name : Name} {v : PyVal K} (h : setItem st name v = .ok st')
    (hr : InRange st) : InRange st' := by
  have h10 : (1 : K) / 10000000000 ≤ 1 / 10 := by
    apply div_le_div_of_nonneg_left <;> norm_num
  have hbig : (1 : K) ≤ 1000000 := by norm_num
  have key : ∀ nm : Name, ∀ lo hi : K, sliderBounds nm = some (lo, hi) → lo ≤ hi → (∃ a, (st nm).value = .num a ∧ lo ≤ a ∧ a ≤ hi) →
      ∃ a, (st' nm).value = .num a ∧ lo ≤ a ∧ a ≤ hi := by
    intro nm lo hi hb hle hold
    by_cases hn : nm = name
    · subst hn
      have hns : nm.isModulus = false ∧ nm.isOptional = false ∧ nm.isInt = false ∧ nm ≠ .periodic ∧ nm ≠ .verbose := by
        cases nm <;> simp [sliderBounds] at hb <;> decide
      simp only [setItem, hns.1, hns.2.1, Bool.false_eq_true, if_false] at h
      cases ha : assign nm v with
      | error e => simp [ha, Bind.bind, Except.bind] at h
      | ok w =>
        simp only [ha, Bind.bind, Except.bind, pure, Except.pure, Except.ok.injEq] at h
        subst h
        simp only [setWidget, if_true]
        cases nm <;> simp only [sliderBounds, reduceCtorEq, Option.some.injEq, Prod.mk.injEq] at hb <;> obtain ⟨rfl, rfl⟩ := hb <;>
          cases v <;> simp [assign, sliderBounds, Name.isInt] at ha <;> subst ha <;>
          first
          | exact ⟨_, rfl, le_min (le_max_right _ _) (by simpa using hle), min_le_right _ _⟩
          | exact ⟨_, rfl, by simpa using hle, by simp⟩
    · rw [setItem_other h hn]
      exact hold
  exact ⟨key .theta 0 1 rfl zero_le_one hr.1, key .itermax 1 1000000 rfl hbig hr.2.1, key .tol _ _ rfl h10 hr.2.2⟩

/-! ### Switches -/

/-- A history of writes and clicks. -/
def runOps (st : Settings K) : List (Op K) → Except Err (Settings K)
  | [] => .ok st
  | .write n v :: l => (setItem st n v).bind (fun st' => runOps st' l)
  | .click n on :: l => runOps (toggle st n on) l

theorem keeps_value {st st' : Settings K} {name : Name} {l : List (Op K)} (h : runOps st l = .ok st')
    (hk : ∀ o ∈ l, o.Keeps name) : (st' name).value = (st name).value := by
  induction l generalizing st with
  | nil => cases h; rfl
  | cons o l ih =>
    have hk' : ∀ o ∈ l, o.Keeps name := fun o ho => hk o (by simp [ho])
    cases o with
    | click n on =>
      rw [ih h hk']
      simp only [toggle, setWidget]
      split_ifs with e
      · rw [e]
      · rfl
    | write n v =>
      simp only [runOps] at h
      cases hp : setItem st n v with
      | error e => rw [hp] at h; simp [Except.bind] at h
      | ok st1 =>
        rw [hp] at h
        rw [ih h hk']
        have := hk (.write n v) (by simp)
        simp only [Op.Keeps] at this
        by_cases hn : n = name
        · subst hn
          rcases this with h' | h'
          · exact absurd rfl h'
          · rcases h' with ⟨h1, rfl⟩ | ⟨h1, rfl⟩
            · simp [setItem, (isModulus_iff n).2 h1] at hp
              rw [← hp]; simp [setWidget]
            · have h2 : n.isModulus = false := by
                rcases h1 with rfl | rfl | rfl | rfl | rfl <;> rfl
              simp [setItem, (isOptional_iff n).2 h1, h2] at hp
              rw [← hp]; simp [setWidget]
        · rw [setItem_other hp (fun e => hn e.symm)]

/-- C59: after a value is written to an optional setting, any number of times switching it off (or clicking its box) and any
action on other settings leave that value stored: ticking its box gives it back. -/
theorem C59_switch_restores (floor : K → ℤ) {st st1 st2 : Settings K} {name : Name} {v : PyVal K} {l : List (Op K)}
    (hname : Optional name ∨ Modulus name) (hv : ¬ Off name v) (h1 : setItem st name v = .ok st1)
    (h2 : runOps st1 l = .ok st2) (hk : ∀ o ∈ l, o.Keeps name) :
    getItem floor (toggle st2 name true) name = v := by
  have hval := keeps_value h2 hk
  have hst1 : (st1 name).value = v := by
    rcases hname with (rfl | rfl | rfl | rfl | rfl) | (rfl | rfl) <;> cases v <;>
      simp [setItem, assign, sliderBounds, Name.isModulus, Name.isOptional, Name.isInt, Off, Modulus, Optional,
        Bind.bind, Except.bind, pure, Except.pure] at h1 hv ⊢ <;>
      (subst h1; simp [setWidget])
  rw [hst1] at hval
  have hns : name ≠ .theta := by
    rcases hname with (rfl | rfl | rfl | rfl | rfl) | (rfl | rfl) <;> decide
  unfold getItem
  simp only [toggle, setWidget, if_true, hval, if_neg hns]
  rcases hname with h | h
  · have h3 := (isOptional_iff name).2 h
    simp [h3]
  · have h3 := (isModulus_iff name).2 h
    simp [h3]

/-- C59: while it is off, the setting reads as `None` (infinity for the moduli). -/
theorem C59_switched_off (floor : K → ℤ) (st : Settings K) {name : Name} :
    (Optional name → getItem floor (toggle st name false) name = .none) ∧
    (Modulus name → getItem floor (toggle st name false) name = .npInf) := by
  constructor
  · rintro (rfl | rfl | rfl | rfl | rfl) <;> simp [getItem, toggle, setWidget, Name.isModulus, Name.isOptional]
  · rintro (rfl | rfl) <;> simp [getItem, toggle, setWidget, Name.isModulus]

/-- C58: after any history of writes and clicks, the angle reads between 0 and π, the number of iterations as an integer between 1
and 10⁶, and the tolerance between 10⁻¹⁰ and 0.1. -/
theorem C58_ranges {floor : K → ℤ} (hf : IsFloor floor) {st st' : Settings K} {l : List (Op K)} (h : runOps st l = .ok st')
    (hr : InRange st) :
    (∃ a, getItem floor st' .theta = .num a ∧ 0 ≤ a ∧ a ≤ npPi) ∧
    (∃ k : ℤ, getItem floor st' .itermax = .num (k : K) ∧ 1 ≤ k ∧ k ≤ 1000000) ∧
    (∃ a, getItem floor st' .tol = .num a ∧ 1 / 10000000000 ≤ a ∧ a ≤ 1 / 10) := by
  have hr' : InRange st' := by
    induction l generalizing st with
    | nil => cases h; exact hr
    | cons o l ih =>
      cases o with
      | click n on =>
        refine ih h ?_
        have e : ∀ nm, (toggle st n on nm).value = (st nm).value := by
          intro nm
          simp only [toggle, setWidget]
          split_ifs with e
          · rw [e]
          · rfl
        simpa only [InRange, e] using hr
      | write n v =>
        simp only [runOps] at h
        cases hp : setItem st n v with
        | error e => rw [hp] at h; simp [Except.bind] at h
        | ok st1 =>
          rw [hp] at h
          exact ih h (setItem_ranges (floor := floor) hp hr)
  obtain ⟨⟨a, ha, a0, a1⟩, ⟨b, hb, b0, b1⟩, ⟨c, hc, c0, c1⟩⟩ := hr'
  have hpi : (0 : K) ≤ npPi := by unfold npPi; positivity
  refine ⟨⟨a * npPi, by simp [getItem, ha], mul_nonneg a0 hpi, by simpa using mul_le_mul_of_nonneg_right a1 hpi⟩, ?_, ?_⟩
  · obtain ⟨h1, h2⟩ := int_between hf (lo := 1) (hi := 1000000) (zero_le_one.trans b0) (by simpa using b0) (by simpa using b1)
    exact ⟨pyInt floor b, by simp [getItem, hb, Name.isModulus, Name.isOptional], h1, h2⟩
  · exact ⟨c, by simp [getItem, hc, Name.isModulus, Name.isOptional], c0, c1⟩

/-! ### Non-vacuity -/

/-- The rational floor. -/
theorem floor_rat : IsFloor (fun a : ℚ => ⌊a⌋) := fun a => ⟨Int.floor_le a, Int.lt_floor_add_one a⟩

/-- Settings for the examples: everything 1 and switched on. -/
def demoSettings : Settings ℚ := fun _ => ⟨.num 1, true⟩

/-- C58: a starting state with sliders in range, and refused values. -/
example : InRange (fun nm => if nm = .tol then ⟨.num (1 / 100), true⟩ else demoSettings nm) :=
  ⟨⟨1, by decide, by norm_num, by norm_num⟩, ⟨1, by decide, by norm_num, by norm_num⟩, ⟨1 / 100, rfl, by norm_num, by norm_num⟩⟩
example : (setItem demoSettings .verbose (.num 1)).toOption = none ∧ (setItem demoSettings .n .npInf).toOption = none ∧
    (setItem demoSettings .tol .none).toOption = none := by decide +kernel
/-- C58: writes of an angle, a number of iterations, an infinite modulus, and a lower bound then `None`. -/
example : ((callSettings demoSettings [(.theta, .num (1 / 2)), (.itermax, .num (15 / 2)), (.shear, .npInf), (.lmin, .num 3),
      (.lmin, .none)]).toOption.map (fun st =>
    [.theta, .itermax, .shear, .lmin, .lmax].map (getItem (fun a : ℚ => ⌊a⌋) st))) =
    some [.num (1 / 2 * npPi), .num 7, .npInf, .none, .num 1] := by decide +kernel
example : LastWrite [(.lmin, .num (3 : ℚ)), (.lmin, .none)] .lmin .none := ⟨[(.lmin, .num 3)], [], rfl, by simp⟩
/-- C59: threshold 4, then `None`, then the box is ticked. -/
example : ((runOps demoSettings [.write .threshold (.num 4), .write .threshold .none, .write .n (.num 3)]).toOption.map
    (fun st => (getItem (fun a : ℚ => ⌊a⌋) st .threshold, getItem (fun a : ℚ => ⌊a⌋) (toggle st .threshold true) .threshold))) =
    some (.none, .num 4) := by decide +kernel
/-- An infinity that is not the object `np.inf`, given to the constructor, is lost: the modulus reads as the default. -/
example : getItem (fun a : ℚ => ⌊a⌋) (fun _ => initModulus .otherInf (.num 1)) .shear = .num 1 := by decide +kernel
/-- With `np.inf` it is not. -/
example : getItem (fun a : ℚ => ⌊a⌋) (fun _ => initModulus .npInf (.num 1)) .shear = .npInf := by decide +kernel

end Fibermat
