import Verif.Props.Widgets

/-! # C86: creation of the settings -/

set_option linter.unusedSectionVars false
set_option linter.unusedSimpArgs false

namespace Fibermat
open Spec
variable {K : Type} [Field K] [LinearOrder K] [IsStrictOrderedRing K]

theorem mapM_except {α β : Type} (f : α → Except Err β) (l : List α) {ys : List β} (h : l.mapM f = .ok ys) :
    ys.length = l.length ∧ ∀ i (hi : i < l.length) (hi' : i < ys.length), f l[i] = .ok ys[i] := by
  induction l generalizing ys with
  | nil => cases h; exact ⟨rfl, by intro i hi; simp at hi⟩
  | cons a l ih =>
    rw [List.mapM_cons] at h
    cases ha : f a with
    | error e => rw [ha] at h; cases h
    | ok b =>
      rw [ha] at h
      cases hl : l.mapM f with
      | error e =>
        have : (Except.ok b : Except Err β) >>= (fun b => do let t ← l.mapM f; pure (b :: t)) = .ok ys := h
        rw [hl] at this; cases this
      | ok zs =>
        have : (Except.ok b : Except Err β) >>= (fun b => do let t ← l.mapM f; pure (b :: t)) = .ok ys := h
        rw [hl] at this
        cases this
        obtain ⟨h1, h2⟩ := ih hl
        refine ⟨by simp [h1], ?_⟩
        intro i hi hi'
        cases i with
        | zero => simpa using ha
        | succ i => simpa using h2 i (by simpa using hi) (by simpa using hi')

theorem mapM_error {α β : Type} (f : α → Except Err β) (l : List α) :
    (∃ ys, l.mapM f = .ok ys) ↔ ∀ a ∈ l, ∃ b, f a = .ok b := by
  induction l with
  | nil => exact ⟨fun _ => by simp, fun _ => ⟨[], rfl⟩⟩
  | cons a l ih =>
    rw [List.mapM_cons]
    cases ha : f a with
    | error e =>
      constructor
      · rintro ⟨ys, h⟩; cases h
      · intro h
        obtain ⟨b, hb⟩ := h a (by simp)
        rw [ha] at hb; cases hb
    | ok b =>
      cases hl : l.mapM f with
      | error e =>
        constructor
        · rintro ⟨ys, h⟩; cases h
        · intro h
          obtain ⟨ys, hy⟩ := ih.2 (fun x hx => h x (by simp [hx]))
          rw [hl] at hy; cases hy
      | ok zs =>
        refine ⟨fun _ => ?_, fun _ => ⟨b :: zs, rfl⟩⟩
        intro x hx
        rcases List.mem_cons.1 hx with rfl | hx
        · exact ⟨b, ha⟩
        · exact ih.1 ⟨zs, hl⟩ x hx

theorem mem_allNames (name : Name) : name ∈ allNames := by cases name <;> decide

/-- The widgets of new settings. -/
theorem settingsNew_widget {args : Name → PyVal K} {st : Settings K} (h : settingsNew args = .ok st) (name : Name) :
    initWidget args name = .ok (st name) := by
  unfold settingsNew at h
  cases hm : allNames.mapM (initWidget args) with
  | error e => rw [hm] at h; cases h
  | ok ws =>
    rw [hm] at h
    injection h with h
    subst h
    obtain ⟨h1, h2⟩ := mapM_except _ _ hm
    have hi : allNames.idxOf name < allNames.length := List.idxOf_lt_length_of_mem (mem_allNames name)
    have := h2 _ hi (by omega)
    rw [List.getElem_idxOf] at this
    rw [this]
    congr 1
    show _ = ws.getD (allNames.idxOf name) _
    rw [List.getD_eq_getElem?_getD, List.getElem?_eq_getElem (by omega)]
    rfl

theorem settingsNew_ok (args : Name → PyVal K) :
    (∃ st, settingsNew args = .ok st) ↔ ∀ name, ∃ w, initWidget args name = .ok w := by
  have h1 : (∃ st, settingsNew args = .ok st) ↔ ∃ ws, allNames.mapM (initWidget args) = .ok ws := by
    unfold settingsNew
    cases hm : allNames.mapM (initWidget args) with
    | error e => constructor <;> (rintro ⟨x, hx⟩; cases hx)
    | ok ws => exact ⟨fun _ => ⟨ws, rfl⟩, fun _ => ⟨_, rfl⟩⟩
  rw [h1, mapM_error]
  exact ⟨fun h name => h name (mem_allNames name), fun h name _ => h name⟩

/-- Arguments accepted by a single widget, given accepted lengths and thicknesses. -/
theorem initWidget_ok (args : Name → PyVal K) (hl : Accepts .length (args .length)) (ht : Accepts .thickness (args .thickness)) (name : Name) :
    (∃ w, initWidget args name = .ok w) ↔
      Accepts name (args name) ∧ (name = .tensile → ¬ (IsInf (args .tensile) ∧ args .thickness = .num 0)) := by
  by_cases h1 : name = .tensile
  · subst h1
    generalize hv : args .tensile = v
    generalize hg : args .shear = g
    generalize hl' : args .length = l at hl
    generalize ht' : args .thickness = h at ht
    cases v <;> cases h <;>
      simp [initWidget, initModulus, hv, assign, sliderBounds, Name.isInt, Accepts, Ticked, Optional, Integer, IsInf,
        Bind.bind, Except.bind, pure, Except.pure] at ht ⊢
    all_goals
      simp only [defaultTensile, hg, hl', ht']
      cases g <;> cases l <;> simp [Except.bind, assign, sliderBounds, Name.isInt] <;> (split_ifs with h0 <;> simp [h0])
  · by_cases h2 : name = .threshold
    · subst h2
      generalize hv : args .threshold = v
      generalize ht' : args .thickness = h at ht
      cases v <;> cases h <;>
        simp [initWidget, initOptional, defaultThreshold, hv, ht', assign, sliderBounds, Name.isInt, Accepts, Ticked, Optional, Integer,
          Bind.bind, Except.bind, pure, Except.pure] at ht ⊢
    · by_cases h3 : name = .lmax
      · subst h3
        generalize hv : args .lmax = v
        generalize hl' : args .length = l at hl
        cases v <;> cases l <;>
          simp [initWidget, initOptional, hv, hl', assign, sliderBounds, Name.isInt, Accepts, Ticked, Optional, Integer,
            Bind.bind, Except.bind, pure, Except.pure] at hl ⊢
      · generalize hv : args name = v
        cases name <;> first | exact absurd rfl h1 | exact absurd rfl h2 | exact absurd rfl h3 | skip
        all_goals
          cases v <;>
            simp [initWidget, initOptional, initModulus, hv, assign, sliderBounds, Name.isInt, Accepts, Ticked, Optional, Integer,
              Bind.bind, Except.bind, pure, Except.pure]

/-- C86: new settings are refused exactly when some argument is not acceptable, or when the tensile modulus is infinite and the
thickness zero. -/
theorem C86_accepts (args : Name → PyVal K) :
    (∃ st, settingsNew args = .ok st) ↔
      (∀ name, Accepts name (args name)) ∧ ¬ (IsInf (args .tensile) ∧ args .thickness = .num 0) := by
  have simpleName : ∀ name, name = .length ∨ name = .thickness → (∃ w, initWidget args name = .ok w) → Accepts name (args name) := by
    intro name hn
    generalize hv : args name = v
    rcases hn with rfl | rfl <;> cases v <;>
      simp [initWidget, initOptional, initModulus, hv, assign, sliderBounds, Name.isInt, Accepts, Ticked, Optional, Integer,
              Bind.bind, Except.bind, pure, Except.pure]
  rw [settingsNew_ok]
  constructor
  · intro h
    have key := fun name => (initWidget_ok args (simpleName _ (Or.inl rfl) (h _)) (simpleName _ (Or.inr rfl) (h _)) name).1 (h name)
    exact ⟨fun name => (key name).1, (key .tensile).2 rfl⟩
  · rintro ⟨h1, h2⟩ name
    exact (initWidget_ok args (h1 _) (h1 _) name).2 ⟨h1 name, fun _ => h2⟩

/-- C86: new settings read as if the arguments had been written one by one, except an infinite modulus that is not the object
`np.inf`. -/
theorem C86_reads {floor : K → ℤ} (hf : IsFloor floor) {args : Name → PyVal K} {st : Settings K} (h : settingsNew args = .ok st)
    {name : Name} {w : PyVal K} (hr : ReadsAs name (args name) w) (hinf : Modulus name → args name ≠ .otherInf) :
    getItem floor st name = w := by
  have hw := settingsNew_widget h name
  -- write the argument to these settings
  have hset : ∀ a : PyVal K, a = args name → ∃ st', setItem st name a = .ok st' ∧ getItem floor st' name = getItem floor st name := by
    rintro a ha
    by_cases hm : Modulus name
    · have hth : name ≠ .theta := by rcases hm with rfl | rfl <;> decide
      by_cases hi : a = .npInf
      · refine ⟨setWidget st name ⟨(st name).value, false⟩, by simp [setItem, (isModulus_iff name).2 hm, hi], ?_⟩
        have hs : (st name).switch = false := by
          rcases hm with rfl | rfl
          · simp only [initWidget, initModulus, ← ha, hi] at hw
            simp [assign, sliderBounds, Name.isInt, Bind.bind, Except.bind, pure, Except.pure] at hw
            rw [← hw]
          · simp only [initWidget, initModulus, ← ha, hi] at hw
            cases hd : defaultTensile args with
            | error e => simp [hd, Bind.bind, Except.bind] at hw
            | ok d =>
              simp [hd, Bind.bind, Except.bind, pure, Except.pure] at hw
              cases hA : assign .tensile d with
              | error e => simp [hA] at hw
              | ok d' => simp [hA] at hw; rw [← hw]
        simp [getItem, hth, (isModulus_iff name).2 hm, setWidget, hs]
      · have hno := hinf hm
        rw [← ha] at hno
        cases hA : assign name a with
        | error e =>
          exfalso
          rcases hm with rfl | rfl <;>
            simp [initWidget, initModulus, ← ha, hi, hno, hA, Bind.bind, Except.bind] at hw
        | ok v =>
          refine ⟨setWidget st name ⟨v, true⟩, by
            simp [setItem, (isModulus_iff name).2 hm, hi, hA, Bind.bind, Except.bind, pure, Except.pure], ?_⟩
          have : st name = ⟨v, true⟩ := by
            rcases hm with rfl | rfl <;>
            · simp [initWidget, initModulus, ← ha, hi, hno, hA, Bind.bind, Except.bind, pure, Except.pure] at hw
              exact hw.symm
          simp [getItem, hth, (isModulus_iff name).2 hm, setWidget, this]
    · have hm' : name.isModulus = false := by
        cases hx : name.isModulus
        · rfl
        · exact absurd ((isModulus_iff name).1 hx) hm
      by_cases ho : Optional name
      · have ho' := (isOptional_iff name).2 ho
        have hth : name ≠ .theta := by rcases ho with rfl | rfl | rfl | rfl | rfl <;> decide
        obtain ⟨dflt, hopt⟩ : ∃ dflt, initWidget args name = initOptional name (args name) dflt := by
          rcases ho with rfl | rfl | rfl | rfl | rfl <;> exact ⟨_, rfl⟩
        rw [hopt, ← ha] at hw
        by_cases hn : a = .none
        · refine ⟨setWidget st name ⟨(st name).value, false⟩, by simp [setItem, hm', ho', hn], ?_⟩
          have hs : (st name).switch = false := by
            simp only [initOptional, if_pos hn] at hw
            cases hd : dflt with
            | error e => simp [hd, Bind.bind, Except.bind] at hw
            | ok d =>
              simp only [hd, Bind.bind, Except.bind, pure, Except.pure] at hw
              cases hA : assign name d with
              | error e => simp [hA] at hw
              | ok d' => simp [hA] at hw; rw [← hw]
          simp [getItem, hth, hm', ho', setWidget, hs]
        · cases hA : assign name a with
          | error e => simp [initOptional, hn, hA, Bind.bind, Except.bind] at hw
          | ok v =>
            simp [initOptional, hn, hA, Bind.bind, Except.bind, pure, Except.pure] at hw
            refine ⟨setWidget st name ⟨v, true⟩, by
              simp [setItem, hm', ho', hn, hA, Bind.bind, Except.bind, pure, Except.pure], ?_⟩
            simp [getItem, hth, hm', ho', setWidget, ← hw]
      · have ho' : name.isOptional = false := by
          cases hx : name.isOptional
          · rfl
          · exact absurd ((isOptional_iff name).1 hx) ho
        have hplain : initWidget args name = (assign name a).bind (fun v => .ok ⟨v, true⟩) := by
          rw [ha]
          cases name <;> first | rfl | (exfalso; simp [Modulus, Optional] at hm ho; done)
        rw [hplain] at hw
        cases hA : assign name a with
        | error e => simp [hA, Except.bind] at hw
        | ok v =>
          simp [hA, Except.bind] at hw
          refine ⟨setWidget st name ⟨v, (st name).switch⟩, by
            simp [setItem, hm', ho', hA, Bind.bind, Except.bind, pure, Except.pure], ?_⟩
          simp [getItem, setWidget, ← hw]
  obtain ⟨st', h1, h2⟩ := hset (args name) rfl
  rw [← h2]
  exact C58_read_back hf h1 hr

/-- C86: what a setting that was created switched off reads when it is switched on. -/
theorem C86_defaults (floor : K → ℤ) {args : Name → PyVal K} {st : Settings K} (h : settingsNew args = .ok st) :
    (args .shear = .npInf → getItem floor (toggle st .shear true) .shear = .num 1) ∧
    (∀ g l t : K, args .tensile = .npInf → args .shear = .num g → args .length = .num l → args .thickness = .num t →
      getItem floor (toggle st .tensile true) .tensile = .num (g * (l / t) ^ 2)) ∧
    (args .seed = .none → getItem floor (toggle st .seed true) .seed = .num 0) ∧
    (∀ t : K, args .threshold = .none → args .thickness = .num t → getItem floor (toggle st .threshold true) .threshold = .num (20 * t)) ∧
    (args .lmin = .none → getItem floor (toggle st .lmin true) .lmin = .num (1 / 100)) ∧
    (∀ l : K, args .lmax = .none → args .length = .num l → getItem floor (toggle st .lmax true) .lmax = .num l) ∧
    (args .interpSize = .none → getItem floor (toggle st .interpSize true) .interpSize = .num 100) := by
  have hw := settingsNew_widget h
  refine ⟨?_, ?_, ?_, ?_, ?_, ?_, ?_⟩
  · intro ha
    have := hw .shear
    simp [initWidget, initModulus, ha, assign, sliderBounds, Bind.bind, Except.bind, pure, Except.pure] at this
    simp [getItem, toggle, setWidget, Name.isModulus, ← this]
  · intro g l t ha hg hl ht
    have := hw .tensile
    simp only [initWidget, initModulus, ha, defaultTensile, hg, hl, ht] at this
    by_cases h0 : t = 0
    · simp [h0, Bind.bind, Except.bind] at this
    · simp [h0, assign, sliderBounds, Bind.bind, Except.bind, pure, Except.pure] at this
      simp [getItem, toggle, setWidget, Name.isModulus, ← this]
  · intro ha
    have := hw .seed
    simp [initWidget, initOptional, ha, assign, sliderBounds, Bind.bind, Except.bind, pure, Except.pure] at this
    simp [getItem, toggle, setWidget, Name.isModulus, Name.isOptional, ← this]
  · intro t ha ht
    have := hw .threshold
    simp [initWidget, initOptional, defaultThreshold, ht, ha, assign, sliderBounds, Bind.bind, Except.bind, pure, Except.pure] at this
    simp [getItem, toggle, setWidget, Name.isModulus, Name.isOptional, ← this]
  · intro ha
    have := hw .lmin
    simp [initWidget, initOptional, ha, assign, sliderBounds, Bind.bind, Except.bind, pure, Except.pure] at this
    simp [getItem, toggle, setWidget, Name.isModulus, Name.isOptional, ← this]
  · intro l ha hl
    have := hw .lmax
    simp [initWidget, initOptional, ha, hl, assign, sliderBounds, Bind.bind, Except.bind, pure, Except.pure] at this
    simp [getItem, toggle, setWidget, Name.isModulus, Name.isOptional, ← this]
  · intro ha
    have := hw .interpSize
    simp [initWidget, initOptional, ha, assign, sliderBounds, Bind.bind, Except.bind, pure, Except.pure] at this
    simp [getItem, toggle, setWidget, Name.isModulus, Name.isOptional, ← this]

/-- C86: an infinity that is not the object `np.inf` is lost: a modulus reads as its finite default. -/
theorem C86_lost (floor : K → ℤ) {args : Name → PyVal K} {st : Settings K} (h : settingsNew args = .ok st)
    (ha : args .shear = .otherInf) : getItem floor st .shear = .num 1 := by
  have := settingsNew_widget h .shear
  simp [initWidget, initModulus, ha, assign, sliderBounds, Bind.bind, Except.bind, pure, Except.pure] at this
  simp [getItem, Name.isModulus, ← this]

/-- The sliders of new settings are in range, so that they stay in range (`C58_ranges`). -/
theorem C86_ranges {args : Name → PyVal K} {st : Settings K} (h : settingsNew args = .ok st) : InRange st := by
  have hbig : (1 : K) ≤ 1000000 := by norm_num
  have h10 : (1 : K) / 10000000000 ≤ 1 / 10 := by apply div_le_div_of_nonneg_left <;> norm_num
  have hw := settingsNew_widget h
  have key : ∀ (nm : Name) (lo hi : K), sliderBounds nm = some (lo, hi) → lo ≤ hi → ∃ a, (st nm).value = .num a ∧ lo ≤ a ∧ a ≤ hi := by
    intro nm lo hi hb hle
    have hn : nm = .theta ∨ nm = .itermax ∨ nm = .tol := by
      cases nm <;> simp [sliderBounds] at hb <;> simp
    have hplain : initWidget args nm = (assign nm (args nm)).bind (fun v => .ok ⟨v, true⟩) := by
      rcases hn with rfl | rfl | rfl <;> rfl
    have hww := hw nm
    rw [hplain] at hww
    have hne : nm.isInt = false := by rcases hn with rfl | rfl | rfl <;> rfl
    generalize args nm = v at hww
    have : (∃ a, assign nm v = .ok (.num a) ∧ lo ≤ a ∧ a ≤ hi) ∨ ∃ e, assign nm v = .error e := by
      cases v with
      | num a =>
        left
        refine ⟨min (max a lo) hi, ?_, le_min (le_max_right _ _) hle, min_le_right _ _⟩
        rcases hn with rfl | rfl | rfl <;> (simp only [assign]; rw [hb])
      | npInf =>
        left
        refine ⟨hi, ?_, hle, le_rfl⟩
        rcases hn with rfl | rfl | rfl <;> (simp only [assign, Name.isInt]; rw [hb]; rfl)
      | otherInf =>
        left
        refine ⟨hi, ?_, hle, le_rfl⟩
        rcases hn with rfl | rfl | rfl <;> (simp only [assign, Name.isInt]; rw [hb]; rfl)
      | none => right; rcases hn with rfl | rfl | rfl <;> exact ⟨_, rfl⟩
      | bool b => right; rcases hn with rfl | rfl | rfl <;> exact ⟨_, rfl⟩
    rcases this with ⟨a, ha, h1, h2⟩ | ⟨e, he⟩
    · rw [ha] at hww
      simp only [Except.bind, Except.ok.injEq] at hww
      exact ⟨a, by rw [← hww], h1, h2⟩
    · rw [he] at hww; cases hww
  exact ⟨key .theta 0 1 rfl zero_le_one, key .itermax 1 1000000 rfl hbig, key .tol _ _ rfl h10⟩

/- The default arguments, and what they read. -/
example : (settingsNew (defaultArgs (K := ℚ))).toOption.map (fun st => (allNames.map (getItem (fun a : ℚ => ⌊a⌋) st),
    getItem (fun a : ℚ => ⌊a⌋) (toggle st .tensile true) .tensile)) =
    some ([.num 0, .num 25, .num 1, .num 1, .num 50, .num npPi, .num 1, .npInf, .num 0, .bool true, .none, .num 1, .num 1000,
      .num (1 / 1000000), .none, .none, .num 1, .none, .bool true], .num 625) := by decide +kernel

/- Refused: thickness zero with the default tensile modulus, and `None` for the length. -/
example : (settingsNew (fun nm => if nm = .thickness then .num (0 : ℚ) else defaultArgs nm)).toOption.isNone = true ∧
    (settingsNew (fun nm => if nm = .length then .none else defaultArgs (K := ℚ) nm)).toOption.isNone = true := by decide +kernel

/- `C86_lost` for an accepted list of arguments. -/
example : (settingsNew (fun nm => if nm = .shear then .otherInf else defaultArgs (K := ℚ) nm)).toOption.map
    (fun st => getItem (fun a : ℚ => ⌊a⌋) st .shear) = some (.num 1) := by decide +kernel

end Fibermat
