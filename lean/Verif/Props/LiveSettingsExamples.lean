import Verif.Props.LiveSettings

/-! # C120: concrete sessions -/

namespace Fibermat
open Spec

/-- The default settings (`Settings()`). -/
def defaultLive : Live ℚ :=
  match liveNew (defaultArgs (K := ℚ)) with
  | .ok s => s
  | .error _ => ⟨fun _ => ⟨.none, false⟩, fun _ => false⟩

theorem defaultLive_new : liveNew (defaultArgs (K := ℚ)) = .ok defaultLive := by
  have h : (liveNew (defaultArgs (K := ℚ))).toOption.isSome = true := by decide +kernel
  unfold defaultLive
  cases h' : liveNew (defaultArgs (K := ℚ)) with
  | ok s => rfl
  | error e => rw [h'] at h; cases h

theorem defaultLive_range : InRange defaultLive.widgets := by
  refine ⟨⟨1, by decide +kernel, by norm_num, by norm_num⟩, ⟨1000, by decide +kernel, by norm_num, by norm_num⟩,
    ⟨1 / 1000000, by decide +kernel, by norm_num, by norm_num⟩⟩

/-- C120: it is false that a refused value leaves the settings as they were.  With the default settings the tensile modulus reads as
infinite; `inputs["tensile"] = None` raises, and then it reads as 625. -/
theorem C120_not_unchanged : ¬ ∀ (s s' : Live ℚ) (name : Name) (v : PyVal ℚ) (e : Err), s.setItem name v = (s', some e) →
    getItem (fun a => ⌊a⌋) s'.widgets name = getItem (fun a => ⌊a⌋) s.widgets name := by
  intro h
  have h2 : (defaultLive.setItem .tensile .none).2 = some .typeError := by decide +kernel
  have := h defaultLive _ .tensile .none .typeError (Prod.ext rfl h2)
  revert this
  decide +kernel

/-- The values read in that case. -/
example : getItem (fun a => ⌊a⌋) defaultLive.widgets .tensile = .npInf ∧
    getItem (fun a => ⌊a⌋) (defaultLive.setItem .tensile .none).1.widgets .tensile = .num 625 := by
  constructor <;> decide +kernel

/-- A session: the first call raises at its second value; the third is not written; the length typed is kept; the threshold is in
grey, so typing does nothing. -/
def someSession : List (LiveOp ℚ) :=
  [.call [(.n, .num 7), (.tensile, .none), (.size, .num 20)], .edit .length (.num 5), .edit .threshold (.num 3), .click .seed false]

example :
    let s := defaultLive.session someSession
    let get := getItem (fun a => ⌊a⌋) s.widgets
    get .n = .num 7 ∧ get .tensile = .num 625 ∧ get .size = .num 50 ∧ get .length = .num 5 ∧ get .threshold = .none ∧
      get .seed = .none ∧ s.disabled .seed = true ∧ s.disabled .tensile = false ∧ s.disabled .threshold = true := by
  decide +kernel

/-- The hypotheses of `C120_switch` hold for the tensile modulus in this session; the value of `C120_refused` is met. -/
example : Wrote someSession ([.inl (.n, .num 7)] ++ .inl (.tensile, .none) :: [.inr (.seed, false)]) ∧ Switched .tensile ∧
    Puts (K := ℚ) .tensile (.inl (.tensile, .none)) true ∧ (∀ e ∈ [(.inr (.seed, false) : Name × PyVal ℚ ⊕ Name × Bool)],
      ¬ Concerns .tensile e) := by
  refine ⟨?_, Or.inl (Or.inr rfl), ⟨rfl, by simp [Off, Modulus, Optional]⟩, by simp [Concerns]⟩
  exact .call (kw' := [(.n, .num 7), (.tensile, .none)]) (.next (by simp [Accepts, Ticked]) (.stop (by simp [Accepts, Optional])))
    (.edit (.edit (.click .nil)))

example : ((defaultLive.session someSession).widgets .tensile).switch = true ∧ GreyIffOff (defaultLive.session someSession) :=
  ⟨by decide +kernel, C120_grey defaultLive_new _⟩

/-- The hypotheses of `C120_value`: a modulus is written, then refused, switched off and on again. -/
example : Accepts (K := ℚ) .tensile (.num 8) ∧ ¬ Off (K := ℚ) .tensile (.num 8) ∧ ReadsAs (K := ℚ) .tensile (.num 8) (.num 8) ∧
    (∀ o ∈ [(.write .tensile .npInf : LiveOp ℚ), .click .tensile true], KeepsValue .tensile o) ∧
    InUse (defaultLive.session ([.write .n (.num 3)] ++ .write .tensile (.num 8) :: [.write .tensile .npInf, .click .tensile true]))
      .tensile ∧
    getItem (fun a => ⌊a⌋)
      (defaultLive.session ([.write .n (.num 3)] ++ .write .tensile (.num 8) :: [.write .tensile .npInf, .click .tensile true])).widgets
      .tensile = .num 8 := by
  refine ⟨by simp [Accepts, Ticked], by simp [Off, Modulus, Optional], .plain (by simp [Slider]), ?_, ?_, ?_⟩
  · simp [KeepsValue, NoValue, Off, Modulus]
  · intro _; decide +kernel
  · decide +kernel

/-- The ranges of `C120_ranges` for a session that drags a slider too far. -/
example : getItem (fun a => ⌊a⌋) (defaultLive.session [.edit .theta (.num 3), .write .itermax .none]).widgets .theta = .num npPi ∧
    getItem (fun a => ⌊a⌋) (defaultLive.session [.edit .theta (.num 3), .write .itermax .none]).widgets .itermax = .num 1000 := by
  decide +kernel

end Fibermat
