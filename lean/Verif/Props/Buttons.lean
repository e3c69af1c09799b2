import Verif.Model.Buttons

/-! # The buttons of the notebook (C108) -/

namespace Fibermat

/-- The display mode after `n` clicks on a button that starts with `inline`. -/
def modeAfter (n : ℕ) : String := if n % 2 = 0 then "%matplotlib inline" else "%matplotlib qt"

theorem modeAfter_succ (n : ℕ) :
    modeAfter (n + 1) = if modeAfter n = "%matplotlib inline" then "%matplotlib qt" else "%matplotlib inline" := by
  unfold modeAfter
  rcases Nat.mod_two_eq_zero_or_one n with h | h
  · have h' : (n + 1) % 2 = 1 := by omega
    simp [h, h']
  · have h' : (n + 1) % 2 = 0 := by omega
    simp [h, h']

/-- A new button is in mode `inline`, whatever its first description, unless that is the one of the mode; each click changes the mode.
The description, the attribute `value` and the last command sent to IPython always agree, and the colour shows the mode. -/
theorem C108_mode (d : String) (hd : d ≠ "%matplotlib inline") (n : ℕ) :
    ((mplNew d).clicks n).description = modeAfter n ∧ ((mplNew d).clicks n).value = some (modeAfter n) ∧
    ((mplNew d).clicks n).cells = (List.range (n + 1)).map modeAfter ∧
    ((mplNew d).clicks n).cells.getLast? = some ((mplNew d).clicks n).description ∧
    (((mplNew d).clicks n).style = "success" ↔ n % 2 = 1) := by
  induction n with
  | zero =>
    simp only [MplButton.clicks, mplNew, MplButton.click, if_neg hd]
    decide
  | succ n ih =>
    obtain ⟨h1, h2, h3, -, -⟩ := ih
    simp only [MplButton.clicks]
    unfold MplButton.click
    rw [List.range_succ, List.map_append, List.map_singleton, modeAfter_succ, ← h1, h3]
    by_cases hc : ((mplNew d).clicks n).description = "%matplotlib inline"
    · rw [if_pos hc, if_pos hc]
      have : n % 2 = 0 := by
        by_contra hne
        rw [h1, modeAfter, if_neg hne] at hc
        revert hc; decide
      exact ⟨rfl, rfl, rfl, by simp, by simp; omega⟩
    · rw [if_neg hc, if_neg hc]
      have : n % 2 = 1 := by
        by_contra hne
        exact hc (by rw [h1, modeAfter, if_pos (by omega)])
      refine ⟨rfl, rfl, rfl, by simp, ?_⟩
      constructor
      · intro h; revert h; simp
      · intro h; omega

/-- A button created with the description of the mode `inline` starts in the other mode. -/
theorem C108_described : (mplNew "%matplotlib inline").description = "%matplotlib qt" ∧ (mplNew "").description = "%matplotlib inline" := by
  decide

theorem splitLines_append (v t : List Char) (h : '\n' ∉ v) : splitLines (v ++ '\n' :: t) = v :: splitLines t := by
  induction v with
  | nil => simp [splitLines]
  | cons c v ih =>
    rw [List.mem_cons, not_or] at h
    rw [List.cons_append, splitLines, if_neg (Ne.symm h.1), ih h.2]

theorem splitLines_lines (L : List (List Char)) (h : ∀ v ∈ L, '\n' ∉ v) : splitLines (L.flatMap (· ++ ['\n'])) = L ++ [[]] := by
  induction L with
  | nil => rfl
  | cons v L ih =>
    rw [List.flatMap_cons, List.append_assoc]
    rw [List.singleton_append, splitLines_append _ _ (h v (by simp)), ih (fun w hw => h w (by simp [hw]))]
    rfl

theorem click_pip (sh : Shell) (b : PipButton) : (b.click sh).pip = b.pip ∧ (b.click sh).install = b.install ∧ (b.click sh).query = b.query := by
  unfold PipButton.click
  split_ifs
  · cases sh.output b.query <;> exact ⟨rfl, rfl, rfl⟩
  · exact ⟨rfl, rfl, rfl⟩

theorem clicks_pip (history : List Shell) (b : PipButton) : (history.foldl (fun b sh => b.click sh) b).pip = b.pip := by
  induction history generalizing b with
  | nil => rfl
  | cons sh t ih => rw [List.foldl_cons, ih, (click_pip sh b).1]

/-- If the packages can be installed and each import prints its version on one line, the table shows every package once, in the
order given, with the version of its own module: also for packages whose name for pip is not the one for import, and after any
earlier clicks. -/
theorem C108_versions (sh : Shell) (packages : List (List Char)) (kwargs : List (List Char × List Char)) (option : Option (List Char))
    (version : List Char → List Char) (hv : ∀ p, '\n' ∉ version p) (history : List Shell) {b : PipButton}
    (hb : b = history.foldl (fun b sh => b.click sh) (pipNew packages kwargs option))
    (hs : sh.system b.install = 0)
    (ho : sh.output b.query = some ((packages ++ kwargs.map (·.2)).flatMap (fun p => version p ++ ['\n']))) :
    (b.click sh).description = "Installed" ∧
    (b.click sh).table = some (packages.map (fun p => (p, version p)) ++ kwargs.map (fun k => (k.1, version k.2))) := by
  have hp : b.pip = packages ++ kwargs.map (·.1) := by
    rw [hb, clicks_pip]; rfl
  unfold PipButton.click
  simp only [if_pos hs, ho, true_and]
  have e : (packages ++ kwargs.map (·.2)).flatMap (fun p => version p ++ ['\n']) =
      (((packages ++ kwargs.map (·.2)).map version).flatMap (· ++ ['\n'])) := by
    rw [List.flatMap_map]
  rw [e, splitLines_lines _ (by
    intro v hvm
    obtain ⟨p, -, rfl⟩ := List.mem_map.1 hvm
    exact hv p), hp]
  congr 1
  have key : ∀ (items : List (List Char × List Char)) (l : List (List Char)),
      (items.map (·.1)).zip ((items.map (·.2)).map version ++ l) = items.map (fun k => (k.1, version k.2)) := by
    intro items l
    induction items with
    | nil => rfl
    | cons a t ih => simp only [List.map_cons, List.cons_append, List.zip_cons_cons, ih]
  have := key (packages.map (fun p => (p, p)) ++ kwargs) [[]]
  simpa [List.map_append, Function.comp_def] using this

/-- The button says "Installed" exactly if pip reports success, even when the versions cannot be read; it then shows no table. A failed
installation is never followed by the import of the packages. -/
theorem C108_status (sh : Shell) (b : PipButton) :
    ((b.click sh).description = "Installed" ↔ sh.system b.install = 0) ∧
    ((b.click sh).description = "Not Installed" ↔ sh.system b.install ≠ 0) ∧
    ((b.click sh).table ≠ none ↔ sh.system b.install = 0 ∧ sh.output b.query ≠ none) ∧
    (sh.system b.install ≠ 0 → (b.click sh).commands = b.commands ++ [b.install]) := by
  unfold PipButton.click
  by_cases h : sh.system b.install = 0
  · cases ho : sh.output b.query <;> simp [h]
  · simp [h]

/-- The command installs every package given, each once and in order, separated by single spaces, after the option. -/
theorem C108_command (packages : List (List Char)) (kwargs : List (List Char × List Char)) (option : Option (List Char)) :
    (pipNew packages kwargs option).install =
      "pip install -q ".toList ++ option.getD [] ++ (if packages ++ kwargs.map (·.1) = [] then [' '] else []) ++
        (packages ++ kwargs.map (·.1)).flatMap (fun p => ' ' :: p) := by
  have e : "pip install -q ".toList = ['p', 'i', 'p', ' ', 'i', 'n', 's', 't', 'a', 'l', 'l', ' ', '-', 'q', ' '] := by decide
  have key : ∀ L : List (List Char), [' '] ++ List.intercalate [' '] L = (if L = [] then [' '] else []) ++ L.flatMap (fun p => ' ' :: p) := by
    intro L
    induction L with
    | nil => rfl
    | cons a t ih =>
      cases t with
      | nil => simp [List.intercalate]
      | cons b t =>
        simp only [reduceCtorEq, if_false, List.nil_append] at ih ⊢
        rw [List.flatMap_cons, ← ih]
        simp [List.intercalate]
  unfold PipButton.install pipNew
  simp only [List.append_assoc]
  rw [e, key]

/-- C108: two packages, the second imported under another name, on a machine where every command succeeds. -/
example : ((pipNew ["numpy".toList] [("scikit-learn".toList, "sklearn".toList)] none).click
      ⟨fun _ => 0, fun _ => some ("1.26\n1.4\n".toList)⟩).table =
    some [("numpy".toList, "1.26".toList), ("scikit-learn".toList, "1.4".toList)] :=
  (C108_versions _ ["numpy".toList] [("scikit-learn".toList, "sklearn".toList)] none
    (fun p => if p = "numpy".toList then "1.26".toList else "1.4".toList) (by intro p; split_ifs <;> decide) [] rfl rfl
    (by decide)).2

end Fibermat
