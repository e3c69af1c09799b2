import Verif.Model.Notebook
import Verif.Spec.Notebook
import Verif.Props.WidgetsInit
import Verif.Props.Widgets
import Verif.Props.Main
import Verif.Props.Export
import Verif.Props.Logo

/-! # C100: the computation of the notebook, controlled by the settings -/

set_option linter.unusedSectionVars false

namespace Fibermat
open Spec
variable {σ K : Type} [Field K] [LinearOrder K] [IsStrictOrderedRing K]

/-! ### Keywords -/

theorem kwargs_setting (floor : K → ℤ) (st : Settings K) (name : Name) (d : PyVal K) :
    (settingsKwargs floor st).get (.setting name) d = getItem floor st name := by
  cases name <;> rfl

theorem kwargs_psi (floor : K → ℤ) (st : Settings K) (d : PyVal K) : (settingsKwargs floor st).get .psi d = d := rfl

theorem kwargs_errtol (floor : K → ℤ) (st : Settings K) (d : PyVal K) : (settingsKwargs floor st).get .errtol d = d := rfl

/-- Keywords some function of the computation looks at. -/
def Known (k : Kw) : Prop := k = .psi ∨ k = .errtol ∨ ∃ name, name ≠ .verbose ∧ k = .setting name

/-- C100: keywords that no function knows are ignored: dictionaries with the same entries for the known keywords give the same
computation. -/
theorem C100_unknown (floor : K → ℤ) (g : Rng σ K) (cos sin : K → K) (e : σ) (lp : Linprog K) (lin : LinSolver K) {kw kw' : Kwargs K}
    (h : ∀ k, Known k → kw.lookup k = kw'.lookup k) (s : σ) :
    notebookCell floor g cos sin e lp lin kw s = notebookCell floor g cos sin e lp lin kw' s := by
  have hg : ∀ k, Known k → ∀ d, kw.get k d = kw'.get k d := by
    intro k hk d
    rw [Kwargs.get, Kwargs.get, h k hk]
  have hs : ∀ name, name ≠ .verbose → ∀ d, kw.get (.setting name) d = kw'.get (.setting name) d :=
    fun name hn => hg _ (Or.inr (Or.inr ⟨name, hn, rfl⟩))
  have hp := hg .psi (Or.inl rfl)
  have he := hg .errtol (Or.inr (Or.inl rfl))
  unfold notebookCell matKw matKwargs netKw stackKw solveKw
  simp only [hp, he, hs .n (by decide), hs .length (by decide), hs .width (by decide), hs .thickness (by decide), hs .size (by decide),
    hs .theta (by decide), hs .shear (by decide), hs .tensile (by decide), hs .seed (by decide), hs .periodic (by decide),
    hs .threshold (by decide), hs .packing (by decide), hs .itermax (by decide), hs .tol (by decide), hs .lmin (by decide),
    hs .lmax (by decide), hs .coupling (by decide), hs .interpSize (by decide)]

/-- C100: a misspelled keyword is not an error: `Stack(mat, net, thresold=v)` keeps all the nodes, whatever `v`. -/
theorem C100_misspelled (lp : Linprog K) (mat : Mat K) (net : Net K) (k : ℕ) (v : PyVal K) :
    stackKw lp mat net [(.other k, v)] = stackNew lp mat net none := rfl

theorem get_append (kw kw' : Kwargs K) (k : Kw) (d : PyVal K) : (kw ++ kw').get k d = kw.get k (kw'.get k d) := by
  simp only [Kwargs.get, List.lookup_append]
  cases kw.lookup k <;> rfl

/-- C100: leaving a keyword out is the same as writing its documented value. -/
theorem C100_written_out (floor : K → ℤ) (g : Rng σ K) (cos sin : K → K) (e : σ) (lp : Linprog K) (lin : LinSolver K) (kw : Kwargs K)
    (s : σ) : notebookCell floor g cos sin e lp lin (kw ++ writtenOut) s = notebookCell floor g cos sin e lp lin kw s := by
  unfold notebookCell matKw matKwargs netKw stackKw solveKw
  simp only [get_append]
  rfl

/-! ### Values -/

theorem standard_default (name : Name) : (StandardValue name : PyVal K) = defaultArgs name := by cases name <;> rfl

/-- What counts is what the settings read. -/
theorem counts_reads {floor : K → ℤ} (hf : IsFloor floor) {l : List (Name × PyVal K)} {st0 st : Settings K}
    (h0 : settingsNew defaultArgs = .ok st0) (h : callSettings st0 l = .ok st) {name : Name} {w : PyVal K} (hc : Counts l name w) :
    getItem floor st name = w := by
  rcases hc with ⟨v, hl, hr⟩ | ⟨hn, hr⟩
  · exact C58_last_wins hf h hl hr
  · rw [C58_unwritten floor h hn]
    rw [standard_default] at hr
    exact C86_reads hf h0 hr (by rintro (rfl | rfl) <;> simp [defaultArgs])

theorem asInt_cast {floor : K → ℤ} (hf : IsFloor floor) (k : ℤ) : (PyVal.num (k : K)).asInt floor = .ok k := by
  have : floor (k : K) = k := floor_unique hf le_rfl (by linarith)
  simp [PyVal.asInt, this]

/-- C100: a computation that succeeds without resampling is refused with a ValueError when a negative number of samples is
asked for. -/
theorem C100_negative_size {floor : K → ℤ} (hf : IsFloor floor) (lin : LinSolver K) (mat : Mat K) (mesh : Mesh K)
    (kw : Kwargs K) {R : SolveResult K} (h : solveKw floor lin mat mesh ((.setting .interpSize, .none) :: kw) = .ok R) {k : ℤ} (hk : k < 0) :
    solveKw floor lin mat mesh ((.setting .interpSize, .num (k : K)) :: kw) = .error .valueError := by
  have hsame : ∀ (x : Kw) (v d : PyVal K), x ≠ .setting .interpSize →
      Kwargs.get ((.setting .interpSize, v) :: kw) x d = Kwargs.get kw x d := by
    intro x v d hx
    have hb : (x == Kw.setting .interpSize) = false := beq_eq_false_iff_ne.2 hx
    simp only [Kwargs.get, List.lookup, hb]
  have hget : ∀ (v d : PyVal K), Kwargs.get ((.setting .interpSize, v) :: kw) (.setting .interpSize) d = v := by
    intro v d
    simp [Kwargs.get, List.lookup]
  have hsz : (PyVal.num (k : K)).asOptInt floor = .ok (some k) := by
    simp only [PyVal.asOptInt, asInt_cast hf]; rfl
  unfold solveKw at h ⊢
  rw [hget, hsz]
  rw [hget] at h
  simp only [hsame (.setting .packing) _ _ (by decide), hsame (.setting .itermax) _ _ (by decide), hsame (.setting .tol) _ _ (by decide),
    hsame .errtol _ _ (by decide), hsame (.setting .lmin) _ _ (by decide), hsame (.setting .lmax) _ _ (by decide),
    hsame (.setting .coupling) _ _ (by decide)] at h ⊢
  simp only [Bind.bind, Except.bind, pure, Except.pure] at h ⊢
  repeat (split at h; · cases h)
  simp_all [kwSamples, PyVal.asOptInt]

theorem asOptNum_value (a : Option K) : (optValue a).asOptNum = .ok a := by cases a <;> rfl

theorem asOptInt_value {floor : K → ℤ} (hf : IsFloor floor) (a : Option ℤ) :
    (optValue (a.map (fun k : ℤ => (k : K)))).asOptInt floor = .ok a := by
  cases a with
  | none => rfl
  | some k =>
    simp only [Option.map_some, optValue, PyVal.asOptInt, asInt_cast hf]
    rfl

theorem asTop_of {v : PyVal K} {t : WithTop K} (h : MeansTop v t) : v.asTop = .ok t := by
  cases h with
  | num a => rfl
  | inf h => rcases h with rfl | rfl <;> rfl

theorem asCell_of {v : PyVal K} {t : Cell K} (h : MeansCell v t) : v.asCell = .ok t := by
  cases h with
  | num a => rfl
  | inf h => rcases h with rfl | rfl <;> rfl

/-- Options of the solver asked for. -/
def askOpts (v : Ask K) (lin : LinSolver K) : Opts K :=
  { packing := v.packing, itermax := v.itermax, tol := v.tol, errtol := 1 / 1000000, perm := [], lin := lin }

section
variable {floor : K → ℤ} {g : Rng σ K} {cos sin : K → K} {e : σ} {lp : Linprog K} {lin : LinSolver K} {l : List (Name × PyVal K)}
  {v : Ask K} {s s' : σ} {R : NotebookResult K}

/-- The settings of the notebook are created, and accept the writes. -/
theorem notebook_settings (hacc : ∀ p ∈ l, Accepts p.1 p.2) :
    ∃ st0 st : Settings K, settingsNew defaultArgs = .ok st0 ∧ callSettings st0 l = .ok st ∧
      notebook floor g cos sin e lp lin l s = notebookCell floor g cos sin e lp lin (settingsKwargs floor st) s := by
  obtain ⟨st0, h0⟩ := (C86_accepts (defaultArgs (K := K))).2 ⟨by
    intro name
    cases name <;> simp [defaultArgs, Accepts, Ticked, Optional, Integer], by
    rintro ⟨-, h⟩
    simp [defaultArgs] at h⟩
  obtain ⟨st, h⟩ := (C58_calls_accept st0 l).2 hacc
  refine ⟨st0, st, h0, h, ?_⟩
  unfold notebook
  simp only [h0, h, Bind.bind, Except.bind]

/-- C100: settings that were not written give the same computation as calling the functions without keywords. -/
theorem C100_fresh (hf : IsFloor floor) :
    notebook floor g cos sin e lp lin [] s = notebookCell floor g cos sin e lp lin [] s := by
  obtain ⟨st0, st, h0, h, heq⟩ := notebook_settings (floor := floor) (g := g) (cos := cos) (sin := sin) (e := e) (lp := lp)
    (lin := lin) (s := s) (l := []) (by simp)
  have hr : ∀ {name} {w : PyVal K}, ReadsAs name (StandardValue name) w → getItem floor st name = w :=
    fun hc => counts_reads hf h0 h (Or.inr ⟨by simp, hc⟩)
  rw [heq, ← C100_written_out, ← C100_written_out floor g cos sin e lp lin []]
  refine C100_unknown floor g cos sin e lp lin ?_ s
  rintro k (rfl | rfl | ⟨name, hn, rfl⟩)
  · rfl
  · rfl
  · have hl : (settingsKwargs floor st).lookup (.setting name) = some (getItem floor st name) := by cases name <;> rfl
    rw [List.lookup_append, hl, Option.some_or, List.nil_append]
    have ht : getItem floor st .theta = .num npPi := by
      have := hr (ReadsAs.theta (K := K) (a := 1) zero_le_one le_rfl)
      rwa [one_mul] at this
    have hi : getItem floor st .itermax = .num 1000 := by
      have := hr (ReadsAs.itermax (K := K) (a := 1000) (k := 1000) (by norm_num) (by norm_num) (by norm_num) (by norm_num))
      simpa using this
    have htol : getItem floor st .tol = .num (1 / 1000000) := hr (.tol (by norm_num) (by norm_num))
    by_cases hs : Slider name
    · have hs' : name = .theta ∨ name = .itermax ∨ name = .tol := by cases name <;> simp_all [Slider]
      rcases hs' with rfl | rfl | rfl
      · rw [ht]; rfl
      · rw [hi]; rfl
      · rw [htol]; rfl
    · rw [hr (.plain hs)]
      cases name <;> first | rfl | exact absurd rfl hn | simp [Slider] at hs

/-- C100: a number of fibers that is not an integer is refused with a TypeError. -/
theorem C100_fraction {floor : K → ℤ} {kw : Kwargs K} {a : K} (hn : kw.lookup (.setting .n) = some (.num a)) (ha : ∀ k : ℤ, (k : K) ≠ a) :
    matKw floor g cos sin e kw s = .error .typeError := by
  have h : (kw.get (.setting .n) (.num 0)).asInt floor = .error .typeError := by
    simp [Kwargs.get, hn, PyVal.asInt, ha]
  simp only [matKw, matKwargs, h, Bind.bind, Except.bind]

/-- C100: a write that its setting does not accept stops the notebook with a TraitError. -/
theorem C100_refused (h : ¬ ∀ p ∈ l, Accepts p.1 p.2) : notebook floor g cos sin e lp lin l s = .error .typeError := by
  obtain ⟨st0, st, h0, -, -⟩ := notebook_settings (floor := floor) (g := g) (cos := cos) (sin := sin) (e := e) (lp := lp)
    (lin := lin) (s := s) (l := ([] : List (Name × PyVal K))) (by simp)
  have key : ∀ (l : List (Name × PyVal K)) (st : Settings K), (¬ ∀ p ∈ l, Accepts p.1 p.2) → callSettings st l = .error .typeError := by
    intro l
    induction l with
    | nil => intro st h; exact absurd (by simp) h
    | cons p l ih =>
      intro st h
      rw [callSettings_cons]
      cases hp : setItem st p.1 p.2 with
      | error err => rw [C58_refused hp]; rfl
      | ok st' =>
        have hacc := (C58_accepts st p.1 p.2).1 ⟨st', hp⟩
        exact ih st' (fun hl => h (by
          intro q hq
          rcases List.mem_cons.1 hq with rfl | hq
          · exact hacc
          · exact hl q hq))
  unfold notebook
  simp only [h0, key l st0 h, Bind.bind, Except.bind]

/-- The computation with the values asked for. -/
theorem notebook_eq (hf : IsFloor floor) (hacc : ∀ p ∈ l, Accepts p.1 p.2) (hv : Asks l v) :
    notebook floor g cos sin e lp lin l s = (do
      let r ← matNew g cos sin e v.fibers s
      let net ← netNew r.1 v.periodic
      let st ← stackNew lp r.1 net v.threshold
      let mesh ← meshNew st.2
      let out ← solve st.1 mesh v.lmin v.lmax v.coupling (askOpts v lin) none
      return ({ mat := st.1, stack := st.2, mesh := mesh,
                sol := { sys := out.1, recs := out.2.1, stop := out.2.2, size := v.samples } }, r.2)) := by
  obtain ⟨st0, st, h0, h, heq⟩ := notebook_settings (floor := floor) (g := g) (cos := cos) (sin := sin) (e := e) (lp := lp)
    (lin := lin) (s := s) hacc
  rw [heq]
  have hr : ∀ {name w}, Counts l name w → getItem floor st name = w := fun hc => counts_reads hf h0 h hc
  obtain ⟨wE, hE, hE'⟩ := hv.tensile
  obtain ⟨wP, hP, hP'⟩ := hv.packing
  have hmat : matKwargs floor (settingsKwargs floor st) = .ok v.fibers := by
    unfold matKwargs
    simp only [kwargs_setting, kwargs_psi, hr hv.n, hr hv.length, hr hv.width, hr hv.thickness, hr hv.size, hr hv.angle, hr hv.shear,
      hr hE, hr hv.seed, asInt_cast hf, asOptInt_value hf, asTop_of hE', PyVal.asNum, Bind.bind, Except.bind, pure, Except.pure]
    rfl
  have hsize : (getItem floor st .interpSize).asOptInt floor = .ok (v.samples.map (fun k : ℕ => (k : ℤ))) := by
    rw [hr hv.samples]
    have := asOptInt_value hf (v.samples.map (fun k : ℕ => (k : ℤ)))
    rw [Option.map_map] at this
    convert this using 3
    simp [Function.comp_def]
  have hcount : kwSamples (v.samples.map (fun k : ℕ => (k : ℤ))) = .ok v.samples := by
    cases v.samples with
    | none => rfl
    | some k => simp [kwSamples]
  have hit : (getItem floor st .itermax).asInt floor = .ok (v.itermax : ℤ) := by
    rw [hr hv.itermax]
    have := asInt_cast hf (v.itermax : ℤ)
    simpa using this
  unfold notebookCell matKw netKw stackKw solveKw
  simp only [hmat, kwargs_setting, kwargs_errtol, hr hv.periodic, hr hv.threshold, hr hP, hr hv.tol, hr hv.lmin, hr hv.lmax,
    hr hv.coupling, hsize, hit, asOptNum_value, asCell_of hP', PyVal.asBool, PyVal.asNum, Bind.bind, Except.bind, pure, Except.pure,
    hcount, Int.toNat_natCast, askOpts]
  cases matNew g cos sin e v.fibers s with
  | error err => rfl
  | ok r =>
    cases h2 : netNew r.1 v.periodic with
    | error err => simp [h2]
    | ok net =>
      cases h3 : stackNew lp r.1 net v.threshold with
      | error err => simp [h2, h3]
      | ok st =>
        cases h4 : meshNew st.2 with
        | error err => simp [h2, h3, h4]
        | ok mesh =>
          simp only [h2, h3, h4]
          cases solve st.1 mesh v.lmin v.lmax v.coupling _ none <;> rfl

/-- C100: the notebook computes exactly with the values that were written last, or the documented ones. -/
theorem C100_values (hf : IsFloor floor) (hacc : ∀ p ∈ l, Accepts p.1 p.2) (hv : Asks l v) :
    notebook floor g cos sin e lp lin l s = .ok (R, s') ↔
      ∃ m net, matNew g cos sin e v.fibers s = .ok (m, s') ∧ netNew m v.periodic = .ok net ∧
        stackNew lp m net v.threshold = .ok (R.mat, R.stack) ∧ meshNew R.stack = .ok R.mesh ∧
        solve R.mat R.mesh v.lmin v.lmax v.coupling
          { packing := v.packing, itermax := v.itermax, tol := v.tol, errtol := 1 / 1000000, perm := [], lin := lin } none =
          .ok (R.sol.sys, R.sol.recs, R.sol.stop) ∧ R.sol.size = v.samples := by
  rw [notebook_eq hf hacc hv]
  constructor
  · intro h
    simp only [bind, Except.bind, pure, Except.pure] at h
    split at h
    · cases h
    rename_i r h1
    split at h
    · cases h
    rename_i net h2
    split at h
    · cases h
    rename_i st h3
    split at h
    · cases h
    rename_i mesh h4
    split at h
    · cases h
    rename_i out h5
    simp only [Except.ok.injEq, Prod.mk.injEq] at h
    obtain ⟨rfl, rfl⟩ := h
    exact ⟨r.1, net, h1, h2, h3, h4, h5, rfl⟩
  · rintro ⟨m, net, h1, h2, h3, h4, h5, h6⟩
    obtain ⟨mat, stack, mesh, sys, recs, stop, size⟩ := R
    simp only at h3 h4 h5 h6
    subst h6
    simp only [bind, Except.bind, pure, Except.pure, h1, h2, h3, h4, askOpts, h5]

/-- A solve with the numbering of the unknowns as they come. -/
theorem solve_range {mat : Mat K} {mesh : Mesh K} {lmin lmax : Option K} {coupling : K} {o : Opts K} {Km : Coo (Cell K)}
    {cs : ConstraintSys K} (hK : stiffness mat mesh none none 1 = .ok Km) (hC : constraint mat mesh = .ok cs) :
    solve mat mesh lmin lmax coupling o (some (List.range (assemble Km cs).n)) = solve mat mesh lmin lmax coupling o none := by
  unfold solve
  simp only [bind, Except.bind, pure, Except.pure, hC]
  cases hK' : stiffness mat mesh lmin lmax coupling with
  | error err => rfl
  | ok Km' =>
    obtain ⟨_, _, _, _, _, _, e1⟩ := stiffness_eq hK
    obtain ⟨_, _, _, _, _, _, e2⟩ := stiffness_eq hK'
    have e : (assemble Km cs).n = (assemble Km' cs).n := by
      simp only [assemble, Sys.n, e1, e2]
    simp [e]

/-- C100: the notebook computes what `main.py` would compute with these values and the unknowns in their order. -/
theorem C100_main (hf : IsFloor floor) (hacc : ∀ p ∈ l, Accepts p.1 p.2) (hv : Asks l v) {ε : K} (hg : UnitInterval g)
    (hcs : NearUnit cos sin ε) (hε : ε ≤ 1 / 10 ^ 6) (hlp : GoodLinprog lp) :
    notebook floor g cos sin e lp lin l s = (mainProgram g cos sin e lp (fun S => List.range S.n) v.fibers v.periodic v.threshold
      v.lmin v.lmax v.coupling (askOpts v lin) s).map
        (fun r => ({ mat := r.1.mat, stack := r.1.stack, mesh := r.1.mesh,
                     sol := { sys := r.1.sys, recs := r.1.recs, stop := r.1.stop, size := v.samples } }, r.2)) := by
  have hruns := C87_runs (order := fun S : Sys K => List.range S.n) (a := v.fibers) (periodic := v.periodic)
    (threshold := v.threshold) (lmin := v.lmin) (lmax := v.lmax) (coupling := v.coupling) (o := askOpts v lin) (e := e) (s := s)
    hg hcs hε hlp
  by_cases hok : GoodSeed v.fibers.seed ∧ 0 < v.fibers.n ∧ 0 ≤ v.fibers.size ∧ PositiveArgs v.fibers
  · obtain ⟨⟨M, s'⟩, hM⟩ := hruns.1.2 hok
    rw [hM]
    obtain ⟨m, net, Km, cs, h1, h2, h3, h4, hK, hC, -, h8⟩ := main_parts hM
    rw [solve_range hK hC] at h8
    exact (C100_values hf hacc hv).2 ⟨m, net, h1, h2, h3, h4, h8, rfl⟩
  · rw [hruns.2 hok]
    by_cases h0 : GoodSeed v.fibers.seed ∧ v.fibers.n = 0
    · obtain ⟨⟨m, s'⟩, h1⟩ := (C03_matNew_ok_iff g cos sin e v.fibers s hg hcs hε).2 ⟨h0.1, Or.inl h0.2⟩
      obtain ⟨hgood, -⟩ := matNew_good hg hcs hε h1
      have he : m.fibers = [] := by
        have := matNew_length hg hcs hε h1
        rw [h0.2] at this
        exact List.length_eq_zero_iff.1 (by omega)
      have hch := chain_empty (lp := lp) hgood he v.periodic v.threshold v.lmin v.lmax v.coupling (askOpts v lin) none
      rw [notebook_eq hf hacc hv]
      unfold chain at hch
      simp only [bind, Except.bind, pure, Except.pure, h1] at hch ⊢
      cases h2 : netNew m v.periodic with
      | error err => rw [h2] at hch; simpa [Except.map] using hch
      | ok net =>
        cases h3 : stackNew lp m net v.threshold with
        | error err => simp only [h2, h3] at hch ⊢; simpa [Except.map] using hch
        | ok st =>
          cases h4 : meshNew st.2 with
          | error err => simp only [h2, h3, h4] at hch ⊢; simpa [Except.map] using hch
          | ok mesh => simp only [h2, h3, h4] at hch ⊢; rw [hch]; rfl
    · have h1 := C03_matNew_error g cos sin e v.fibers s hg hcs hε (by rintro ⟨hs, h | h⟩; exacts [h0 ⟨hs, h⟩, hok ⟨hs, h⟩])
      rw [notebook_eq hf hacc hv]
      simp only [bind, Except.bind, h1]
      rfl

/-- C100: the notebook runs to its end exactly when the seed is acceptable, the number of fibers, the dimensions and the moduli asked for are positive and the
size of the box is not negative; otherwise it raises ValueError.  In particular it fails with the settings as
they are created, where the number of fibers is 0. -/
theorem C100_runs (hf : IsFloor floor) (hacc : ∀ p ∈ l, Accepts p.1 p.2) (hv : Asks l v) {ε : K} (hg : UnitInterval g)
    (hcs : NearUnit cos sin ε) (hε : ε ≤ 1 / 10 ^ 6) (hlp : GoodLinprog lp) :
    ((∃ r, notebook floor g cos sin e lp lin l s = .ok r) ↔
      GoodSeed v.seed ∧ 0 < v.n ∧ 0 ≤ v.size ∧ PositiveArgs v.fibers) ∧
    (¬ (GoodSeed v.seed ∧ 0 < v.n ∧ 0 ≤ v.size ∧ PositiveArgs v.fibers) → notebook floor g cos sin e lp lin l s = .error .valueError) := by
  rw [C100_main hf hacc hv hg hcs hε hlp]
  have hruns := C87_runs (order := fun S : Sys K => List.range S.n) (a := v.fibers) (periodic := v.periodic)
    (threshold := v.threshold) (lmin := v.lmin) (lmax := v.lmax) (coupling := v.coupling) (o := askOpts v lin) (e := e) (s := s)
    hg hcs hε hlp
  refine ⟨⟨?_, ?_⟩, fun h => by rw [hruns.2 h]; rfl⟩
  · rintro ⟨r, hr⟩
    by_contra hc
    rw [hruns.2 hc] at hr
    cases hr
  · intro h
    obtain ⟨r, hr⟩ := hruns.1.2 h
    rw [hr]
    exact ⟨_, rfl⟩

/-- C100: with a seed, running a cell again gives the same result, whatever was drawn in between. -/
theorem C100_again (hf : IsFloor floor) (hacc : ∀ p ∈ l, Accepts p.1 p.2) (hv : Asks l v) {k : ℤ} (hk : v.seed = some k) (e' t : σ) :
    notebook floor g cos sin e lp lin l s = notebook floor g cos sin e' lp lin l t := by
  rw [notebook_eq hf hacc hv, notebook_eq hf hacc hv, C04_seed_deterministic g cos sin e e' v.fibers k hk s t]

/-- C100: with a threshold (if any) not below the thickness, a positive `lmin` and a coupling below one, fibers never penetrate each
other nor the plates, and with enough iterations the packing asked for is reached, or the height of two crossing fibers. -/
theorem C100_result (hf : IsFloor floor) (hacc : ∀ p ∈ l, Accepts p.1 p.2) (hv : Asks l v) {ε : K} (hg : UnitInterval g)
    (hcs : NearUnit cos sin ε) (hε : ε ≤ 1 / 10 ^ 6) (hlp : GoodLinprog lp) (hlin : GoodLin lin) (hsin : sin 0 = 0)
    (hth : ∀ t, v.threshold = some t → v.thickness ≤ t) {a : K} (hl : v.lmin = some a) (hl0 : 0 < a)
    (hmax : ∀ b, v.lmax = some b → 0 < b) (hcoup : |v.coupling| < 1)
    (h : notebook floor g cos sin e lp lin l s = .ok (R, s')) :
    (R.mat.fibers.length : ℤ) = v.n ∧ (R.mesh.rows.length : ℤ) ≤ v.n * (v.n + 1) ∧
    ∃ H : K, H = (if ∃ r ∈ R.stack.rows, r.A ≠ r.B then 2 * v.thickness else v.thickness) ∧
      (∀ b ∈ R.sol.recs, NonPenetrating R.mat R.mesh.rows b.Z b.x ∧ IsTop R.mat (R.mesh.deform b.x).rows b.Z ∧
        0 < H ∧ H ≤ b.Z ∧ b.rlambda = .fin (R.sol.sys.Z0 / b.Z)) ∧
      (3 * R.mesh.rows.length < v.itermax → ∃ b, R.sol.recs.getLast? = some b ∧
        (Cell.lt b.rlambda v.packing = false ∨ b.Z ≤ H + 3 * v.tol)) := by
  have htol : 0 ≤ v.tol := by
    obtain ⟨st0, st, h0, h1, -⟩ := notebook_settings (floor := floor) (g := g) (cos := cos) (sin := sin) (e := e) (lp := lp)
      (lin := lin) (s := s) hacc
    have hops : ∀ (l : List (Name × PyVal K)) (st : Settings K), runOps st (l.map (fun p => Op.write p.1 p.2)) = callSettings st l := by
      intro l
      induction l with
      | nil => intro st; rfl
      | cons p l ih =>
        intro st
        simp only [List.map_cons, runOps, callSettings_cons]
        congr 1
        funext st'
        exact ih st'
    obtain ⟨-, -, a, ha, ha0, -⟩ := C58_ranges hf ((hops l st0).trans h1) (C86_ranges h0)
    rw [counts_reads hf h0 h1 hv.tol] at ha
    cases ha
    exact le_trans (by positivity) ha0
  rw [C100_main hf hacc hv hg hcs hε hlp] at h
  cases hM : mainProgram g cos sin e lp (fun S => List.range S.n) v.fibers v.periodic v.threshold v.lmin v.lmax v.coupling
      (askOpts v lin) s with
  | error err => rw [hM] at h; cases h
  | ok M =>
    obtain ⟨M, s1⟩ := M
    rw [hM] at h
    simp only [Except.map, Except.ok.injEq, Prod.mk.injEq] at h
    obtain ⟨rfl, rfl⟩ := h
    obtain ⟨m, net, Km, cs, h1, h2, h3, h4, -⟩ := main_parts hM
    obtain ⟨hgood, -⟩ := matNew_good hg hcs hε h1
    have hne : m.fibers ≠ [] := by
      obtain ⟨m2, net2, Km, cs, g1, g2, g3, g4, -, -, -, g8⟩ := main_parts hM
      rw [h1] at g1; cases g1
      rw [h2] at g2; cases g2
      exact chain_nonempty hlp hgood h2 h3 h4 g8
    obtain ⟨net', k1, hst, hgood', hsame, -⟩ := chain_facts hlp hgood hne h2 h3 h4
    have hlen : m.fibers.length = M.mat.fibers.length := by simpa using congrArg List.length hsame.2
    refine ⟨?_, (C87_iterations hg hcs hε hlp hM).2, ?_⟩
    · have := matNew_length hg hcs hε h1
      rw [hlen] at this
      exact this
    · exact C87_result hg hcs hε hlp (fun S => List.Perm.refl _) rfl hsin hth hl hl0 hmax hcoup htol
        (by norm_num [askOpts]) hlin hM

/-- C100: the exported fields at the end (`u(1)`, `f(1)`) are those of the last state, whatever the number of samples (at least
two). -/
theorem C100_last (hf : IsFloor floor) (hacc : ∀ p ∈ l, Accepts p.1 p.2) (hv : Asks l v) (hs : ∀ k, v.samples = some k → 2 ≤ k)
    (h : notebook floor g cos sin e lp lin l s = .ok (R, s')) (hlen : 2 ≤ R.sol.recs.length) :
    ∃ a, R.sol.recs.getLast? = some a ∧ ∀ i,
      (exportFields R.sol.sys R.sol.recs R.sol.size 1).displacement i = a.x (2 * i) ∧
      (exportFields R.sol.sys R.sol.recs R.sol.size 1).rotation i = a.x (2 * i + 1) ∧
      (exportFields R.sol.sys R.sol.recs R.sol.size 1).force i = R.sol.sys.nodeLoad (fun k => a.x (R.sol.sys.nK + k)) (2 * i) := by
  obtain ⟨m, net, -, -, -, -, -, hsz⟩ := (C100_values hf hacc hv).1 h
  obtain ⟨a, ha, hall⟩ := C88_last (recs := R.sol.recs) R.sol.sys hlen R.sol.size (fun k hk => hs k (by rw [← hsz]; exact hk))
  exact ⟨a, ha, fun i => ⟨(hall i).1, (hall i).2.1, (hall i).2.2.1⟩⟩

end

/-! ### The tutorial -/

/-- What the tutorial asks for. -/
def tutorialAsk (K : Type) [Field K] : Ask K :=
  { n := 100, length := 25, width := 1, thickness := 1, size := 50, angle := npPi, shear := 1, tensile := ((625 : K) : WithTop K),
    seed := some 0, periodic := true, threshold := some 10, packing := .fin 3, itermax := 1000, tol := 1 / 1000000,
    lmin := some (1 / 100), lmax := none, coupling := 99 / 100, samples := some 100 }

theorem counts_write {l l1 l2 : List (Name × PyVal K)} {name : Name} {v : PyVal K} (hl : l = l1 ++ (name, v) :: l2)
    (hn : ∀ p ∈ l2, p.1 ≠ name) (hs : ¬ Slider name) : Counts l name v :=
  Or.inl ⟨v, ⟨l1, l2, hl, hn⟩, .plain hs⟩

theorem counts_standard {l : List (Name × PyVal K)} {name : Name} {v : PyVal K} (hn : ∀ p ∈ l, p.1 ≠ name)
    (hr : ReadsAs name (StandardValue name) v) : Counts l name v := Or.inr ⟨hn, hr⟩

theorem tutorial_asks : Asks (tutorialWrites : List (Name × PyVal K)) (tutorialAsk K) where
  n := by
    have : Counts (tutorialWrites : List (Name × PyVal K)) .n (.num 100) := counts_write (l1 := []) rfl (by simp) (by simp [Slider])
    simpa [tutorialAsk] using this
  length := counts_standard (by simp [tutorialWrites]) (.plain (by simp [Slider]))
  width := counts_standard (by simp [tutorialWrites]) (.plain (by simp [Slider]))
  thickness := counts_standard (by simp [tutorialWrites]) (.plain (by simp [Slider]))
  size := counts_write (l1 := [_]) rfl (by simp) (by simp [Slider])
  angle := by
    refine counts_standard (by simp [tutorialWrites]) ?_
    have := ReadsAs.theta (K := K) (a := 1) zero_le_one le_rfl
    rw [one_mul] at this
    exact this
  shear := counts_standard (by simp [tutorialWrites]) (.plain (by simp [Slider]))
  tensile := ⟨_, counts_write (l1 := [_, _]) rfl (by simp) (by simp [Slider]), .num _⟩
  seed := by
    have : Counts (tutorialWrites : List (Name × PyVal K)) .seed (.num 0) :=
      counts_write (l1 := [_, _, _]) rfl (by simp) (by simp [Slider])
    simpa [tutorialAsk, optValue] using this
  periodic := counts_write (l1 := [_, _, _, _]) rfl (by simp) (by simp [Slider])
  threshold := counts_write (l1 := [_, _, _, _, _]) rfl (by simp) (by simp [Slider])
  packing := ⟨_, counts_write (l1 := [_, _, _, _, _, _, _, _]) rfl (by simp) (by simp [Slider]), .num _⟩
  itermax := by
    refine counts_standard (by simp [tutorialWrites]) ?_
    have := ReadsAs.itermax (K := K) (a := 1000) (k := 1000) (by norm_num) (by norm_num) (by norm_num) (by norm_num)
    simpa [StandardValue, tutorialAsk] using this
  tol := counts_standard (by simp [tutorialWrites])
    (.tol (by apply div_le_div_of_nonneg_left <;> norm_num) (by apply div_le_div_of_nonneg_left <;> norm_num))
  lmin := counts_write (l1 := [_, _, _, _, _, _]) rfl (by simp) (by simp [Slider])
  lmax := counts_standard (by simp [tutorialWrites]) (.plain (by simp [Slider]))
  coupling := counts_write (l1 := [_, _, _, _, _, _, _]) rfl (by simp) (by simp [Slider])
  samples := by
    have : Counts (tutorialWrites : List (Name × PyVal K)) .interpSize (.num 100) :=
      counts_write (l1 := [_, _, _, _, _, _, _, _, _]) rfl (by simp) (by simp [Slider])
    simpa [tutorialAsk, optValue] using this

theorem tutorial_accepts : ∀ p ∈ (tutorialWrites : List (Name × PyVal K)), Accepts p.1 p.2 := by
  simp [tutorialWrites, Accepts, Ticked]

/-- C100: the tutorial, for any generator, cosine and sine, and solvers as specified: it runs to its end with 100 fibers, which never
penetrate each other nor the plates; the height stays above two thicknesses when fibers cross, and if the 1000 iterations are enough
for the number of nodes the mat is packed three times or squeezed to that height; running it again gives the same result. -/
theorem C100_tutorial {floor : K → ℤ} (hf : IsFloor floor) {g : Rng σ K} {cos sin : K → K} {ε : K} (hg : UnitInterval g)
    (hcs : NearUnit cos sin ε) (hε : ε ≤ 1 / 10 ^ 6) {lp : Linprog K} (hlp : GoodLinprog lp) {lin : LinSolver K} (hlin : GoodLin lin)
    (hsin : sin 0 = 0) (e s : σ) :
    ∃ R s', (∀ e' t, notebook floor g cos sin e' lp lin tutorialWrites t = .ok (R, s')) ∧
      notebook floor g cos sin e lp lin tutorialWrites s = .ok (R, s') ∧ R.mat.fibers.length = 100 ∧
      R.mesh.rows.length ≤ 10100 ∧ R.sol.size = some 100 ∧
      ∃ H : K, (H = 1 ∨ H = 2) ∧ ((∃ r ∈ R.stack.rows, r.A ≠ r.B) → H = 2) ∧
        (∀ b ∈ R.sol.recs, NonPenetrating R.mat R.mesh.rows b.Z b.x ∧ H ≤ b.Z ∧ b.rlambda = .fin (R.sol.sys.Z0 / b.Z)) ∧
        (R.mesh.rows.length ≤ 333 → ∃ b, R.sol.recs.getLast? = some b ∧
          (Cell.lt b.rlambda (.fin 3) = false ∨ b.Z ≤ H + 3 / 1000000)) := by
  obtain ⟨⟨R, s'⟩, hR⟩ := (C100_runs (e := e) (s := s) (lin := lin) hf tutorial_accepts tutorial_asks hg hcs hε hlp).1.2
    ⟨by norm_num [tutorialAsk, GoodSeed], by norm_num [tutorialAsk], by norm_num [tutorialAsk], by norm_num [tutorialAsk, Ask.fibers],
      by norm_num [tutorialAsk, Ask.fibers], by norm_num [tutorialAsk, Ask.fibers], by norm_num [tutorialAsk, Ask.fibers], by
        simp only [tutorialAsk, Ask.fibers]
        exact WithTop.coe_lt_coe.2 (by norm_num)⟩
  obtain ⟨h1, h2, H, hH, h3, h4⟩ := C100_result hf tutorial_accepts tutorial_asks hg hcs hε hlp hlin hsin
    (by intro t ht; cases ht; norm_num [tutorialAsk]) rfl (by norm_num) (by intro b hb; cases hb)
    (by norm_num [tutorialAsk, abs_lt]) hR
  obtain ⟨_, _, _, _, _, _, _, hsz⟩ := (C100_values hf tutorial_accepts tutorial_asks).1 hR
  refine ⟨R, s', fun e' t => ?_, hR, by simp [tutorialAsk] at h1; omega, by simp [tutorialAsk] at h2; omega, hsz, H, ?_, ?_, ?_, ?_⟩
  · rw [← hR]
    exact C100_again hf tutorial_accepts tutorial_asks rfl e t
  · rw [hH]
    split_ifs
    · right; norm_num [tutorialAsk]
    · left; rfl
  · intro hc
    rw [hH, if_pos hc]
    norm_num [tutorialAsk]
  · intro b hb
    obtain ⟨q1, -, -, q2, q3⟩ := h3 b hb
    exact ⟨q1, q2, q3⟩
  · intro hr
    obtain ⟨b, hb, hc⟩ := h4 (by simp [tutorialAsk]; omega)
    refine ⟨b, hb, hc.imp_right (fun h => h.trans (le_of_eq ?_))⟩
    norm_num [tutorialAsk]

/-! ### Concrete cases -/

/-- The tutorial with the generator and the solvers of the examples. -/
example (lp : Linprog ℚ) (hlp : GoodLinprog lp) : ∃ R s',
    notebook (fun a : ℚ => ⌊a⌋) toyRng toyCos toySin 0 lp goodGauss tutorialWrites 17 = .ok (R, s') ∧ R.mat.fibers.length = 100 := by
  obtain ⟨R, s', -, h, hn, -⟩ := C100_tutorial floor_rat toyRng_unit toy_near (by norm_num) hlp goodGauss_good rfl 0 17
  exact ⟨R, s', h, hn⟩

/-- What is asked for without writing anything. -/
def standardAsk : Ask ℚ :=
  { n := 0, length := 25, width := 1, thickness := 1, size := 50, angle := npPi, shear := 1, tensile := ⊤, seed := some 0,
    periodic := true, threshold := none, packing := .fin 1, itermax := 1000, tol := 1 / 1000000, lmin := none, lmax := none,
    coupling := 1, samples := none }

theorem standard_asks : Asks [] standardAsk where
  n := counts_standard (by simp) (.plain (by simp [Slider]))
  length := counts_standard (by simp) (.plain (by simp [Slider]))
  width := counts_standard (by simp) (.plain (by simp [Slider]))
  thickness := counts_standard (by simp) (.plain (by simp [Slider]))
  size := counts_standard (by simp) (.plain (by simp [Slider]))
  angle := by
    refine counts_standard (by simp) ?_
    have := ReadsAs.theta (K := ℚ) (a := 1) zero_le_one le_rfl
    rw [one_mul] at this
    exact this
  shear := counts_standard (by simp) (.plain (by simp [Slider]))
  tensile := ⟨.npInf, counts_standard (by simp) (.plain (by simp [Slider])), .inf (Or.inl rfl)⟩
  seed := counts_standard (by simp) (.plain (by simp [Slider]))
  periodic := counts_standard (by simp) (.plain (by simp [Slider]))
  threshold := counts_standard (by simp) (.plain (by simp [Slider]))
  packing := ⟨_, counts_standard (by simp) (.plain (by simp [Slider])), .num _⟩
  itermax := by
    refine counts_standard (by simp) ?_
    have := ReadsAs.itermax (K := ℚ) (a := 1000) (k := 1000) (by norm_num) (by norm_num) (by norm_num) (by norm_num)
    simpa [StandardValue, standardAsk] using this
  tol := counts_standard (by simp) (.tol (by norm_num) (by norm_num))
  lmin := counts_standard (by simp) (.plain (by simp [Slider]))
  lmax := counts_standard (by simp) (.plain (by simp [Slider]))
  coupling := counts_standard (by simp) (.plain (by simp [Slider]))
  samples := counts_standard (by simp) (.plain (by simp [Slider]))

/-- The notebook without the cell that writes the parameters raises ValueError. -/
example (lp : Linprog ℚ) (hlp : GoodLinprog lp) :
    notebook (fun a : ℚ => ⌊a⌋) toyRng toyCos toySin 0 lp goodGauss [] 17 = .error .valueError :=
  (C100_runs floor_rat (by simp) standard_asks toyRng_unit toy_near (by norm_num) hlp).2 (by rintro ⟨-, h, -⟩; simp [standardAsk] at h)

/-- A refused write. -/
example (lp : Linprog ℚ) : notebook (fun a : ℚ => ⌊a⌋) toyRng toyCos toySin 0 lp goodGauss [(.n, .num 3), (.length, .none)] 17 =
    .error .typeError := C100_refused (by simp [Accepts, Ticked, Optional])
/-- Two fibers and a half. -/
example : ([(.setting .length, .num 3), (.setting .n, .num (5 / 2))] : Kwargs ℚ).lookup (.setting .n) = some (.num (5 / 2)) ∧
    ∀ k : ℤ, (k : ℚ) ≠ 5 / 2 := by
  refine ⟨by decide +kernel, fun k h => ?_⟩
  have h2 : ((2 * k : ℤ) : ℚ) = ((5 : ℤ) : ℚ) := by push_cast; rw [h]; norm_num
  have := Int.cast_injective h2
  omega

/-- The last write counts, and the angle is multiplied by pi. -/
example : matKwargs (fun a : ℚ => ⌊a⌋) (settingsKwargs (fun a : ℚ => ⌊a⌋) (fun nm => match nm with
    | .n => ⟨.num 7, true⟩ | .theta => ⟨.num (1 / 2), true⟩ | .tensile => ⟨.num 625, false⟩ | .seed => ⟨.num 5, false⟩
    | _ => ⟨.num 2, true⟩)) =
    .ok { n := 7, length := 2, width := 2, thickness := 2, size := 2, theta := 1 / 2 * npPi, psi := 0, shear := 2, tensile := ⊤,
          seed := none } := by
  unfold matKwargs
  simp only [kwargs_setting, kwargs_psi]
  have h : ⌊(7 : ℚ)⌋ = 7 := by norm_num
  simp [getItem, Name.isModulus, Name.isOptional, PyVal.asInt, PyVal.asNum, PyVal.asTop, PyVal.asOptInt, Bind.bind, Except.bind, pure,
    Except.pure, h]

end Fibermat
