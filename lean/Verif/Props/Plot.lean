import Verif.Model.Plot
import Verif.Props.SolverStop
import Verif.Props.SolverExamples

/-! # C85: pictures of the system -/

set_option linter.unusedSectionVars false
set_option linter.unusedSimpArgs false

namespace Fibermat
open Spec
variable {K : Type} [Field K] [LinearOrder K] [IsStrictOrderedRing K]

theorem cell_double_ne {a : Cell K} (h : a ≠ .fin 0) : a + a ≠ .fin 0 := by
  cases a with
  | fin a =>
    rw [Cell.fin_add_fin]
    intro hc
    injection hc with hc
    apply h
    congr 1
    linarith
  | pinf => intro hc; cases hc
  | ninf => intro hc; cases hc
  | nan => intro hc; cases hc

/-- Every row of the system belongs to exactly one layer. -/
theorem layer_unique (S : Sys K) (x : ℕ → K) (q : ℕ → Cell K) (r : ℕ) : ∃! l, S.layerMask x q l r = true := by
  by_cases h : r < S.nK
  · have h' : ¬ S.nK ≤ r := by omega
    refine ⟨.stiffness, by simp [Sys.layerMask, h], ?_⟩
    intro l hl
    cases l <;> simp_all [Sys.layerMask] <;> omega
  · have h' : S.nK ≤ r := by omega
    cases hc : isclose (S.contactRow x r) (q r) with
    | false =>
      refine ⟨.inactive, by simp [Sys.layerMask, h', hc], ?_⟩
      intro l hl
      cases l <;> simp_all [Sys.layerMask] <;> omega
    | true =>
      rcases (by omega : (r - S.nK) % 3 = 0 ∨ (r - S.nK) % 3 = 1 ∨ (r - S.nK) % 3 = 2) with e | e | e
      · refine ⟨.lower, by simp [Sys.layerMask, h', hc, e], ?_⟩
        intro l hl
        cases l <;> simp_all [Sys.layerMask] <;> omega
      · refine ⟨.inner, by simp [Sys.layerMask, h', hc, e], ?_⟩
        intro l hl
        cases l <;> simp_all [Sys.layerMask] <;> omega
      · refine ⟨.upper, by simp [Sys.layerMask, h', hc, e], ?_⟩
        intro l hl
        cases l <;> simp_all [Sys.layerMask] <;> omega

theorem layerMask_stiffness (S : Sys K) (x : ℕ → K) (q : ℕ → Cell K) (r : ℕ) : S.layerMask x q .stiffness r = true ↔ r < S.nK := by
  simp [Sys.layerMask]

theorem layerMask_ge {S : Sys K} {x : ℕ → K} {q : ℕ → Cell K} {l : Layer} {r : ℕ} (h : S.layerMask x q l r = true)
    (hl : l ≠ .stiffness) : S.nK ≤ r := by
  cases l <;> simp_all [Sys.layerMask]

/-- The layers of an entry of a system without entries between contacts. -/
theorem layer_entry {S : Sys K} (hP : ∀ r c, S.nK ≤ r → S.nK ≤ c → S.P r c = .fin 0) (x : ℕ → K) (q : ℕ → Cell K) (r c : ℕ) :
    (S.P r c = .fin 0 → ∀ l, S.layerMatrix x q l r c = .fin 0) ∧
    (S.P r c ≠ .fin 0 → ∃ l, S.layerMatrix x q l r c = S.P r c ∧ ∀ l', l' ≠ l → S.layerMatrix x q l' r c = .fin 0) := by
  constructor
  · intro h l
    unfold Sys.layerMatrix
    cases l <;> simp [h, Cell.fin_add_fin]
  · intro h
    have z : ∀ a : Cell K, a + .fin 0 = a := fun a => add_zero a
    have z' : ∀ a : Cell K, .fin 0 + a = a := fun a => zero_add a
    have step : ∀ l, l ≠ .stiffness → S.layerMatrix x q l r c =
        (if S.layerMask x q l r then S.P r c else .fin 0) + (if S.layerMask x q l c then S.P r c else .fin 0) := by
      intro l hl
      cases l <;> first | exact absurd rfl hl | rfl
    have st : S.layerMatrix x q .stiffness r c = if S.layerMask x q .stiffness r && S.layerMask x q .stiffness c then S.P r c else .fin 0 := rfl
    by_cases hr : r < S.nK
    · by_cases hc : c < S.nK
      · refine ⟨.stiffness, by simp [st, layerMask_stiffness, hr, hc], ?_⟩
        intro l' hl'
        have h1 : S.layerMask x q l' r = false := by
          by_contra hh; have := layerMask_ge (by simpa using hh) hl'; omega
        have h2 : S.layerMask x q l' c = false := by
          by_contra hh; have := layerMask_ge (by simpa using hh) hl'; omega
        simp [step l' hl', h1, h2, z]
      · obtain ⟨l, hl, hu⟩ := layer_unique S x q c
        have hne : l ≠ .stiffness := by rintro rfl; rw [layerMask_stiffness] at hl; exact hc hl
        have h1 : ∀ l', l' ≠ .stiffness → S.layerMask x q l' r = false := by
          intro l' hl'
          by_contra hh; have := layerMask_ge (by simpa using hh) hl'; omega
        refine ⟨l, by simp [step l hne, hl, h1 l hne, z'], ?_⟩
        intro l' hl'
        have h2 : S.layerMask x q l' c = false := by
          by_contra hh; exact hl' (hu l' (by simpa using hh))
        by_cases hs : l' = .stiffness
        · subst hs; simp [st, h2]
        · simp [step l' hs, h1 l' hs, h2, z]
    · by_cases hc : c < S.nK
      · obtain ⟨l, hl, hu⟩ := layer_unique S x q r
        have hne : l ≠ .stiffness := by rintro rfl; rw [layerMask_stiffness] at hl; exact hr hl
        have h1 : ∀ l', l' ≠ .stiffness → S.layerMask x q l' c = false := by
          intro l' hl'
          by_contra hh; have := layerMask_ge (by simpa using hh) hl'; omega
        refine ⟨l, by simp [step l hne, hl, h1 l hne, z], ?_⟩
        intro l' hl'
        have h2 : S.layerMask x q l' r = false := by
          by_contra hh; exact hl' (hu l' (by simpa using hh))
        by_cases hs : l' = .stiffness
        · subst hs; simp [st, h2]
        · simp [step l' hs, h1 l' hs, h2, z]
      · exact absurd (hP r c (by omega) (by omega)) h

section
variable {mat : Mat K} {mesh : Mesh K} {lmin lmax : Option K} {coupling : K} {o : Opts K} {perm : Option (List ℕ)} {S : Sys K}
  {recs : List (Rec K)} {stop : Stop}

/-- C85: in every state the picture is drawn; each coefficient of the system that is not zero is drawn in exactly one of the five
layers, with its value, and no marker stands for a zero coefficient. -/
theorem C85_layers (h : solve mat mesh lmin lmax coupling o perm = .ok (S, recs, stop)) (o' : Opts K) (a : Rec K) :
    ∃ pl, plotSystem S o' a = .ok pl ∧ ∀ i j, i < S.n → j < S.n →
      (S.P (o'.perm.getD i 0) (o'.perm.getD j 0) = .fin 0 → ∀ l, pl.layer l i j = .fin 0) ∧
      (S.P (o'.perm.getD i 0) (o'.perm.getD j 0) ≠ .fin 0 → ∃ l, pl.layer l i j = S.P (o'.perm.getD i 0) (o'.perm.getD j 0) ∧
        ∀ l', l' ≠ l → pl.layer l' i j = .fin 0) := by
  obtain ⟨Km, cs, h1, h2, rfl, hr⟩ := solve_run h
  obtain ⟨hs, l, hc⟩ := contacts_of h2
  have hn : (assemble Km cs).nC % 3 = 0 := by
    have : (assemble Km cs).nC = 3 * l.length := by simp only [assemble, hc.C]
    omega
  refine ⟨_, by unfold plotSystem; rw [if_neg (by omega)], ?_⟩
  intro i j _ _
  exact layer_entry (fun r c hr hc => by
    have h1 : ¬ r < Km.nrows := by have : Km.nrows ≤ r := hr; omega
    have h2 : ¬ c < Km.nrows := by have : Km.nrows ≤ c := hc; omega
    simp [assemble, h1, h2]) a.x a.q _ _

/-- What `np.isclose` accepts for a gap whose bound is `b`. -/
def Closed (gap b : K) : Prop := |gap| ≤ 1 / 100000000 + 1 / 100000 * |b|

theorem isclose_fin {a b g : K} (hg : b - a = g) : isclose (.fin a) (.fin b) = true ↔ Closed g b := by
  unfold isclose Closed
  rw [decide_eq_true_eq, ← hg, abs_sub_comm]

/-- C85: the rows of the constraints come by three for each connection, and in every recorded state the three are drawn as lower,
inner and upper contact when the gap to the lower plate, between the fibers, to the upper plate is closed up to `1e-8 + 1e-5 |H|`;
otherwise as inactive. -/
theorem C85_classes (h : solve mat mesh lmin lmax coupling o perm = .ok (S, recs, stop)) (hm : GoodMat mat)
    (hp : PositiveLengths mesh.rows lmin lmax) {n : ℕ} {a : Rec K} (ha : recs[n]? = some a) :
    ∃ pairs : List (ℕ × ℕ), (∀ p, p ∈ pairs ↔ IsPair mesh.rows p.1 p.2) ∧ pairs.Nodup ∧ S.nC = 3 * pairs.length ∧
      ∀ k i j, pairs[k]? = some (i, j) →
        (S.layerMask a.x a.q .lower (S.nK + 3 * k) = true ↔
          Closed (floorGap mat mesh.rows a.x i) (nodeHeight mesh.rows i - nodeThick mat mesh.rows i / 2)) ∧
        (S.layerMask a.x a.q .inner (S.nK + (3 * k + 1)) = true ↔ i ≠ j ∧
          Closed (pairGap mat mesh.rows a.x i j)
            (nodeHeight mesh.rows j - nodeHeight mesh.rows i - (nodeThick mat mesh.rows i + nodeThick mat mesh.rows j) / 2)) ∧
        (S.layerMask a.x a.q .upper (S.nK + (3 * k + 2)) = true ↔
          Closed (roofGap mat mesh.rows a.Z a.x j) (a.Z - nodeHeight mesh.rows j - nodeThick mat mesh.rows j / 2)) ∧
        (∀ d, d < 3 → (S.layerMask a.x a.q .inactive (S.nK + (3 * k + d)) = true ↔
          ∀ l, l ≠ .inactive → S.layerMask a.x a.q l (S.nK + (3 * k + d)) = false)) := by
  obtain ⟨Km, cs, hK, hC, -, -⟩ := solve_run h
  obtain ⟨bl, hs, l, hA, hpos, hc, rfl, hnK, hn, hnC, hZ, hsd, hrecs⟩ := solve_sound h hm hp hK hC
  have hi : StepInv (assemble Km cs) (Frozen bl) a := hsd.inv (by rw [← hrecs]; exact ha)
  refine ⟨l.map (fun x => (x.i, x.j)), ?_, ?_, ?_, ?_⟩
  · rintro ⟨i, j⟩
    constructor
    · intro hmem
      obtain ⟨x, hx, e⟩ := List.mem_map.1 hmem
      cases e
      exact hc.isPair hx
    · intro hpair
      obtain ⟨k, x, hk, e1, e2⟩ := hc.ofPair hpair
      exact List.mem_map.2 ⟨x, List.mem_of_getElem? hk, by simp [e1, e2]⟩
  · have := hc.distinct
    have e : l.map (·.i) = (l.map (fun x => (x.i, x.j))).map Prod.fst := by rw [List.map_map]; rfl
    rw [e] at this
    exact this.of_map
  · rw [List.length_map]; exact hnC
  · intro k i j hk'
    rw [List.getElem?_map] at hk'
    obtain ⟨x, hk, e⟩ := Option.map_eq_some_iff.1 hk'
    cases e
    have hN : Km.nrows = 2 * mesh.rows.length := hnK
    obtain ⟨i1, i2, e1, e2, e3, e4⟩ := contact_data hc.thick (hc.contact x (List.mem_of_getElem? hk))
    have hcr : ∀ d, d < 3 → (assemble Km cs).contactRow a.x (2 * mesh.rows.length + (3 * k + d)) =
        .fin (rowDot cs.C (3 * k + d) a.x) := by
      intro d hd
      unfold Sys.contactRow rowDot
      rw [hnK, hc.C]
      apply cellSum_range
      intro c hcn
      have h1 : ¬ 2 * mesh.rows.length + (3 * k + d) < Km.nrows := by omega
      have h2 : c < Km.nrows := by omega
      simp only [assemble]
      rw [if_neg h1, if_pos h2, hN, Nat.add_sub_cancel_left, hc.C]
      rfl
    have hq : ∀ d, d < 3 → a.q (2 * mesh.rows.length + (3 * k + d)) =
        ((contactBounds cs.Z x)[d]?).getD (.fin 0) + .fin ((if d = 2 then 1 else 0) * (a.Z - cs.Z)) := by
      intro d hd
      rw [hi.bounds, hc.q0 hN hk hd, hc.dq hN hk hd]
      rfl
    rw [hnK]
    refine ⟨?_, ?_, ?_, ?_⟩
    · have := hq 0 (by omega)
      simp only [contactBounds, List.getElem?_cons_zero, Option.getD_some, Cell.fin_add_fin] at this
      simp only [Sys.layerMask, hnK, Nat.add_sub_cancel_left, Nat.mul_mod_right, decide_true, Bool.and_true, Nat.le_add_right,
        Bool.true_and]
      rw [show 2 * mesh.rows.length + 3 * k = 2 * mesh.rows.length + (3 * k + 0) from rfl, hcr 0 (by omega), this,
        hc.row hk (by omega) a.x, isclose_fin rfl]
      simp only [if_true, e1, e3]
      norm_num [floorGap]
      have : nodeHeight mesh.rows x.i - nodeThick mat mesh.rows x.i / 2 + a.x (2 * x.i) =
        nodeHeight mesh.rows x.i + a.x (2 * x.i) - nodeThick mat mesh.rows x.i / 2 := by ring
      rw [this]
    · have h1 := hq 1 (by omega)
      have hmod : (3 * k + 1) % 3 = 1 := by omega
      simp only [Sys.layerMask, hnK, Nat.add_sub_cancel_left, hmod, decide_true, Bool.and_true, Nat.le_add_right, Bool.true_and]
      rw [hcr 1 (by omega), h1, hc.row hk (by omega) a.x]
      by_cases hij : x.i = x.j
      · simp [contactBounds, hij, isclose]
        rfl
      · simp only [contactBounds, if_neg hij, List.getElem?_cons_succ, List.getElem?_cons_zero, Option.getD_some, Cell.fin_add_fin]
        rw [isclose_fin rfl]
        simp only [if_true, e1, e2, e3, e4, one_ne_zero, if_false]
        norm_num [pairGap, hij]
        have : nodeHeight mesh.rows x.j - nodeHeight mesh.rows x.i - (nodeThick mat mesh.rows x.i + nodeThick mat mesh.rows x.j) / 2
          - (a.x (2 * x.i) - a.x (2 * x.j)) = nodeHeight mesh.rows x.j + a.x (2 * x.j) - (nodeHeight mesh.rows x.i + a.x (2 * x.i))
            - (nodeThick mat mesh.rows x.i + nodeThick mat mesh.rows x.j) / 2 := by ring
        rw [this]
    · have h1 : a.q (2 * mesh.rows.length + (3 * k + 2)) = .fin (a.Z - nodeHeight mesh.rows x.j - nodeThick mat mesh.rows x.j / 2) := by
        rw [hq 2 (by omega)]
        show Cell.fin _ + Cell.fin _ = _
        rw [Cell.fin_add_fin, if_pos rfl, e2, e4]
        congr 1
        ring
      have hmod : (3 * k + 2) % 3 = 2 := by omega
      simp only [Sys.layerMask, hnK, Nat.add_sub_cancel_left, hmod, decide_true, Bool.and_true, Nat.le_add_right, Bool.true_and]
      rw [hcr 2 (by omega), h1, hc.row hk (by omega) a.x, isclose_fin rfl]
      norm_num [roofGap]
      have : a.Z - nodeHeight mesh.rows x.j - nodeThick mat mesh.rows x.j / 2 - a.x (2 * x.j) =
        a.Z - (nodeHeight mesh.rows x.j + a.x (2 * x.j)) - nodeThick mat mesh.rows x.j / 2 := by ring
      rw [this]
    · intro d hd
      obtain ⟨l0, hl0, hu⟩ := layer_unique (assemble Km cs) a.x a.q (2 * mesh.rows.length + (3 * k + d))
      constructor
      · intro hin l' hl'
        by_contra hcon
        exact hl' ((hu l' (by simpa using hcon)).trans (hu _ hin).symm)
      · intro hall
        by_cases hl : l0 = .inactive
        · rw [← hl]; exact hl0
        · rw [hall l0 hl] at hl0; cases hl0

/-- C85: the number printed is the error recorded by the next step of the solver; with an exact solver that answers it is zero in
every recorded state. -/
theorem C85_error (h : solve mat mesh lmin lmax coupling o perm = .ok (S, recs, stop)) (hm : GoodMat mat)
    (hp : PositiveLengths mesh.rows lmin lmax) (hperm : PermOf S.n perm) {n : ℕ} {a : Rec K} (ha : recs[n]? = some a) {pl : SystemPlot K}
    (hpl : plotSystem S { o with perm := perm.getD (List.range S.n) } a = .ok pl) :
    (∀ b, recs[n + 1]? = some b → pl.errSq = b.errSq) ∧ (ExactLin o.lin → pl.errSq = .fin 0 ∨ pl.errSq = .nan) := by
  obtain ⟨Km, cs, hK, hC, -, -⟩ := solve_run h
  obtain ⟨bl, hs, l, hA, hpos, hc, rfl, hnK, hn, hnC, hZ, hsd, hrecs⟩ := solve_sound h hm hp hK hC
  have hi : StepInv (assemble Km cs) (Frozen bl) a := hsd.inv (by rw [← hrecs]; exact ha)
  unfold plotSystem at hpl
  split_ifs at hpl with h3
  injection hpl with hpl
  subst hpl
  constructor
  · intro b hb
    rw [hrecs] at ha hb
    have hst := (run_next ha hb).2
    unfold Sys.step at hst
    cases hd : (assemble Km cs).direction { o with perm := perm.getD (List.range (assemble Km cs).n) } a with
    | none =>
      rw [hd] at hst
      simp only at hst
      split_ifs at hst
    | some dx =>
      rw [hd] at hst
      simp only at hst
      split_ifs at hst
      split at hst
      · cases hst
      · injection hst with hst
        subst hst
        simp only [hd]
  · intro hlin
    cases hd : (assemble Km cs).direction { o with perm := perm.getD (List.range (assemble Km cs).n) } a with
    | none => right; simp only [hd]
    | some dx =>
      left
      simp only [hd]
      refine hsd.err_zero (o := { o with perm := perm.getD (List.range (assemble Km cs).n) }) hlin ?_ hi hd
      cases hq : perm with
      | none => exact List.Perm.refl _
      | some p => exact hperm p hq

end

/-- The inclined fiber, its lower end half a nanometre (with lengths in mm) above the lower plate. -/
def hoverMesh : Mesh ℚ := { twigMesh with rows := [⟨0, -5, -5, 0, 1 / 2 + 1 / 2000000, 1, 0⟩, ⟨0, 5, 5, 0, 1, 0, 1⟩] }

def hoverOpts : Opts ℚ := { packing := .fin 1, itermax := 10, tol := 1 / 1000000, errtol := 1 / 1000, perm := [], lin := archLin }

/-- C85: the contacts of the picture are not those of the solver, for the default tolerance `1e-6`: a contact of the solver may be
drawn as inactive (in the initial state), and a row that is not a contact of the solver may be drawn as a lower contact. -/
theorem C85_mismatch : ∃ S recs stop, solve twigMat hoverMesh none none (1 / 2) hoverOpts none = .ok (S, recs, stop) ∧
    (∃ a ∈ recs, S.active (1 / 1000000) a.x a.q 4 = true ∧ S.layerMask a.x a.q .inactive 4 = true) ∧
    ∃ u : ℕ → ℚ, S.active (1 / 1000000) u S.q0 7 = false ∧ S.layerMask u S.q0 .lower 7 = true := by
  have hx : (solve twigMat hoverMesh none none (1 / 2) hoverOpts none).toOption.map (fun r =>
      (r.2.1.map (fun a => (r.1.active (1 / 1000000) a.x a.q 4, r.1.layerMask a.x a.q .inactive 4)),
        r.1.active (1 / 1000000) (fun c => if c = 2 then -1 / 2 + 1 / 500000 else 0) r.1.q0 7,
        r.1.layerMask (fun c => if c = 2 then -1 / 2 + 1 / 500000 else 0) r.1.q0 .lower 7)) =
      some ([(true, true)], false, true) := by
    decide +kernel
  cases h : solve twigMat hoverMesh none none (1 / 2) hoverOpts none with
  | error e => rw [h] at hx; cases hx
  | ok r =>
    rw [h] at hx
    obtain ⟨S, recs, stop⟩ := r
    simp only [Except.toOption, Option.map_some, Option.some.injEq, Prod.mk.injEq] at hx
    obtain ⟨h1, h2, h3⟩ := hx
    refine ⟨S, recs, stop, rfl, ?_, _, h2, h3⟩
    cases recs with
    | nil => cases h1
    | cons a l =>
      simp only [List.map_cons, List.cons.injEq, Prod.mk.injEq] at h1
      exact ⟨a, List.mem_cons_self .., h1.1.1, h1.1.2⟩

/-- The hypotheses of C85 are met by the run of `archMesh`, which makes two steps; the printed error is zero after
the first one. -/
example : ∃ S recs, solve duoMat archMesh none none (1 / 2) archOpts none = .ok (S, recs, .blocked) ∧ GoodMat duoMat ∧
    PositiveLengths archMesh.rows none none ∧ PermOf S.n none ∧ ExactLin archOpts.lin ∧
    ∃ a, recs[1]? = some a ∧ ∃ pl, plotSystem S { archOpts with perm := (none : Option (List ℕ)).getD (List.range S.n) } a = .ok pl ∧
      pl.errSq = .fin 0 := by
  obtain ⟨S, recs, h, -, h2, h3⟩ := arch_run
  have hl : recs.length = 3 := by simpa using congrArg List.length h2
  have hp : PermOf S.n none := by rintro p ⟨⟩
  have ha : recs[1]? = some (recs[1]'(by omega)) := List.getElem?_eq_getElem _
  have hb : recs[2]? = some (recs[2]'(by omega)) := List.getElem?_eq_getElem _
  obtain ⟨pl, hpl, -⟩ := C85_layers h { archOpts with perm := (none : Option (List ℕ)).getD (List.range S.n) } (recs[1]'(by omega))
  refine ⟨S, recs, h, duoMat_good, archMesh_lengths, hp, lookup_exact _, _, ha, pl, hpl, ?_⟩
  obtain ⟨e1, e2⟩ := C85_error h duoMat_good archMesh_lengths hp ha hpl
  rcases e2 (lookup_exact _) with e | e
  · exact e
  · have hn := e1 _ hb
    rw [e] at hn
    have hx : (solve duoMat archMesh none none (1 / 2) archOpts none).toOption.map (fun r => r.2.1.map (fun a => a.errSq)) =
        some [.fin 0, .fin 0, .fin 0] := by decide +kernel
    rw [h] at hx
    simp only [Except.toOption, Option.map_some, Option.some.injEq] at hx
    have := congrArg (fun l => l[2]?) hx
    simp only [List.getElem?_map, hb, Option.map_some] at this
    rw [← hn] at this
    simp at this

end Fibermat
