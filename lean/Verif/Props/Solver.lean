import Verif.Lemmas.SolverAssembly
import Verif.Lemmas.SolverSteps

/-! # Theorems on `solve` (C40-C46, C49, C50)

Records of a run: `a.x r` for `r < 2 N` (`N` nodes) are the displacements `u`, `a.x (2 N + j)` the contact forces `f`;
`a.q r` for `r < 2 N` the loads `F`, `a.q (2 N + j)` the bounds `H`. -/

set_option linter.unusedSectionVars false
set_option linter.unusedSimpArgs false

namespace Fibermat
variable {K : Type} [Field K] [LinearOrder K]
open Spec

variable {mat : Mat K} {mesh : Mesh K} {lmin lmax : Option K} {coupling : K} {o : Opts K} {perm : Option (List ℕ)}
  {S : Sys K} {recs : List (Rec K)} {stop : Stop}

/-- What a successful call of `solve` computed. -/
theorem solve_run (h : solve mat mesh lmin lmax coupling o perm = .ok (S, recs, stop)) :
    ∃ Km cs, stiffness mat mesh lmin lmax coupling = .ok Km ∧ constraint mat mesh = .ok cs ∧ S = assemble Km cs ∧
      S.run { o with perm := perm.getD (List.range S.n) } = (recs, stop) := by
  unfold solve at h
  cases h1 : stiffness mat mesh lmin lmax coupling with
  | error e => rw [h1] at h; cases h
  | ok Km =>
    rw [h1] at h
    cases h2 : constraint mat mesh with
    | error e => rw [h2] at h; cases h
    | ok cs =>
      rw [h2] at h
      have h : (assemble Km cs, (assemble Km cs).run
        { o with perm := perm.getD (List.range (assemble Km cs).n) }) = (S, recs, stop) := Except.ok.inj h
      rw [Prod.mk.injEq] at h
      obtain ⟨rfl, h'⟩ := h
      exact ⟨Km, cs, rfl, rfl, rfl, h'⟩

/-! ## C40 -/

/-- At most `itermax` steps; the histories start with the initial state (zero displacements and forces, packing 1). -/
theorem C40_itermax (h : solve mat mesh lmin lmax coupling o perm = .ok (S, recs, stop)) :
    recs.length ≤ o.itermax + 1 ∧
      ∃ a, recs[0]? = some a ∧ (∀ r, a.x r = 0) ∧ a.q = S.q0 ∧ a.Z = S.Z0 ∧ a.rlambda = .fin 1 := by
  obtain ⟨-, -, -, -, -, hr⟩ := solve_run h
  have e : recs = (S.run { o with perm := perm.getD (List.range S.n) }).1 := by rw [hr]
  subst e
  refine ⟨?_, _, rfl, fun r => rfl, rfl, rfl, rfl⟩
  simpa [Sys.run] using loop_length S { o with perm := perm.getD (List.range S.n) } o.itermax (S.init _)

/-- A step is only made from a packing below the target. -/
theorem C40_below (h : solve mat mesh lmin lmax coupling o perm = .ok (S, recs, stop)) (k : ℕ) (a : Rec K)
    (ha : recs[k]? = some a) (hk : k + 1 < recs.length) : Cell.lt a.rlambda o.packing = true := by
  obtain ⟨-, -, -, -, -, hr⟩ := solve_run h
  have e : recs = (S.run { o with perm := perm.getD (List.range S.n) }).1 := by rw [hr]
  subst e
  exact (run_next ha (List.getElem?_eq_getElem hk)).1

/-- No step is made when the target packing is not above 1. -/
theorem C40_no_step (h : solve mat mesh lmin lmax coupling o perm = .ok (S, recs, stop))
    (hp : Cell.lt (.fin 1) o.packing = false) : recs.length = 1 := by
  obtain ⟨h1, a, ha, -, -, -, hl⟩ := C40_itermax h
  have h0 := (List.getElem?_eq_some_iff.1 ha).1
  by_contra hne
  have := C40_below h 0 a ha (by omega)
  rw [hl, hp] at this
  cases this

theorem loop_reached (S : Sys K) (o : Opts K) (n : ℕ) (a : Rec K) (h : (S.loop o n a).2 = .reached)
    (hs : ∀ b, S.step o b ≠ .error .reached) :
    (S.loop o n a).1.length = n ∨ ∃ b, (a :: (S.loop o n a).1).getLast? = some b ∧ Cell.lt b.rlambda o.packing = false := by
  induction n generalizing a with
  | zero => left; rfl
  | succ n ih =>
    unfold Sys.loop at h ⊢
    split_ifs at h ⊢ with hl
    · cases hst : S.step o a with
      | error e =>
        rw [hst] at h
        simp only at h
        subst h
        exact absurd hst (hs a)
      | ok b =>
        rw [hst] at h
        simp only at h ⊢
        rcases ih b h with h1 | ⟨c, h1, h2⟩
        · left; simp [h1]
        · right; exact ⟨c, by rw [List.getLast?_cons_cons]; exact h1, h2⟩
    · right; exact ⟨a, rfl, by simpa using hl⟩

/-- When the solver does not stop early, it used all its iterations or reached the target. -/
theorem C40_reached (h : solve mat mesh lmin lmax coupling o perm = .ok (S, recs, .reached)) :
    recs.length = o.itermax + 1 ∨ ∃ a, recs.getLast? = some a ∧ Cell.lt a.rlambda o.packing = false := by
  obtain ⟨-, -, -, -, -, hr⟩ := solve_run h
  have e1 : recs = (S.run { o with perm := perm.getD (List.range S.n) }).1 := by rw [hr]
  have e2 : (S.run { o with perm := perm.getD (List.range S.n) }).2 = .reached := by rw [hr]
  subst e1
  have := loop_reached S { o with perm := perm.getD (List.range S.n) } o.itermax _ e2 (by
    intro b hb
    unfold Sys.step at hb
    cases hd : S.direction { o with perm := perm.getD (List.range S.n) } b with
    | none =>
      rw [hd] at hb
      simp only at hb
      split_ifs at hb <;> cases hb
    | some dx =>
      rw [hd] at hb
      simp only at hb
      split_ifs at hb
      · cases hb
      · cases hb
      · split at hb <;> cases hb)
  rcases this with h1 | h1
  · left; simp only [Sys.run, List.length_cons, h1]
  · exact Or.inr h1

variable [IsStrictOrderedRing K]

/-- The sound system behind a call of `solve`. -/
theorem solve_sound (h : solve mat mesh lmin lmax coupling o perm = .ok (S, recs, stop)) (hm : GoodMat mat)
    (hp : PositiveLengths mesh.rows lmin lmax) {Km : Coo (Cell K)} {cs : ConstraintSys K}
    (hK : stiffness mat mesh lmin lmax coupling = .ok Km) (hC : constraint mat mesh = .ok cs) :
    ∃ (bl : List (Beam K × K)) (hs : List K) (l : List (Contact K)),
      Assembled mat mesh.rows coupling Km bl ∧ (∀ p ∈ bl, 0 < p.2) ∧ Contacts mat mesh.rows cs hs l ∧ S = assemble Km cs ∧
      S.nK = 2 * mesh.rows.length ∧ S.n = 2 * mesh.rows.length + 3 * l.length ∧ cs.C.nrows = 3 * l.length ∧ S.Z0 = cs.Z ∧
      Sound S (wholeTable (2 * mesh.rows.length) (table mesh.rows coupling bl) cs.C) (Frozen bl) ∧
      recs = (S.run { o with perm := perm.getD (List.range S.n) }).1 := by
  obtain ⟨Km', cs', h1, h2, rfl, hr⟩ := solve_run h
  rw [hK] at h1; cases h1
  rw [hC] at h2; cases h2
  obtain ⟨bl, ha, hpos, -⟩ := assembled hK
  obtain ⟨hs, l, hc⟩ := contacts_of hC
  have hN : Km.nrows = 2 * mesh.rows.length := by rw [ha.eq]
  have hl : cs.C.nrows = 3 * l.length := by rw [hc.C]
  exact ⟨bl, hs, l, ha, hpos hp, hc, rfl, hN, by unfold Sys.n assemble; simp only [hN, hl], hl, rfl,
    assemble_sound ha hm (hpos hp) hc, by rw [hr]⟩

/-- Constraint rows of the whole system. -/
theorem apply_constraint {N n : ℕ} {T : ℕ → ℕ → K} {C : Coo K} {S : Sys K} (hn : S.n = N + n) (hC : C.ncols = N) (x : ℕ → K)
    (j : ℕ) : apply S (wholeTable N T C) x (N + j) = rowDot C j x := by
  unfold apply rowDot
  rw [hn, Finset.sum_range_add, hC]
  have : ∑ i ∈ Finset.range n, wholeTable N T C (N + j) (N + i) * x (N + i) = 0 := by
    apply Finset.sum_eq_zero
    intro i _
    simp [wholeTable]
  rw [this, add_zero]
  apply Finset.sum_congr rfl
  intro s hs
  have hs := Finset.mem_range.1 hs
  simp [wholeTable, hs]

/-- Force rows of the whole system. -/
theorem apply_force {N n : ℕ} {T : ℕ → ℕ → K} {C : Coo K} {S : Sys K} (hn : S.n = N + n) (x : ℕ → K)
    {r : ℕ} (hr : r < N) : apply S (wholeTable N T C) x r =
      ∑ s ∈ Finset.range N, T r s * x s + ∑ j ∈ Finset.range n, C.get j r * x (N + j) := by
  unfold apply
  rw [hn, Finset.sum_range_add]
  congr 1
  · apply Finset.sum_congr rfl
    intro s hs
    have hs := Finset.mem_range.1 hs
    simp [wholeTable, hs, hr]
  · apply Finset.sum_congr rfl
    intro j _
    simp [wholeTable, hr]

theorem permOf_getD {n : ℕ} {perm : Option (List ℕ)} (h : PermOf n perm) : (perm.getD (List.range n)).Perm (List.range n) := by
  cases perm with
  | none => exact List.Perm.refl _
  | some p => exact h p rfl

/-! ## C41 -/

/-- The plate moves down at every step, whatever the linear solver answers. -/
theorem C41_down (h : solve mat mesh lmin lmax coupling o perm = .ok (S, recs, stop)) (hm : GoodMat mat)
    (hp : PositiveLengths mesh.rows lmin lmax) (htol : 0 ≤ o.tol) (k : ℕ) (a b : Rec K) (ha : recs[k]? = some a)
    (hb : recs[k + 1]? = some b) : b.Z < a.Z := by
  obtain ⟨Km, cs, hK, hC, -, -⟩ := solve_run h
  obtain ⟨bl, hs, l, -, -, -, -, -, -, -, -, hsd, rfl⟩ := solve_sound h hm hp hK hC
  obtain ⟨dx, t, s, hst⟩ := hsd.next ha hb
  have := hst.pos htol
  rw [hst.Z]; linarith

/-- The recorded packing is `Z0 / Z` and increases from 1 as long as `Z` is positive. -/
theorem C41_packing (h : solve mat mesh lmin lmax coupling o perm = .ok (S, recs, stop)) (hm : GoodMat mat)
    (hp : PositiveLengths mesh.rows lmin lmax) (htol : 0 ≤ o.tol) (k : ℕ) (a b : Rec K) (ha : recs[k]? = some a)
    (hb : recs[k + 1]? = some b) (hZ : 0 < b.Z) :
    a.rlambda = .fin (S.Z0 / a.Z) ∧ b.rlambda = .fin (S.Z0 / b.Z) ∧ 1 ≤ S.Z0 / a.Z ∧ S.Z0 / a.Z < S.Z0 / b.Z := by
  obtain ⟨Km, cs, hK, hC, -, -⟩ := solve_run h
  have hdown := C41_down h hm hp htol k a b ha hb
  obtain ⟨bl, hs, l, -, -, -, -, -, -, -, -, hsd, rfl⟩ := solve_sound h hm hp hK hC
  obtain ⟨dx, t, s, hst⟩ := hsd.next ha hb
  have hZa : 0 < a.Z := hZ.trans hdown
  have hle := hsd.Z_le (o := { o with perm := perm.getD (List.range S.n) }) htol ha
  have hZ0 : 0 < S.Z0 := lt_of_lt_of_le hZa hle
  refine ⟨?_, ?_, ?_, ?_⟩
  · rcases k with _ | k
    · rw [run_zero] at ha
      cases ha
      simp only [Sys.init]
      rw [div_self hZ0.ne']
    · have hk : k < (S.run { o with perm := perm.getD (List.range S.n) }).1.length := by
        have := (List.getElem?_eq_some_iff.1 ha).1; omega
      obtain ⟨dx', t', s', hst'⟩ := hsd.next (List.getElem?_eq_getElem hk) ha
      rw [hst'.lam, Cell.fin_div_fin hZa.ne']
  · rw [hst.lam, Cell.fin_div_fin hZ.ne']
  · rw [le_div_iff₀ hZa]; linarith
  · exact div_lt_div_of_pos_left hZ0 hZ hdown

/-! ## C50 -/

/-- Loads are unchanged and bounds follow the plate: `H - H0` is `Z - Z0` on the upper rows and 0 elsewhere. -/
theorem C50_bounds (h : solve mat mesh lmin lmax coupling o perm = .ok (S, recs, stop)) (hm : GoodMat mat)
    (hp : PositiveLengths mesh.rows lmin lmax) {cs : ConstraintSys K} (hC : constraint mat mesh = .ok cs)
    (k : ℕ) (a : Rec K) (ha : recs[k]? = some a) :
    (∀ r, r < 2 * mesh.rows.length → a.q r = .fin 0) ∧
      ∀ j b, cs.H[j]? = some b →
        a.q (2 * mesh.rows.length + j) = b + .fin (if j % 3 = 2 then a.Z - cs.Z else 0) := by
  obtain ⟨Km, -, hK, -, -, -⟩ := solve_run h
  obtain ⟨bl, hs, l, has, -, hc, rfl, hnK, hn, hnC, hZ, hsd, rfl⟩ := solve_sound h hm hp hK hC
  have hi := hsd.inv ha
  constructor
  · intro r hr
    obtain ⟨h1, h2⟩ := hsd.force r (by rw [hnK]; exact hr)
    rw [hi.bounds, h1, h2, zero_mul]
    simp
  · intro j b hb
    have hj : j < 3 * l.length := by
      have := (List.getElem?_eq_some_iff.1 hb).1
      rw [hc.H, flatMap3_length _ (fun _ => rfl)] at this
      exact this
    have hN : Km.nrows = 2 * mesh.rows.length := by rw [has.eq]
    rw [hi.bounds]
    have e1 : (assemble Km cs).q0 (2 * mesh.rows.length + j) = b := by
      simp [assemble, hN, List.getD_eq_getElem?_getD, hb]
    have e2 : (assemble Km cs).dq (2 * mesh.rows.length + j) = if j % 3 = 2 then 1 else 0 := by
      rw [← hc.incr hj]
      simp [assemble, hN]
    rw [e1, e2, hZ]
    congr 2
    split_ifs <;> ring

/-- The recorded bounds are those of a plate at the recorded height: `C u ≤ H` says that nodes displaced by `u` do not
penetrate each other or the plates at `0` and `Z`. -/
theorem C50_plate (h : solve mat mesh lmin lmax coupling o perm = .ok (S, recs, stop)) (hm : GoodMat mat)
    (hp : PositiveLengths mesh.rows lmin lmax) {cs : ConstraintSys K} (hC : constraint mat mesh = .ok cs)
    (hcr : ConstraintsReciprocal mesh.rows) (k : ℕ) (a : Rec K) (ha : recs[k]? = some a) (u : ℕ → K) :
    (∀ j, j < cs.C.nrows → Cell.le (.fin (rowDot cs.C j u)) (a.q (2 * mesh.rows.length + j)) = true) ↔
      NonPenetrating mat mesh.rows a.Z u := by
  have hb := (C50_bounds h hm hp hC k a ha).2
  obtain ⟨hs, l, hc⟩ := contacts_of hC
  have hnC : cs.C.nrows = 3 * l.length := by rw [hc.C]
  rw [← nonPenetrating_iff hm hcr hc.thick hc.contact hc.all, hnC, ← hc.C]
  refine forall_congr' fun j => imp_congr_right fun hj => ?_
  obtain ⟨q, d, hd, rfl⟩ : ∃ q d, d < 3 ∧ j = 3 * q + d := ⟨j / 3, j % 3, by omega, by omega⟩
  have hq : l[q]? = some l[q] := List.getElem?_eq_getElem (by omega)
  generalize l[q] = x at hq
  have key : (l.flatMap (contactBounds a.Z))[3 * q + d]? = some (a.q (2 * mesh.rows.length + (3 * q + d))) := by
    rw [bounds_at _ l hq hd]
    have hB := hc.bound hq hd
    have hm3 : (3 * q + d) % 3 = d := by omega
    interval_cases d
    · rw [hb _ _ hB, hm3]; simp [contactBounds]
    · rw [hb _ _ hB, hm3]
      simp only [contactBounds, List.getElem?_cons_succ, List.getElem?_cons_zero, Option.some.injEq]
      rw [if_neg (by omega : ¬ (1 : ℕ) = 2)]
      split_ifs
      · rfl
      · simp
    · rw [hb _ _ hB, hm3]
      simp only [contactBounds, List.getElem?_cons_succ, List.getElem?_cons_zero, Option.some.injEq, if_true, Cell.fin_add_fin]
      congr 1; ring
  rw [key]
  constructor
  · intro h1; exact ⟨_, rfl, h1⟩
  · rintro ⟨b, h1, h2⟩; cases h1; exact h2

/-! ## C42 -/

/-- From an admissible start, every inequality `C u ≤ H` is kept up to `errtol (Z0 - Z)`, whatever the linear solver answers. -/
theorem C42_admissible (h : solve mat mesh lmin lmax coupling o perm = .ok (S, recs, stop)) (hm : GoodMat mat)
    (hp : PositiveLengths mesh.rows lmin lmax) (htol : 0 ≤ o.tol) {cs : ConstraintSys K} (hC : constraint mat mesh = .ok cs)
    (hadm : Admissible cs (fun _ => 0)) (k : ℕ) (a : Rec K) (ha : recs[k]? = some a) (j : ℕ) (hj : j < cs.C.nrows) :
    Cell.le (.fin (rowDot cs.C j a.x))
      (a.q (2 * mesh.rows.length + j) + .fin (o.errtol * (cs.Z - a.Z))) = true := by
  have hq := (C50_bounds h hm hp hC k a ha).2 j
  obtain ⟨Km, -, hK, -, -, -⟩ := solve_run h
  obtain ⟨bl, hs, l, has, -, hc, rfl, hnK, hn, hnC, hZ, hsd, rfl⟩ := solve_sound h hm hp hK hC
  obtain ⟨b, hb, hle⟩ := hadm j hj
  rw [hq b hb]
  have h0 : rowDot cs.C j (fun _ => (0 : K)) = 0 := by simp [rowDot]
  rw [h0] at hle
  rw [hnC] at hj
  have hN : Km.nrows = 2 * mesh.rows.length := by rw [has.eq]
  have hq0 : (assemble Km cs).q0 (2 * mesh.rows.length + j) = b := by
    simp [assemble, hN, List.getD_eq_getElem?_getD, hb]
  have hdq : (assemble Km cs).dq (2 * mesh.rows.length + j) = if j % 3 = 2 then 1 else 0 := by
    rw [← hc.incr hj]
    simp [assemble, hN]
  have hg : ¬ Frozen bl (2 * mesh.rows.length + j) := by
    intro hf
    have := hsd.lt _ hf
    rw [hnK] at this; omega
  cases b with
  | fin c =>
    have hge := hsd.gap_ge (o := { o with perm := perm.getD (List.range (assemble Km cs).n) }) htol
      (r := 2 * mesh.rows.length + j) (by rw [hn]; omega) hg hq0 (Cell.le_fin_iff.1 hle) ha
    rw [gap, hdq, apply_constraint hn (by rw [hc.C]), hZ] at hge
    rw [Cell.fin_add_fin, Cell.fin_add_fin, Cell.le_fin_iff]
    simp only at hge
    split_ifs at hge ⊢ <;> linarith
  | pinf => rfl
  | ninf => cases hle
  | nan => cases hle

/-! ## C43 -/

/-- A row of `K` without infinite entries is not frozen, and its entries are those of the table. -/
theorem row_soft {bl : List (Beam K × K)} {Km : Coo (Cell K)} (ha : Assembled mat mesh.rows coupling Km bl) (hm : GoodMat mat)
    (hp : ∀ p ∈ bl, 0 < p.2) {r : ℕ} (hr : r < 2 * mesh.rows.length) {g : ℕ → K}
    (hg : ∀ s, s < 2 * mesh.rows.length → Km.get r s = .fin (g s)) :
    ¬ Frozen bl r ∧ ∀ s, s < 2 * mesh.rows.length → table mesh.rows coupling bl r s = g s := by
  have hf : ¬ Frozen bl r := by
    intro hf
    have := hg r hr
    rw [ha.frozen_diag hm hp hf] at this
    cases this
  refine ⟨hf, fun s hs => ?_⟩
  have := hg s hs
  rw [ha.soft hm hp (fun hh => hf hh.1)] at this
  simpa using this

/-- If every error recorded so far is at most `eps` and `eps (Z0 - Z) ≤ tol`, the rows of `K u + Cᵀ f = F = 0` without infinite
stiffness hold up to `eps (Z0 - Z)`. -/
theorem C43_equilibrium (h : solve mat mesh lmin lmax coupling o perm = .ok (S, recs, stop)) (hm : GoodMat mat)
    (hp : PositiveLengths mesh.rows lmin lmax) (htol : 0 ≤ o.tol) {Km : Coo (Cell K)} {cs : ConstraintSys K}
    (hK : stiffness mat mesh lmin lmax coupling = .ok Km) (hC : constraint mat mesh = .ok cs) {eps : K} (heps : 0 ≤ eps)
    (k : ℕ) (a : Rec K) (ha : recs[k]? = some a)
    (herr : ∀ (j : ℕ) (b : Rec K), j ≤ k → recs[j]? = some b → ∃ s, b.errSq = .fin s ∧ s ≤ eps ^ 2)
    (hsmall : eps * (cs.Z - a.Z) ≤ o.tol) {r : ℕ} (hr : r < 2 * mesh.rows.length) {g : ℕ → K}
    (hg : ∀ s, s < 2 * mesh.rows.length → Km.get r s = .fin (g s)) :
    |0 - ∑ s ∈ Finset.range (2 * mesh.rows.length), g s * a.x s -
      ∑ j ∈ Finset.range cs.C.nrows, cs.C.get j r * a.x (2 * mesh.rows.length + j)| ≤ eps * (cs.Z - a.Z) := by
  obtain ⟨bl, hs, l, has, hpos, hc, rfl, hnK, hn, hnC, hZ, hsd, rfl⟩ := solve_sound h hm hp hK hC
  obtain ⟨hf, hT⟩ := row_soft has hm hpos hr hg
  have := hsd.balance (o := { o with perm := perm.getD (List.range (assemble Km cs).n) }) htol (r := r)
    (by rw [hnK]; exact hr) hf heps ha herr (by rw [hZ]; exact hsmall)
  rw [apply_force hn _ hr, hZ] at this
  rw [hnC, zero_sub, ← neg_add', abs_neg]
  rw [Finset.sum_congr rfl (fun s hs => by rw [hT s (Finset.mem_range.1 hs)])] at this
  exact this

/-- The same under `eps Z0 ≤ tol`, as long as the plate is not below the floor. -/
theorem C43_small (h : solve mat mesh lmin lmax coupling o perm = .ok (S, recs, stop)) (hm : GoodMat mat)
    (hp : PositiveLengths mesh.rows lmin lmax) (htol : 0 ≤ o.tol) {Km : Coo (Cell K)} {cs : ConstraintSys K}
    (hK : stiffness mat mesh lmin lmax coupling = .ok Km) (hC : constraint mat mesh = .ok cs) {eps : K} (heps : 0 ≤ eps)
    (k : ℕ) (a : Rec K) (ha : recs[k]? = some a) (hZ : 0 ≤ a.Z)
    (herr : ∀ (j : ℕ) (b : Rec K), j ≤ k → recs[j]? = some b → ∃ s, b.errSq = .fin s ∧ s ≤ eps ^ 2)
    (hsmall : eps * cs.Z ≤ o.tol) {r : ℕ} (hr : r < 2 * mesh.rows.length) {g : ℕ → K}
    (hg : ∀ s, s < 2 * mesh.rows.length → Km.get r s = .fin (g s)) :
    |0 - ∑ s ∈ Finset.range (2 * mesh.rows.length), g s * a.x s -
      ∑ j ∈ Finset.range cs.C.nrows, cs.C.get j r * a.x (2 * mesh.rows.length + j)| ≤ eps * (cs.Z - a.Z) :=
  C43_equilibrium h hm hp htol hK hC heps k a ha herr
    (le_trans (mul_le_mul_of_nonneg_left (by linarith) heps) hsmall) hr hg

/-- With an exact linear solver, `K u + Cᵀ f = F` in all rows without infinite stiffness. -/
theorem C43_exact (h : solve mat mesh lmin lmax coupling o perm = .ok (S, recs, stop)) (hm : GoodMat mat)
    (hp : PositiveLengths mesh.rows lmin lmax) (htol : 0 ≤ o.tol) (hlin : ExactLin o.lin) (hperm : PermOf S.n perm)
    {Km : Coo (Cell K)} {cs : ConstraintSys K}
    (hK : stiffness mat mesh lmin lmax coupling = .ok Km) (hC : constraint mat mesh = .ok cs)
    (k : ℕ) (a : Rec K) (ha : recs[k]? = some a) {r : ℕ} (hr : r < 2 * mesh.rows.length) {g : ℕ → K}
    (hg : ∀ s, s < 2 * mesh.rows.length → Km.get r s = .fin (g s)) :
    a.q r = .fin (∑ s ∈ Finset.range (2 * mesh.rows.length), g s * a.x s +
      ∑ j ∈ Finset.range cs.C.nrows, cs.C.get j r * a.x (2 * mesh.rows.length + j)) := by
  rw [(C50_bounds h hm hp hC k a ha).1 r hr]
  obtain ⟨bl, hs, l, has, hpos, hc, rfl, hnK, hn, hnC, hZ, hsd, rfl⟩ := solve_sound h hm hp hK hC
  obtain ⟨hf, hT⟩ := row_soft has hm hpos hr hg
  have := hsd.balance_exact (o := { o with perm := perm.getD (List.range (assemble Km cs).n) }) hlin (permOf_getD hperm) htol
    (r := r) (by rw [hnK]; exact hr) hf ha
  rw [apply_force hn _ hr] at this
  rw [Finset.sum_congr rfl (fun s hs => by rw [hT s (Finset.mem_range.1 hs)])] at this
  rw [hnC, this]

/-! ## C44 -/

/-- With an exact linear solver, active rows stay active. -/
theorem C44_active (h : solve mat mesh lmin lmax coupling o perm = .ok (S, recs, stop)) (hm : GoodMat mat)
    (hp : PositiveLengths mesh.rows lmin lmax) (hlin : ExactLin o.lin) (hperm : PermOf S.n perm)
    (k : ℕ) (a b : Rec K) (ha : recs[k]? = some a) (hb : recs[k + 1]? = some b) (r : ℕ) (hr : r < S.n)
    (hact : S.active o.tol a.x a.q r = true) : S.active o.tol b.x b.q r = true := by
  obtain ⟨Km, cs, hK, hC, -, -⟩ := solve_run h
  obtain ⟨bl, hs, l, has, hpos, hc, -, hnK, hn, hnC, hZ, hsd, rfl⟩ := solve_sound h hm hp hK hC
  obtain ⟨dx, t, s, hst⟩ := hsd.next ha hb
  exact Stepped.stays hsd (o := { o with perm := perm.getD (List.range S.n) }) hlin (permOf_getD hperm) (hsd.inv ha) hst hr hact

/-- The recorded masks grow from the first step on. -/
theorem C44_masks (h : solve mat mesh lmin lmax coupling o perm = .ok (S, recs, stop)) (hm : GoodMat mat)
    (hp : PositiveLengths mesh.rows lmin lmax) (hlin : ExactLin o.lin) (hperm : PermOf S.n perm)
    (k : ℕ) (a b : Rec K) (ha : recs[k + 1]? = some a) (hb : recs[k + 2]? = some b) (r : ℕ) (hr : r < S.n)
    (hact : a.mask r = true) : b.mask r = true := by
  obtain ⟨Km, cs, hK, hC, -, -⟩ := solve_run h
  have hk : k < recs.length := by
    have := (List.getElem?_eq_some_iff.1 ha).1; omega
  have hd : recs[k]? = some recs[k] := List.getElem?_eq_getElem hk
  generalize recs[k] = d at hd
  have key := C44_active h hm hp hlin hperm k d a hd ha r hr
  obtain ⟨bl, hs, l, has, hpos, hc, -, hnK, hn, hnC, hZ, hsd, rfl⟩ := solve_sound h hm hp hK hC
  obtain ⟨dx, t, s, hst⟩ := hsd.next hd ha
  obtain ⟨dx', t', s', hst'⟩ := hsd.next ha hb
  rw [hst.mask] at hact
  rw [hst'.mask]
  exact key hact

/-- With an exact linear solver, a contact with a nonzero force is closed: its gap `H - C u` is at most `tol`. -/
theorem C44_complementary (h : solve mat mesh lmin lmax coupling o perm = .ok (S, recs, stop)) (hm : GoodMat mat)
    (hp : PositiveLengths mesh.rows lmin lmax) (hlin : ExactLin o.lin) (hperm : PermOf S.n perm)
    {cs : ConstraintSys K} (hC : constraint mat mesh = .ok cs)
    (k : ℕ) (a : Rec K) (ha : recs[k]? = some a) (j : ℕ) (hj : j < cs.C.nrows) (hf : a.x (2 * mesh.rows.length + j) ≠ 0) :
    ∃ H, a.q (2 * mesh.rows.length + j) = .fin H ∧ H - rowDot cs.C j a.x ≤ o.tol := by
  obtain ⟨Km, -, hK, -, -, -⟩ := solve_run h
  obtain ⟨bl, hs, l, has, hpos, hc, -, hnK, hn, hnC, hZ, hsd, rfl⟩ := solve_sound h hm hp hK hC
  have hi := hsd.inv ha
  have hr : 2 * mesh.rows.length + j < S.n := by omega
  have hact := hsd.support (o := { o with perm := perm.getD (List.range S.n) }) hlin (permOf_getD hperm) hr ha hf
  obtain ⟨hg, c, hq⟩ := hsd.active_num hi hr hact
  have h1 := ((hsd.active_iff hi hg hq _).1 hact).1
  refine ⟨_, by rw [hi.bounds, hq, Cell.fin_add_fin], ?_⟩
  rw [gap, apply_constraint hn (by rw [hc.C])] at h1
  exact h1

/-! ## C45 -/

/-- With an exact linear solver the number of steps is at most the number of constraint rows. -/
theorem C45_terminates (h : solve mat mesh lmin lmax coupling o perm = .ok (S, recs, stop)) (hm : GoodMat mat)
    (hp : PositiveLengths mesh.rows lmin lmax) (htol : 0 ≤ o.tol) (hlin : ExactLin o.lin) (hperm : PermOf S.n perm)
    {cs : ConstraintSys K} (hC : constraint mat mesh = .ok cs) : recs.length ≤ cs.C.nrows + 1 := by
  obtain ⟨Km, -, hK, -, -, -⟩ := solve_run h
  obtain ⟨bl, hs, l, has, hpos, hc, rfl, hnK, hn, hnC, hZ, hsd, rfl⟩ := solve_sound h hm hp hK hC
  set R := ((assemble Km cs).run { o with perm := perm.getD (List.range (assemble Km cs).n) }).1 with hR
  have hne : 0 < R.length := by rw [hR]; simp [Sys.run]
  have ha : R[R.length - 1]? = some R[R.length - 1] := List.getElem?_eq_getElem (by omega)
  have h1 := hsd.steps_le (o := { o with perm := perm.getD (List.range (assemble Km cs).n) }) hlin (permOf_getD hperm) htol ha
  have h2 := Finset.card_filter_le (Finset.range (assemble Km cs).nC) (fun j => (assemble Km cs).active o.tol
    (R[R.length - 1]).x (R[R.length - 1]).q ((assemble Km cs).nK + j) = true)
  have h3 : (assemble Km cs).nC = cs.C.nrows := rfl
  rw [Finset.card_range, h3] at h2
  have := h1.trans h2
  omega

/-! ## C46 -/

/-- From an admissible start with an exact linear solver, the nodes never penetrate each other or the plates. -/
theorem C46_nonPenetrating (h : solve mat mesh lmin lmax coupling o perm = .ok (S, recs, stop)) (hm : GoodMat mat)
    (hp : PositiveLengths mesh.rows lmin lmax) (htol : 0 ≤ o.tol) (hlin : ExactLin o.lin) (hperm : PermOf S.n perm)
    {cs : ConstraintSys K} (hC : constraint mat mesh = .ok cs) (hadm : Admissible cs (fun _ => 0))
    (hcr : ConstraintsReciprocal mesh.rows) (k : ℕ) (a : Rec K) (ha : recs[k]? = some a) :
    NonPenetrating mat mesh.rows a.Z a.x := by
  rw [← C50_plate h hm hp hC hcr k a ha]
  intro j hj
  have hq := (C50_bounds h hm hp hC k a ha).2 j
  obtain ⟨Km, -, hK, -, -, -⟩ := solve_run h
  obtain ⟨bl, hs, l, has, -, hc, rfl, hnK, hn, hnC, hZ, hsd, rfl⟩ := solve_sound h hm hp hK hC
  obtain ⟨b, hb, hle⟩ := hadm j hj
  rw [hq b hb]
  have h0 : rowDot cs.C j (fun _ => (0 : K)) = 0 := by simp [rowDot]
  rw [h0] at hle
  rw [hnC] at hj
  have hN : Km.nrows = 2 * mesh.rows.length := by rw [has.eq]
  have hq0 : (assemble Km cs).q0 (2 * mesh.rows.length + j) = b := by
    simp [assemble, hN, List.getD_eq_getElem?_getD, hb]
  have hdq : (assemble Km cs).dq (2 * mesh.rows.length + j) = if j % 3 = 2 then 1 else 0 := by
    rw [← hc.incr hj]
    simp [assemble, hN]
  have hg : ¬ Frozen bl (2 * mesh.rows.length + j) := by
    intro hf
    have := hsd.lt _ hf
    rw [hnK] at this; omega
  cases b with
  | fin c =>
    have hge := hsd.gap_nonneg (o := { o with perm := perm.getD (List.range (assemble Km cs).n) }) hlin (permOf_getD hperm) htol
      (r := 2 * mesh.rows.length + j) (by rw [hn]; omega) hg hq0 (Cell.le_fin_iff.1 hle) ha
    rw [gap, hdq, apply_constraint hn (by rw [hc.C]), hZ] at hge
    rw [Cell.fin_add_fin, Cell.le_fin_iff]
    split_ifs at hge ⊢ <;> linarith
  | pinf => rfl
  | ninf => cases hle
  | nan => cases hle

/-- The plate stays above the thickness of every fiber of the mesh; the packing is positive and bounded. -/
theorem C46_thickness (h : solve mat mesh lmin lmax coupling o perm = .ok (S, recs, stop)) (hm : GoodMat mat)
    (hp : PositiveLengths mesh.rows lmin lmax) (htol : 0 ≤ o.tol) (hlin : ExactLin o.lin) (hperm : PermOf S.n perm)
    {cs : ConstraintSys K} (hC : constraint mat mesh = .ok cs) (hadm : Admissible cs (fun _ => 0))
    (hcr : ConstraintsReciprocal mesh.rows) (k : ℕ) (a : Rec K) (ha : recs[k]? = some a) (i : ℕ) (hi : i < mesh.rows.length) :
    0 < nodeThick mat mesh.rows i ∧ nodeThick mat mesh.rows i ≤ a.Z ∧
      ∃ x, a.rlambda = .fin x ∧ 0 < x ∧ x ≤ S.Z0 / nodeThick mat mesh.rows i := by
  have hnp := C46_nonPenetrating h hm hp htol hlin hperm hC hadm hcr k a ha
  obtain ⟨hs, l, hc⟩ := contacts_of hC
  have hpos := nodeThick_pos hm hc.thick hi
  have hle : nodeThick mat mesh.rows i ≤ a.Z := by
    have h1 := hnp.floor i hi
    have h2 := hnp.roof i hi
    linarith
  refine ⟨hpos, hle, ?_⟩
  have hZ : 0 < a.Z := lt_of_lt_of_le hpos hle
  obtain ⟨Km, -, hK, -, -, -⟩ := solve_run h
  obtain ⟨bl, hs, l, has, -, hc, -, hnK, hn, hnC, hZ0, hsd, rfl⟩ := solve_sound h hm hp hK hC
  have hZle := hsd.Z_le (o := { o with perm := perm.getD (List.range S.n) }) htol ha
  have hlam : a.rlambda = .fin (S.Z0 / a.Z) := by
    rcases k with _ | k
    · rw [run_zero] at ha
      cases ha
      simp only [Sys.init] at hZ ⊢
      rw [div_self hZ.ne']
    · have hk : k < (S.run { o with perm := perm.getD (List.range S.n) }).1.length := by
        have := (List.getElem?_eq_some_iff.1 ha).1; omega
      obtain ⟨dx', t', s', hst'⟩ := hsd.next (List.getElem?_eq_getElem hk) ha
      rw [hst'.lam, Cell.fin_div_fin hZ.ne']
  exact ⟨_, hlam, div_pos (lt_of_lt_of_le hZ hZle) hZ, div_le_div_of_nonneg_left (lt_of_lt_of_le hZ hZle).le hpos hle⟩

/-! ## C49 -/

/-- Beams of a fiber of infinite tensile modulus freeze the rotations of their nodes. -/
theorem frozen_of {bl : List (Beam K × K)} {Km : Coo (Cell K)} (has : Assembled mat mesh.rows coupling Km bl)
    (hv : ValidMesh mesh.frame) {i : ℕ} {r : MeshRow K} {f : Fiber K} (hr : mesh.rows[i]? = some r)
    (hf : mat.fibers[r.fiber.toNat]? = some f) (hE : f.E = ⊤) (hon : OnBeam mesh.rows i) : Frozen bl (2 * i + 1) := by
  have hbeams : BeamsCyclic mesh.rows := by have := hv.beams; rwa [rows_meshFrame] at this
  rcases hon with hst | ⟨k, hst, hsucc⟩
  · obtain ⟨p, hp, rfl⟩ := has.all i hst
    obtain ⟨r', q, h1, h2, -, -, -, h3⟩ := (has.beam p hp).rows
    rw [hr] at h1; cases h1
    rw [hf] at h3; cases h3
    exact ⟨p, hp, hE, Or.inl rfl⟩
  · obtain ⟨p, hp, rfl⟩ := has.all k hst
    obtain ⟨r', q, h1, h2, h4, -, -, h3⟩ := (has.beam p hp).rows
    have hj : p.1.j = i := by
      rw [← hsucc]; simp [succNode, h1, h4]
    obtain ⟨-, q', h5, h6⟩ := beam_next hbeams h1 h4 (has.beam p hp).lt
    rw [hj, hr] at h5; cases h5
    rw [h6, h3] at hf; cases hf
    exact ⟨p, hp, hE, Or.inr (by rw [hj])⟩

/-- Rotations of the nodes of fibers with infinite tensile modulus are exactly zero, whatever the linear solver answers. -/
theorem C49_rotations (h : solve mat mesh lmin lmax coupling o perm = .ok (S, recs, stop)) (hm : GoodMat mat)
    (hv : ValidMesh mesh.frame) (hp : PositiveLengths mesh.rows lmin lmax) {i : ℕ} {r : MeshRow K} {f : Fiber K}
    (hr : mesh.rows[i]? = some r) (hf : mat.fibers[r.fiber.toNat]? = some f) (hE : f.E = ⊤) (hon : OnBeam mesh.rows i)
    (k : ℕ) (a : Rec K) (ha : recs[k]? = some a) : a.x (2 * i + 1) = 0 := by
  obtain ⟨Km, cs, hK, hC, -, -⟩ := solve_run h
  obtain ⟨bl, hs, l, has, -, hc, -, hnK, hn, hnC, hZ0, hsd, rfl⟩ := solve_sound h hm hp hK hC
  exact (hsd.inv ha).frozen _ (frozen_of has hv hr hf hE hon)

/-- Those rows are never in the recorded masks. -/
theorem C49_inactive (h : solve mat mesh lmin lmax coupling o perm = .ok (S, recs, stop)) (hm : GoodMat mat)
    (hv : ValidMesh mesh.frame) (hp : PositiveLengths mesh.rows lmin lmax) {i : ℕ} {r : MeshRow K} {f : Fiber K}
    (hr : mesh.rows[i]? = some r) (hf : mat.fibers[r.fiber.toNat]? = some f) (hE : f.E = ⊤) (hon : OnBeam mesh.rows i)
    (k : ℕ) (a : Rec K) (ha : recs[k]? = some a) : a.mask (2 * i + 1) = false := by
  obtain ⟨Km, cs, hK, hC, -, -⟩ := solve_run h
  obtain ⟨bl, hs, l, has, -, hc, -, hnK, hn, hnC, hZ0, hsd, rfl⟩ := solve_sound h hm hp hK hC
  have hfr := frozen_of has hv hr hf hE hon
  rcases k with _ | k
  · rw [run_zero] at ha
    cases ha
    have := hsd.resid_rigid (hsd.inv_init { o with perm := perm.getD (List.range S.n) }) hfr
    simp only [Sys.init] at this ⊢
    rw [this]; rfl
  · have hk : k < (S.run { o with perm := perm.getD (List.range S.n) }).1.length := by
      have := (List.getElem?_eq_some_iff.1 ha).1; omega
    have hb := List.getElem?_eq_getElem hk
    obtain ⟨dx', t', s', hst'⟩ := hsd.next hb ha
    rw [hst'.mask]
    exact hsd.not_active_rigid (hsd.inv hb) hfr _

end Fibermat
