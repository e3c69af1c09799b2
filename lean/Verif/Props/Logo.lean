import Verif.Spec.Logo
import Verif.Props.Main

/-! # C99: the script `scripts/logo.py` -/

set_option linter.unusedSectionVars false
set_option linter.unusedSimpArgs false

namespace Fibermat
variable {σ K : Type} [Field K] [LinearOrder K] [IsStrictOrderedRing K]
open Spec

theorem npGet_nonneg {α : Type} {l : List α} {i : Int} {a : α} (h0 : 0 ≤ i) (h : l[i.toNat]? = some a) : npGet l i = .ok a := by
  unfold npGet
  rw [if_neg (not_lt.2 h0), h]
  simp only
  rw [if_pos (by omega)]

/-- The picture has 14 rows of 59 pixels; they are those of the strokes. -/
theorem C99_picture : logoPixels.length = 14 ∧ (∀ row ∈ logoPixels, row.length = 59) ∧
    (∀ i j, (∃ row, logoPixels[i]? = some row ∧ row[j]? = some 1) ↔
      ∃ q ∈ strokes, q.left ≤ j ∧ j < q.right ∧ q.top ≤ i ∧ i < q.bottom) ∧ ∀ row ∈ logoPixels, ∀ c ∈ row, c = 0 ∨ c = 1 := by
  refine ⟨by decide +kernel, by decide +kernel, ?_, by decide +kernel⟩
  have key : ∀ i < 14, ∀ j < 59, (logoPixels[i]?.bind (·[j]?)) = some 1 ↔
      ∃ q ∈ strokes, q.left ≤ j ∧ j < q.right ∧ q.top ≤ i ∧ i < q.bottom := by decide +kernel
  have h1 : logoPixels.length = 14 := by decide +kernel
  have h2 : ∀ row ∈ logoPixels, row.length = 59 := by decide +kernel
  have h3 : ∀ q ∈ strokes, q.right < 59 ∧ q.bottom < 14 := by decide +kernel
  intro i j
  constructor
  · rintro ⟨row, hr, hj⟩
    have hi : i < 14 := by have := (List.getElem?_eq_some_iff.1 hr).1; omega
    have hj' : j < 59 := by
      have := (List.getElem?_eq_some_iff.1 hj).1
      rw [h2 row (List.mem_of_getElem? hr)] at this
      exact this
    exact (key i hi j hj').1 (by rw [hr]; exact hj)
  · rintro ⟨q, hq, a1, a2, a3, a4⟩
    obtain ⟨b1, b2⟩ := h3 q hq
    have := (key i (by omega) j (by omega)).2 ⟨q, hq, a1, a2, a3, a4⟩
    obtain ⟨row, hr, hj⟩ := Option.bind_eq_some_iff.1 this
    exact ⟨row, hr, hj⟩

/-- No letter is cut by the region where points are drawn. -/
theorem C99_region {p : K × K} (h : InLetter p) : -29 ≤ p.1 ∧ p.1 < 29 ∧ -4 ≤ p.2 ∧ p.2 < 6 := by
  have key : ∀ q ∈ strokes, q.right ≤ 58 ∧ 2 ≤ q.top ∧ q.bottom ≤ 12 := by decide +kernel
  obtain ⟨q, hq, a1, a2, a3, a4⟩ := h
  obtain ⟨b1, b2, b3⟩ := key q hq
  have c1 : (q.right : K) ≤ 58 := by exact_mod_cast b1
  have c2 : (2 : K) ≤ q.top := by exact_mod_cast b2
  have c3 : (q.bottom : K) ≤ 12 := by exact_mod_cast b3
  have c4 : (0 : K) ≤ q.left := Nat.cast_nonneg _
  refine ⟨by linarith, by linarith, by linarith, by linarith⟩

/-- Reading the mask at a point of the region. -/
theorem maskAt_point [FloorRing K] {p : K × K} (h1 : -29 ≤ p.1) (h2 : p.1 < 30) (h3 : -6 ≤ p.2) (h4 : p.2 < 8) :
    ∃ b, maskAt logoMask ⌊p.2 + 6⌋ ⌊p.1 + 29⌋ = .ok b ∧ (b = true ↔ InLetter p) := by
  obtain ⟨e1, e2, e3, e4⟩ := C99_picture
  have i0 : 0 ≤ ⌊p.2 + 6⌋ := Int.floor_nonneg.2 (by linarith)
  have i1 : ⌊p.2 + 6⌋ < 14 := Int.floor_lt.2 (by push_cast; linarith)
  have j0 : 0 ≤ ⌊p.1 + 29⌋ := Int.floor_nonneg.2 (by linarith)
  have j1 : ⌊p.1 + 29⌋ < 59 := Int.floor_lt.2 (by push_cast; linarith)
  have fi1 : ((⌊p.2 + 6⌋ : ℤ) : K) ≤ p.2 + 6 := Int.floor_le _
  have fi2 : p.2 + 6 < (⌊p.2 + 6⌋ : ℤ) + 1 := Int.lt_floor_add_one _
  have fj1 : ((⌊p.1 + 29⌋ : ℤ) : K) ≤ p.1 + 29 := Int.floor_le _
  have fj2 : p.1 + 29 < (⌊p.1 + 29⌋ : ℤ) + 1 := Int.lt_floor_add_one _
  generalize ⌊p.2 + 6⌋ = i at *
  generalize ⌊p.1 + 29⌋ = j at *
  lift i to ℕ using i0
  lift j to ℕ using j0
  have hi : i < logoPixels.length := by omega
  have hrow := List.getElem?_eq_getElem hi
  set row := logoPixels[i] with hrd
  have hlen : row.length = 59 := e2 row (List.mem_of_getElem? hrow)
  have hj : j < row.length := by omega
  have hpix := List.getElem?_eq_getElem hj
  refine ⟨row[j] != 0, ?_, ?_⟩
  · unfold maskAt
    rw [npGet_nonneg (a := row.map (· != 0)) (by omega) (by simp [logoMask, hrow])]
    simp only [Bind.bind, Except.bind]
    exact npGet_nonneg (by omega) (by simp [hpix])
  · have hpx : (row[j] != 0) = true ↔ ∃ row', logoPixels[i]? = some row' ∧ row'[j]? = some 1 := by
      constructor
      · intro hb
        refine ⟨row, hrow, ?_⟩
        rw [hpix]
        rcases e4 row (List.mem_of_getElem? hrow) _ (List.getElem_mem hj) with h | h
        · simp [h] at hb
        · rw [h]
      · rintro ⟨row', hr', hc'⟩
        rw [hrow] at hr'
        rw [← Option.some.inj hr', hpix] at hc'
        simp only [Option.some.injEq] at hc'
        simp [hc']
    rw [hpx, e3]
    have cut : ∀ (k c : ℕ) (x : K), (c : K) ≤ x → x < c + 1 → (((k : K) ≤ x ↔ k ≤ c) ∧ (x < k ↔ c < k)) := by
      intro k c x l1 l2
      refine ⟨⟨fun h => ?_, fun h => ?_⟩, ⟨fun h => ?_, fun h => ?_⟩⟩
      · have : (k : K) < c + 1 := by linarith
        have : k < c + 1 := by exact_mod_cast this
        omega
      · have : (k : K) ≤ c := by exact_mod_cast h
        linarith
      · have : (c : K) < k := by linarith
        exact_mod_cast this
      · have : (c : K) + 1 ≤ k := by exact_mod_cast h
        linarith
    unfold InLetter
    refine exists_congr fun q => and_congr_right fun _ => ?_
    rw [(cut q.left j _ (by exact_mod_cast fj1) (by exact_mod_cast fj2)).1, (cut q.right j _ (by exact_mod_cast fj1) (by exact_mod_cast fj2)).2,
      (cut q.top i _ (by exact_mod_cast fi1) (by exact_mod_cast fi2)).1, (cut q.bottom i _ (by exact_mod_cast fi1) (by exact_mod_cast fi2)).2]

open Classical in
theorem keepMasked_eq [FloorRing K] {ps : List (K × K)} (h : ∀ p ∈ ps, -29 ≤ p.1 ∧ p.1 < 30 ∧ -6 ≤ p.2 ∧ p.2 < 8) :
    keepMasked logoMask ps = .ok (ps.filter (fun p => decide (InLetter p))) := by
  induction ps with
  | nil => rfl
  | cons p ps ih =>
    obtain ⟨a1, a2, a3, a4⟩ := h p (by simp)
    obtain ⟨b, hb, hiff⟩ := maskAt_point a1 a2 a3 a4
    rw [keepMasked, hb, ih (fun q hq => h q (by simp [hq]))]
    simp only [Bind.bind, Except.bind, pure, Except.pure, List.filter_cons]
    by_cases hl : InLetter p
    · simp [hl, hiff.2 hl]
    · have : b = false := by
        cases b with
        | true => exact absurd (hiff.1 rfl) hl
        | false => rfl
      simp [hl, this]

open Classical in
/-- The selection never fails and keeps exactly the random points that are in the letters, in their order. -/
theorem C99_points [FloorRing K] {g : Rng σ K} (hg : UnitInterval g) {seed : Int} (hseed : GoodSeed (some seed)) (n : ℕ) :
    logoPoints g seed n = .ok ((logoDrawn g (g.seed seed) n).filter (fun p => decide (InLetter p)),
      stateAfter g (2 * n) (g.seed seed)) := by
  have hz : (g.uniformIn (-29) 29 n (g.seed seed)).1.zip
      (g.uniformIn (-6) 6 n (g.uniformIn (-29) 29 n (g.seed seed)).2).1 = logoDrawn g (g.seed seed) n := by
    simp only [Rng.uniformIn, draws_eq, draws_snd, List.map_map]
    rw [List.zip_map']
    unfold logoDrawn
    apply List.map_congr_left
    intro k _
    simp only [Function.comp, Prod.mk.injEq]
    refine ⟨by ring, ?_⟩
    have : drawn g (stateAfter g n (g.seed seed)) k = drawn g (g.seed seed) (n + k) := by
      unfold drawn; rw [stateAfter_add]
    rw [this]; ring
  rw [← seedOk_iff] at hseed
  unfold logoPoints
  simp only [hz, hseed, Bool.not_true, Bool.false_eq_true, if_false]
  rw [keepMasked_eq]
  · simp only [Bind.bind, Except.bind, pure, Except.pure, Rng.uniformIn, draws_snd, ← stateAfter_add, two_mul]
  · intro p hp
    obtain ⟨k, -, rfl⟩ := List.mem_map.1 hp
    have u1 := hg (stateAfter g k (g.seed seed))
    have u2 := hg (stateAfter g (n + k) (g.seed seed))
    simp only [drawn]
    refine ⟨by linarith, by linarith, by linarith, by linarith⟩

/-- The arguments of `Mat` in the script, for `n` points. -/
def logoArgs (n : ℕ) : MatArgs K :=
  { n := n, length := 1, width := 1 / 10, thickness := 1 / 20, size := 60, theta := npPi, psi := 0, shear := 1
    tensile := ((400 : K) : WithTop K), seed := some 0 }

open Classical in
/-- The set of fibers: one fiber per point, the picture upside down, and it is valid. -/
theorem C99_mat [FloorRing K] {g : Rng σ K} (hg : UnitInterval g) {cos sin : K → K} {ε : K} (hcs : NearUnit cos sin ε)
    (hε : ε ≤ 1 / 10 ^ 6) (e : σ) {seed : Int} (hseed : GoodSeed (some seed)) (n : ℕ) :
    ∃ m st, logoMat g cos sin e seed n = .ok (m, st) ∧ GoodMat m ∧
      m.fibers.map (fun f => (f.x, -f.y)) = (logoDrawn g (g.seed seed) n).filter (fun p => decide (InLetter p)) ∧
      (∀ f ∈ m.fibers, InLetter (f.x, -f.y) ∧ f.l = 1 ∧ f.b = 1 / 10 ∧ f.h = 1 / 20 ∧ f.G = 1 ∧ f.E = ((400 : K) : WithTop K) ∧
        (sin 0 = 0 → f.w = 0)) := by
  have hpts := C99_points hg hseed n
  set ps := (logoDrawn g (g.seed seed) n).filter (fun p => decide (InLetter p)) with hps
  have hin : ∀ p ∈ ps, InLetter p ∧ -29 ≤ p.1 ∧ p.1 < 29 ∧ -6 ≤ p.2 ∧ p.2 < 6 := by
    intro p hp
    rw [hps, List.mem_filter] at hp
    refine ⟨by simpa using hp.2, ?_⟩
    obtain ⟨k, -, rfl⟩ := List.mem_map.1 hp.1
    have u1 := hg (stateAfter g k (g.seed seed))
    have u2 := hg (stateAfter g (n + k) (g.seed seed))
    simp only [drawn]
    refine ⟨by linarith, by linarith, by linarith, by linarith⟩
  have hpos : PositiveArgs (logoArgs ps.length : MatArgs K) :=
    ⟨one_pos, by norm_num [logoArgs], by norm_num [logoArgs], one_pos, WithTop.coe_lt_coe.2 (by norm_num)⟩
  have hS : 0 ≤ (logoArgs ps.length : MatArgs K).size := by norm_num [logoArgs]
  obtain ⟨⟨m, st⟩, hr⟩ := (C03_matNew_ok_iff g cos sin e (logoArgs ps.length) (stateAfter g (2 * n) (g.seed seed)) hg hcs hε).2
    (by
      refine ⟨by simp [logoArgs, GoodSeed], ?_⟩
      rcases Nat.eq_zero_or_pos ps.length with h | h
      · left; simp [logoArgs, h]
      · right; exact ⟨by simp only [logoArgs]; exact_mod_cast h, hS, hpos⟩)
  obtain ⟨hlen, hat, hf⟩ := C03_matNew_result g cos sin e _ _ hg hcs hε hS _ hr
  have hgood := matNew_good (s' := st) hg hcs hε hr
  have hlen' : m.fibers.length = ps.length := by
    have : (m.fibers.length : Int) = (ps.length : Int) := hlen
    exact_mod_cast this
  refine ⟨replaceXY m ps, st, ?_, ?_, ?_, ?_⟩
  · unfold logoMat
    rw [hpts]
    simp only [Bind.bind, Except.bind]
    have := hr
    unfold logoArgs at this
    rw [this]
    rfl
  · obtain ⟨S, hS1, hS2⟩ := hgood.1.size
    have hS60 : S = 60 := by
      rw [hgood.2] at hS1
      exact (Option.some.inj hS1).symm
    subst hS60
    refine ⟨?_, 60, hS1, ?_⟩
    · have := hgood.1.n
      simp only [replaceXY, List.length_map, List.length_zip, hlen', min_self] at this ⊢
      exact this
    · intro f' hf'
      simp only [replaceXY] at hf'
      obtain ⟨⟨f, p⟩, hq, rfl⟩ := List.mem_map.1 hf'
      obtain ⟨hq1, hq2⟩ := List.of_mem_zip hq
      have hG := hS2 f hq1
      obtain ⟨-, i1, i2, i3, i4⟩ := hin p hq2
      exact ⟨hG.l, hG.b, hG.h, by simp only; linarith, by simp only; linarith, by simp only; linarith, by simp only; linarith,
        hG.dir1, hG.dir2, hG.G, hG.E⟩
  · simp only [replaceXY, List.map_map]
    have : (fun f : Fiber K => (f.x, -f.y)) ∘ (fun q : Fiber K × K × K => { q.1 with x := q.2.1, y := -q.2.2 }) = Prod.snd := by
      funext q; simp
    rw [this, List.map_snd_zip (by omega)]
  · intro f' hf'
    simp only [replaceXY] at hf'
    obtain ⟨⟨f, p⟩, hq, rfl⟩ := List.mem_map.1 hf'
    obtain ⟨hq1, hq2⟩ := List.of_mem_zip hq
    obtain ⟨-, -, -, -, d1, d2, d3, d4, d5⟩ := hf f hq1
    refine ⟨by simpa using (hin p hq2).1, d1, d2, d3, d4, d5, fun hsin => ?_⟩
    exact matNew_planar (s' := st) rfl hsin hr f hq1

theorem logoProgram_seed [FloorRing K] (g : Rng σ K) (cos sin : K → K) (e : σ) (lp : Linprog K) {seed : Int} (n : ℕ) (o : Opts K)
    (hs : ¬ GoodSeed (some seed)) : logoProgram g cos sin e lp seed n o = .error .valueError := by
  rw [← seedOk_iff, Bool.not_eq_true] at hs
  simp [logoProgram, logoMat, logoPoints, hs, Bind.bind, Except.bind, throw, throwThe, MonadExceptOf.throw]

/-- The chain of calls on an empty set of fibers. -/
theorem chain_empty {lp : Linprog K} {m : Mat K} (hgood : GoodMat m) (he : m.fibers = []) (periodic : Bool)
    (threshold lmin lmax : Option K) (coupling : K) (o : Opts K) (perm : Option (List ℕ)) :
    chain lp periodic threshold lmin lmax coupling o perm m = .error .valueError := by
  obtain ⟨net, h2, -⟩ := C06_netNew_ok hgood periodic
  obtain ⟨hck, ho, -⟩ := netNew_over hgood h2
  obtain ⟨h3, hr⟩ := stackNew_empty (lin := lp) hgood hck ho he threshold
  obtain ⟨mesh, h4, h4'⟩ := meshNew_of_ended hck (netNew_ended hgood h2)
  obtain ⟨place, hp⟩ := C26_constraints h4'
  have hrows : mesh.rows = [] := by
    have := hp.count
    rw [hr, List.length_nil] at this
    exact List.length_eq_zero_iff.1 (by omega)
  have hv : meshCheck mesh.frame = .ok () := by
    have := h4
    unfold meshNew at this
    simp only [bind, Except.bind, pure, Except.pure] at this
    split at this
    · cases this
    split at this
    · cases this
    rename_i q h5 u h6
    simp only [Except.ok.injEq] at this
    rw [this] at h6
    exact h6
  obtain ⟨-, -, h5⟩ := C36_empty lmin lmax coupling ((matCheck_frame_iff m).2 (Or.inr hgood)) hv hrows o perm
  unfold chain
  simp only [bind, Except.bind, h2, h3, h4, h5]

/-- The script (with `solve`) succeeds exactly when the seed is acceptable and one random point is in a letter, and otherwise raises
ValueError. -/
theorem C99_runs [FloorRing K] {g : Rng σ K} (hg : UnitInterval g) {cos sin : K → K} {ε : K} (hcs : NearUnit cos sin ε)
    (hε : ε ≤ 1 / 10 ^ 6) (e : σ) {lp : Linprog K} (hlp : GoodLinprog lp) (seed : Int) (n : ℕ) (o : Opts K) :
    ((∃ r, logoProgram g cos sin e lp seed n o = .ok r) ↔
        GoodSeed (some seed) ∧ ∃ p ∈ logoDrawn g (g.seed seed) n, InLetter p) ∧
      (¬ (GoodSeed (some seed) ∧ ∃ p ∈ logoDrawn g (g.seed seed) n, InLetter p) →
        logoProgram g cos sin e lp seed n o = .error .valueError) := by
  classical
  by_cases hseed : GoodSeed (some seed)
  swap
  · have e1 := logoProgram_seed g cos sin e lp n o hseed
    exact ⟨⟨fun ⟨r, hr⟩ => (by rw [e1] at hr; cases hr), fun h => absurd h.1 hseed⟩, fun _ => e1⟩
  simp only [hseed, true_and]
  obtain ⟨m, st, h1, hgood, hxy, -⟩ := C99_mat hg hcs hε e hseed n
  have hno : (¬ ∃ p ∈ logoDrawn g (g.seed seed) n, InLetter p) → logoProgram g cos sin e lp seed n o = .error .valueError := by
    intro hall
    push Not at hall
    have he : m.fibers = [] := by
      rw [List.filter_eq_nil_iff.2 (by simpa using hall)] at hxy
      simpa using hxy
    unfold logoProgram
    simp only [h1, Bind.bind, Except.bind]
    exact chain_empty hgood he _ _ _ _ _ _ _
  refine ⟨⟨?_, ?_⟩, hno⟩
  · rintro ⟨r, hr⟩
    by_contra hc
    rw [hno hc] at hr
    cases hr
  · rintro ⟨p, hp, hin⟩
    have hne : m.fibers ≠ [] := by
      intro he
      rw [he, List.map_nil] at hxy
      have := List.filter_eq_nil_iff.1 hxy.symm p hp
      simp [hin] at this
    obtain ⟨net, m', st', mesh, S, recs, stop, g2, g3, g4, g5⟩ :=
      C78_runs hlp hgood hne false none (some (1 / 100)) none (99 / 100) { o with packing := .fin 4, itermax := 10000 } none
    refine ⟨(S, recs, stop), ?_⟩
    unfold logoProgram chain
    simp only [h1, Bind.bind, Except.bind, g2, g3, g4, g5]

/-- The compressed letters: only heights change, fibers never penetrate each other nor the plates, and with enough iterations the
mat is packed four times or squeezed to the height of two crossing fibers (of one fiber when none cross). -/
theorem C99_result [FloorRing K] {g : Rng σ K} (hg : UnitInterval g) {cos sin : K → K} {ε : K} (hcs : NearUnit cos sin ε)
    (hε : ε ≤ 1 / 10 ^ 6) (hsin : sin 0 = 0) (e : σ) {lp : Linprog K} (hlp : GoodLinprog lp) (seed : Int) (n : ℕ) {o : Opts K}
    (htol : 0 ≤ o.tol) (herr : 0 ≤ o.errtol) (hlin : GoodLin o.lin) {S : Sys K} {recs : List (Rec K)} {stop : Stop}
    (h : logoProgram g cos sin e lp seed n o = .ok (S, recs, stop)) :
    ∃ (m m' : Mat K) (st : σ) (stack : Net K) (mesh : Mesh K) (H : K), logoMat g cos sin e seed n = .ok (m, st) ∧ SameExceptZ m m' ∧
      meshNew stack = .ok mesh ∧ H = (if ∃ r ∈ stack.rows, r.A ≠ r.B then 1 / 10 else 1 / 20) ∧
      (∀ b ∈ recs, NonPenetrating m' mesh.rows b.Z b.x ∧ IsTop m' (mesh.deform b.x).rows b.Z ∧ H ≤ b.Z ∧
        b.rlambda = .fin (S.Z0 / b.Z)) ∧
      (3 * mesh.rows.length < 10000 → ∃ b, recs.getLast? = some b ∧
        (Cell.lt b.rlambda (.fin 4) = false ∨ b.Z ≤ H + 3 * o.tol)) := by
  have hseed : GoodSeed (some seed) := by
    by_contra hs
    rw [logoProgram_seed g cos sin e lp n o hs] at h
    cases h
  obtain ⟨m, st, h1, hgood, hxy, hf⟩ := C99_mat hg hcs hε e hseed n
  unfold logoProgram chain at h
  simp only [h1, Bind.bind, Except.bind] at h
  split at h
  · cases h
  rename_i net g2
  split at h
  · cases h
  rename_i q g3
  obtain ⟨m', stack⟩ := q
  simp only at h
  split at h
  · cases h
  rename_i mesh g4
  have hw : ∀ f ∈ m.fibers, f.w = 0 := fun f hm => (hf f hm).2.2.2.2.2.2 hsin
  have ht : ∀ f ∈ m.fibers, f.h = 1 / 20 := fun f hm => (hf f hm).2.2.2.1
  have hne := chain_nonempty hlp hgood g2 g3 g4 h
  obtain ⟨net', k1, hst, hgood', hsame, hend, hmi, hvalid, hof, hner⟩ := chain_facts hlp hgood hne g2 g3 g4
  obtain ⟨hpos, -⟩ := C78_positive hlp hgood hne g2 g3 g4 (show (0 : K) < 1 / 100 by norm_num) (lmax := none) (by simp)
  have hrow : ∀ r ∈ stack.rows, r.A.toNat < m.fibers.length ∧ r.B.toNat < m.fibers.length := by
    intro r hr
    obtain ⟨p, ek, -⟩ := keep_rows none net'
    rw [hst, ek] at hr
    obtain ⟨-, ho', -⟩ := netNew_over hgood' k1
    obtain ⟨q1, q2, q3⟩ := ho' r (List.mem_filter.1 hr).1
    have hlen : m.fibers.length = m'.fibers.length := by simpa using congrArg List.length hsame.2
    rw [← hlen] at q3
    omega
  have hrne : stack.rows ≠ [] := by
    intro he
    obtain ⟨place, hp⟩ := C26_constraints hmi
    have := hp.count
    rw [he, List.length_nil] at this
    exact hner (List.length_eq_zero_iff.1 (by omega))
  have hH : SolidHeight m stack.rows (if ∃ r ∈ stack.rows, r.A ≠ r.B then 1 / 10 else 1 / 20) := by
    split_ifs with hc
    · have := uniform_solid (show (0 : K) ≤ 1 / 20 by norm_num) ht hrow hc
      rwa [show (2 * (1 / 20) : K) = 1 / 10 by norm_num] at this
    · push Not at hc
      exact ends_solid ht hrne (fun r hr => (hrow r hr).1) hc
  have hperm : PermOf S.n none := fun p hp => by cases hp
  refine ⟨m, m', st, stack, mesh, _, h1, hsame, g4, rfl, ?_, ?_⟩
  · intro b hb
    obtain ⟨k, hk⟩ := List.mem_iff_getElem?.1 hb
    obtain ⟨e1, e2⟩ := C78_nonPenetrating hlp hgood hw g2 g3 g4 h hpos htol hlin.1 hperm k b hk
    obtain ⟨e3, e4, e5⟩ := C82_limit hlp hgood hw g2 g3 g4 h hpos htol hlin.1 hperm hH k b hk
    exact ⟨e1, e2, e4, e5⟩
  · intro hit
    obtain ⟨b, hb, hc⟩ := C82_final hlp hgood hw g2 g3 (fun t ht => by cases ht) g4 h hpos (by norm_num [abs_le])
      (Or.inl (by norm_num [abs_lt])) htol herr hlin hperm hit hH
    exact ⟨b, hb, hc.imp_right (·.2)⟩

/-! ## Concrete cases -/

/-- Of twelve points, two are in a letter (the letter `e`). -/
example : (logoPoints toyRng 0 12).map Prod.fst = .ok [(-29 / 7, 6 / 7), (-29 / 7, 6 / 7)] := by decide +kernel

/-- The pixel of these points. -/
theorem toy_letter : InLetter ((-29 / 7, 6 / 7) : ℚ × ℚ) :=
  ⟨⟨23, 25, 4, 8⟩, by decide, by norm_num, by norm_num, by norm_num, by norm_num⟩

theorem toy_drawn : ((-29 / 7, 6 / 7) : ℚ × ℚ) ∈ logoDrawn toyRng (toyRng.seed 0) 12 := by decide +kernel

/-- The script with twelve points runs and its result is as described, for any linear programming solver. -/
example (lp : Linprog ℚ) (hlp : GoodLinprog lp) : ∃ S recs stop,
    logoProgram toyRng toyCos toySin 5 lp 0 12 toyMainOpts = .ok (S, recs, stop) ∧ ∀ b ∈ recs, 1 / 20 ≤ b.Z := by
  obtain ⟨⟨S, recs, stop⟩, hr⟩ := (C99_runs toyRng_unit toy_near (by norm_num) 5 hlp 0 12 toyMainOpts).1.2
    ⟨by simp [GoodSeed], _, toy_drawn, toy_letter⟩
  refine ⟨S, recs, stop, hr, fun b hb => ?_⟩
  obtain ⟨_, _, _, _, _, H, _, _, _, hH, hall, _⟩ := C99_result toyRng_unit toy_near (by norm_num) rfl 5 hlp 0 12
    (by norm_num [toyMainOpts]) (by norm_num [toyMainOpts]) goodGauss_good hr
  refine le_trans ?_ (hall b hb).2.2.1
  rw [hH]
  split_ifs <;> norm_num

/-- Without points the script raises ValueError. -/
example (lp : Linprog ℚ) (hlp : GoodLinprog lp) :
    logoProgram toyRng toyCos toySin 5 lp 0 0 toyMainOpts = .error .valueError :=
  (C99_runs toyRng_unit toy_near (by norm_num) 5 hlp 0 0 toyMainOpts).2 (by simp [logoDrawn])

/-- Above the picture the selection would fail. -/
example : maskAt logoMask 14 0 = .error .indexError := by decide +kernel

end Fibermat
