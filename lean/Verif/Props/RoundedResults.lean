import Verif.Props.RoundedInterpSpecial
import Verif.Props.RoundedProgram
import Verif.Spec.RoundedInterp

/-! # C95: results returned by `solve` with rounded arithmetic -/

set_option linter.unusedSectionVars false

namespace Fibermat
open Spec
variable {K : Type} [Field K] [LinearOrder K] [IsStrictOrderedRing K] {fl : K → K} {u : K}

/-- A vector of one number, resampled, at the end. -/
theorem single_end (hr : Rounds fl u) {m : ℕ} (hm : 2 ≤ m) (hmu : 4 * m * u ≤ 1) (c : Cell K) :
    interpolateR fl false .linear [c] (some m) 1 = c := by
  obtain ⟨kn, hk, ek⟩ := linspaceR_knots hr hm hmu
  rw [interpolateR_eq]
  simp only [sampleCount, List.length_singleton, linspaceR_one, ek]
  have hl' : ((List.range m).map kn).map (interp1dR fl false .linear [0] [c] (([c] : List (Cell K)).getLastD .nan)) = List.replicate m c := by
    rw [List.eq_replicate_iff]
    refine ⟨by simp, ?_⟩
    intro b hb
    obtain ⟨x, -, rfl⟩ := List.mem_map.1 hb
    rw [(interp_point hr _ _ _).2]
    split_ifs <;> rfl
  rw [hl']
  have hin : ¬ ((1 : K) < ((List.range m).map kn).headD 0 ∨ ((List.range m).map kn).getLastD 0 < 1) := by
    rw [hk.headD, hk.getLastD]; push Not; exact ⟨zero_le_one, le_rfl⟩
  obtain ⟨i, hi, ha, hb, hlow, hseg⟩ := hk.segment fl zero_le_one le_rfl
  have hone : (1 : K) = kn (i + 1) := le_antisymm hb (hk.mem hi).2
  unfold interp1dR
  simp only [if_neg hin, Bool.false_eq_true, if_false]
  rw [(hseg _).2.2.1 hone, getD_replicate (by omega)]

theorem exists_bound (y : List K) : ∃ M, ∀ v ∈ y, |v| ≤ M := by
  induction y with
  | nil => exact ⟨0, by simp⟩
  | cons a l ih =>
    obtain ⟨M, hM⟩ := ih
    refine ⟨max |a| M, ?_⟩
    intro v hv
    rcases List.mem_cons.1 hv with rfl | h
    · exact le_max_left _ _
    · exact (hM v h).trans (le_max_right _ _)

theorem mix_ge {n : ℕ} {w F : ℕ → K} (h0 : ∀ k, 0 ≤ w k) (h1 : ∑ k ∈ Finset.range n, w k = 1) {A : K} (h : ∀ k, k < n → A ≤ F k) :
    A ≤ ∑ k ∈ Finset.range n, w k * F k := by
  calc A = ∑ k ∈ Finset.range n, w k * A := by rw [← Finset.sum_mul, h1, one_mul]
    _ ≤ _ := Finset.sum_le_sum (fun k hk => mul_le_mul_of_nonneg_left (h k (Finset.mem_range.1 hk)) (h0 k))

theorem recs_getD (recs : List (Rec K)) (g : Rec K → K) {k : ℕ} (hk : k < recs.length) : (recs.map g).getD k 0 = g recs[k] := by
  simp [List.getD_eq_getElem?_getD, hk]

/-- C95: if the recorded states of a run overlap by at most `ε` and their displacements and plate positions are bounded by `M`, then so do the
results returned by `solve` at every time, up to `60 u M`. -/
theorem C95_clear (hr : Rounds fl u) (hu : u ≤ 1 / 100) {mat : Mat K} {rows : List (MeshRow K)} {recs : List (Rec K)} (hn : 2 ≤ recs.length)
    (size : Option ℕ) (hs : ∀ k, size = some k → 2 ≤ k) (hnu : 4 * recs.length * u ≤ 1) (hsu : ∀ k, size = some k → 4 * k * u ≤ 1)
    {ε M : K} (hclear : ∀ b ∈ recs, ClearUpTo mat rows ε b.Z b.x)
    (hM : ∀ b ∈ recs, |b.Z| ≤ M ∧ ∀ i, Connected rows i → |b.x (2 * i)| ≤ M) {t : K} (h0 : 0 ≤ t) (h1 : t ≤ 1) :
    ∃ (x : ℕ → K) (Z : K), (∀ c, resultX fl recs size t c = .fin (x c)) ∧ resultZ fl recs size t = .fin Z ∧
      ClearUpTo mat rows (ε + 60 * u * M) Z x := by
  obtain ⟨w, hw0, hw1, -, -, hw⟩ := C95_weights hr hu hn size hs hnu hsu h0 h1
  have hx : ∀ c, ∃ v, resultX fl recs size t c = .fin v := by
    intro c
    obtain ⟨B, hB⟩ := exists_bound (recs.map (fun a => a.x c))
    obtain ⟨r, e, -⟩ := hw true (recs.map (fun a => a.x c)) B (by simp) hB
    refine ⟨r, ?_⟩
    unfold resultX
    rw [← e, List.map_map]
    rfl
  choose x hx using hx
  have hxn : ∀ i, Connected rows i → |x (2 * i) - ∑ k ∈ Finset.range recs.length, w k * (recs.map (fun a => a.x (2 * i))).getD k 0| ≤ 30 * u * M := by
    intro i hi
    obtain ⟨r, e, h⟩ := hw true (recs.map (fun a => a.x (2 * i))) M (by simp) (by
      intro v hv
      obtain ⟨b, hb, rfl⟩ := List.mem_map.1 hv
      exact (hM b hb).2 i hi)
    have : (Cell.fin r : Cell K) = .fin (x (2 * i)) := by
      rw [← hx, ← e]
      unfold resultX
      rw [List.map_map]
      rfl
    injection this with this
    rw [← this]; exact h
  obtain ⟨Z, eZ, hZ⟩ := hw false (recs.map (fun a => a.Z)) M (by simp) (by
    intro v hv
    obtain ⟨b, hb, rfl⟩ := List.mem_map.1 hv
    exact (hM b hb).1)
  refine ⟨x, Z, hx, ?_, ?_⟩
  · unfold resultZ
    rw [← eZ, List.map_map]
    rfl
  · intro i j hij
    have hi : Connected rows i := ⟨j, Or.inl hij⟩
    have hj : Connected rows j := ⟨i, Or.inr hij⟩
    have ai := abs_le.1 (hxn i hi)
    have aj := abs_le.1 (hxn j hj)
    have aZ := abs_le.1 hZ
    have hM0 : 0 ≤ u * M := by
      have := (abs_nonneg _).trans (hxn i hi)
      linarith
    have get : ∀ k, k < recs.length → ∃ b, b ∈ recs ∧ (∀ g : Rec K → K, (recs.map g).getD k 0 = g b) :=
      fun k hk => ⟨recs[k], List.getElem_mem hk, fun g => recs_getD recs g hk⟩
    refine ⟨?_, ?_, ?_⟩
    · have h2 : nodeThick mat rows i / 2 - nodeHeight rows i - ε ≤ ∑ k ∈ Finset.range recs.length, w k * (recs.map (fun a => a.x (2 * i))).getD k 0 := by
        apply mix_ge hw0 hw1
        intro k hk
        obtain ⟨b, hb, g⟩ := get k hk
        rw [g]
        have := (hclear b hb i j hij).1
        simp only [floorGap] at this
        linarith
      simp only [floorGap]
      linarith [ai.1]
    · intro hne
      have h2 : nodeHeight rows i - nodeHeight rows j + (nodeThick mat rows i + nodeThick mat rows j) / 2 - ε ≤
          ∑ k ∈ Finset.range recs.length, w k * ((recs.map (fun a => a.x (2 * j))).getD k 0 - (recs.map (fun a => a.x (2 * i))).getD k 0) := by
        apply mix_ge hw0 hw1
        intro k hk
        obtain ⟨b, hb, g⟩ := get k hk
        rw [g, g]
        have := (hclear b hb i j hij).2.1 hne
        simp only [pairGap] at this
        linarith
      simp only [mul_sub, Finset.sum_sub_distrib] at h2
      simp only [pairGap]
      linarith [ai.2, aj.1]
    · have h2 : nodeHeight rows j + nodeThick mat rows j / 2 - ε ≤
          ∑ k ∈ Finset.range recs.length, w k * ((recs.map (fun a => a.Z)).getD k 0 - (recs.map (fun a => a.x (2 * j))).getD k 0) := by
        apply mix_ge hw0 hw1
        intro k hk
        obtain ⟨b, hb, g⟩ := get k hk
        rw [g, g]
        have := (hclear b hb i j hij).2.2
        simp only [roofGap] at this
        linarith
      simp only [mul_sub, Finset.sum_sub_distrib] at h2
      simp only [roofGap]
      linarith [aj.2, aZ.1]

theorem nodeThick_nonneg {mat : Mat K} (hm : GoodMat mat) (rows : List (MeshRow K)) (i : ℕ) : 0 ≤ nodeThick mat rows i := by
  unfold nodeThick
  cases h1 : rows[i]? with
  | none => simp
  | some r =>
    cases h2 : mat.fibers[r.fiber.toNat]? with
    | none => simp [h2]
    | some f =>
      simp only [Option.bind_some, h2, Option.map_some, Option.getD_some]
      obtain ⟨S, -, hf⟩ := hm.size
      exact (hf f (List.mem_of_getElem? h2)).h.le

/-- Displacements between plates are bounded by the height of the mat. -/
theorem C95_bounded {mat : Mat K} (hm : GoodMat mat) {rows : List (MeshRow K)} {ε Z Z' Z0 : K} (hT : IsTop mat rows Z) (h0 : ClearUpTo mat rows ε Z0 (fun _ => 0))
    {b : Rec K} (hb : ClearUpTo mat rows ε b.Z b.x) (hZ : b.Z ≤ Z') (hZZ : Z ≤ Z') (he : 0 ≤ ε) (hZ0 : 0 ≤ Z) :
    (∀ i, Connected rows i → |b.x (2 * i)| ≤ Z' + 4 * ε) ∧ ((∃ i, Connected rows i) → |b.Z| ≤ Z' + 4 * ε) := by
  have key : ∀ i j, IsPair rows i j → |b.x (2 * i)| ≤ Z' + 4 * ε ∧ |b.x (2 * j)| ≤ Z' + 4 * ε ∧ |b.Z| ≤ Z' + 4 * ε := by
    intro i j hij
    have ti := nodeThick_nonneg hm rows i
    have tj := nodeThick_nonneg hm rows j
    obtain ⟨a1, a2, a3⟩ := h0 i j hij
    obtain ⟨b1, b2, b3⟩ := hb i j hij
    simp only [floorGap, pairGap, roofGap, add_zero] at a1 a2 a3 b1 b2 b3
    have zi : nodeHeight rows i ≤ Z := by
      obtain ⟨r, hr, -⟩ := hij.2
      have := hT.2 i (List.getElem?_eq_some_iff.1 hr).1
      linarith
    have zj : nodeHeight rows j ≤ Z := by
      by_cases hjl : j < rows.length
      · have := hT.2 j hjl
        linarith
      · unfold nodeHeight
        rw [List.getElem?_eq_none (by omega)]
        simpa using hZ0
    by_cases hne : i = j
    · subst hne
      refine ⟨abs_le.2 ⟨by linarith, by linarith⟩, abs_le.2 ⟨by linarith, by linarith⟩, abs_le.2 ⟨by linarith, by linarith⟩⟩
    · have a2 := a2 hne
      have b2 := b2 hne
      refine ⟨abs_le.2 ⟨by linarith, by linarith⟩, abs_le.2 ⟨?_, by linarith⟩, abs_le.2 ⟨by linarith, by linarith⟩⟩
      linarith
  constructor
  · rintro i ⟨j, h | h⟩
    · exact (key i j h).1
    · exact (key j i h).2.1
  · rintro ⟨i, j, h | h⟩
    · exact (key i j h).2.2
    · exact (key j i h).2.2

section
variable {σ : Type} {cos sin sq : K → K} {ε δ : K} {g : Rng σ K} {e : σ} {a : MatArgs K} {s s' : σ} {lp : Linprog K}
  {periodic : Bool} {threshold lmin lmax : Option K} {coupling : K} {o : Opts K} {order : Sys K → List ℕ} {R : MainResultR K}

/-- The first record is the state before the compression. -/
theorem mainR_first (h : mainProgramR fl sq g cos sin e lp order a periodic threshold lmin lmax coupling o s = .ok (R, s')) :
    ∃ b l, R.recs = b :: l ∧ b.x = (fun _ => 0) ∧ b.Z = R.sys.Z0 ∧ b.q = R.sys.q0 := by
  obtain ⟨m, net, Km, cs, -, -, -, -, -, -, h7⟩ := mainR_parts h
  obtain ⟨Km', cs', -, -, e3, e4⟩ := solveR_eq h7
  unfold Sys.runR at e4
  simp only [Prod.mk.injEq] at e4
  exact ⟨_, _, e4.1, rfl, by rw [e3]; rfl, by rw [e3]; rfl⟩

theorem plate_below {recs : List (Rec K)} (h : ∀ (k : ℕ) (b c : Rec K), recs[k]? = some b → recs[k + 1]? = some c → c.Z ≤ b.Z) {b0 : Rec K}
    (h0 : recs[0]? = some b0) (k : ℕ) {b : Rec K} (hb : recs[k]? = some b) : b.Z ≤ b0.Z := by
  induction k generalizing b with
  | zero => rw [h0] at hb; cases hb; exact le_rfl
  | succ k ih =>
    have hk : k < recs.length := by have := (List.getElem?_eq_some_iff.1 hb).1; omega
    exact (h k _ _ (List.getElem?_eq_getElem hk) hb).trans (ih (List.getElem?_eq_getElem hk))

/-- C95: the results returned by the main program, in rounded arithmetic, at the end of the compression (and at every time between 0 and 1 when
there are at least two records): displacements and plate position are numbers, and along every connection fibers and plates overlap by at
most the bound of C94 plus 340 roundings. -/
theorem C95_results (hA : ProgramArith fl sq u ε cos sin a) (hg : UnitInterval g) (hpsi : a.psi = 0) (hsin : sin 0 = 0)
    (hlp : NearLinprog δ lp) (hans : Answers fl lp) (hfmt : InFormat fl lp) (hgrid : Grid fl a.n.toNat) (hδ : 0 ≤ δ)
    (hthick : 40 * δ ≤ a.thickness) (hn : 0 < a.n) {l : K} (hl : ProgramLengths fl u a lmin lmax l)
    (htol : 0 ≤ o.tol) (herr : 0 ≤ o.errtol) (herr' : o.errtol ≤ 1 / 200)
    (h : mainProgramR fl sq g cos sin e lp order a periodic threshold lmin lmax coupling o s = .ok (R, s'))
    {Z : K} (hT : IsTop R.mat R.mesh.rows Z) (hk : 400 * (R.recs.length : K) * u ≤ 1)
    (size : Option ℕ) (hs : ∀ k, size = some k → 3 ≤ k) (hsu : ∀ k, size = some k → 4 * k * u ≤ 1) {t : K} (h0 : 0 ≤ t) (h1 : t ≤ 1)
    (ht : 2 ≤ R.recs.length ∨ t = 1) :
    ∃ (x : ℕ → K) (Zt : K), (∀ c, resultX fl R.recs size t c = .fin (x c)) ∧ resultZ fl R.recs size t = .fin Zt ∧
      ClearUpTo R.mat R.mesh.rows (δ + (8 * o.errtol + (400 * R.recs.length + 400) * u) * Z) Zt x := by
  have hr := hA.rounds
  have hu0 := hr.u_nonneg
  have hu : u ≤ 1 / 10 ^ 8 := hA.small
  obtain ⟨⟨Z1, hT1, hZ1⟩, hdown⟩ := C94_plate hA hg hpsi hsin hlp hans hfmt hgrid hδ hthick hn hl htol h
  have e := isTop_unique hT1 hT
  subst e
  have hZpos : 30 * δ ≤ Z1 := by
    obtain ⟨m, net, Km, cs, g1, g2, g3, g4, -, -, -⟩ := mainR_parts h
    obtain ⟨k1, k2, k3, k4⟩ := C94_matNew_result hA.rounds hA.root hA.small hA.one hA.half hA.size hg hA.circle hA.eps g1
    obtain ⟨-, hN⟩ := safe_of hA hg g1
    have hpos : 0 < m.fibers.length := by omega
    have hmem : m.fibers[0] ∈ m.fibers := List.getElem_mem hpos
    exact (C91_rests hlp k3 (fun f hf => (k4 f hf).2.2.2.2.2.2.2 hpsi hsin) hN g2 hfmt (by norm_num at hu; linarith) hδ
      ⟨_, hmem, by rw [(k4 _ hmem).2.2.2.2.1]; exact hthick⟩ g3 g4 hT).1
  have hgood : GoodMat R.mat := by
    obtain ⟨m, net, Km, cs, g1, g2, g3, g4, -, -, -⟩ := mainR_parts h
    obtain ⟨k1, k2, k3, k4⟩ := C94_matNew_result hA.rounds hA.root hA.small hA.one hA.half hA.size hg hA.circle hA.eps g1
    obtain ⟨-, hN⟩ := safe_of hA hg g1
    have hpos : 0 < m.fibers.length := by omega
    obtain ⟨-, -, -, -, -, hgood, -⟩ := stackR_cases k3 (List.length_pos_iff.1 hpos) hN g2 g3
    exact hgood
  have hZ0 : 0 ≤ Z1 := by linarith
  obtain ⟨b0, rest, erecs, ex0, eZ0, -⟩ := mainR_first h
  have hb0 : R.recs[0]? = some b0 := by rw [erecs]; rfl
  set E := δ + (8 * o.errtol + (400 * R.recs.length + 21) * u) * Z1 with hE
  have hlen : (0 : K) ≤ R.recs.length := by positivity
  have hall : ∀ b ∈ R.recs, ClearUpTo R.mat R.mesh.rows E b.Z b.x := by
    intro b hb
    obtain ⟨k, hkl, rfl⟩ := List.mem_iff_getElem.1 hb
    have hkn : (k : K) ≤ R.recs.length := by exact_mod_cast hkl.le
    have h2 := C94_overlap hA hg hpsi hsin hlp hfmt hδ hthick hn hl htol herr herr' h hT (k := k) (by nlinarith) (List.getElem?_eq_getElem hkl)
    have h3 : δ + (8 * o.errtol + (400 * k + 21) * u) * Z1 ≤ E := by
      have : (8 * o.errtol + (400 * k + 21) * u) * Z1 ≤ (8 * o.errtol + (400 * R.recs.length + 21) * u) * Z1 := by
        apply mul_le_mul_of_nonneg_right _ hZ0
        nlinarith
      linarith
    intro i j hij
    obtain ⟨c1, c2, c3⟩ := h2 i j hij
    exact ⟨by linarith, fun hne => by have := c2 hne; linarith, by linarith⟩
  have hEpos : 0 ≤ E := by rw [hE]; positivity
  have hEle : E ≤ 12 / 10 * Z1 := by
    have : (8 * o.errtol + (400 * R.recs.length + 21) * u) ≤ 11 / 10 := by norm_num at hu; linarith
    have := mul_le_mul_of_nonneg_right this hZ0
    linarith
  have hM : ∀ b ∈ R.recs, (∀ i, Connected R.mesh.rows i → |b.x (2 * i)| ≤ 6 * Z1) ∧ ((∃ i, Connected R.mesh.rows i) → |b.Z| ≤ 6 * Z1) := by
    intro b hb
    obtain ⟨k, hkl, rfl⟩ := List.mem_iff_getElem.1 hb
    have hZk := plate_below (fun k b c h1 h2 => (hdown k b c h1 h2).1) hb0 k (List.getElem?_eq_getElem hkl)
    rw [eZ0] at hZk
    have hZb := (abs_le.1 hZ1).2
    have huZ : 2 * u * Z1 ≤ 1 / 10 * Z1 := mul_le_mul_of_nonneg_right (by norm_num at hu; linarith) hZ0
    have h5 := C95_bounded (Z' := 11 / 10 * Z1) hgood hT (by have := hall b0 (by rw [erecs]; simp); rw [ex0] at this; exact this)
      (hall _ (List.getElem_mem hkl)) (by linarith) (by linarith) hEpos hZ0
    have h6 : 11 / 10 * Z1 + 4 * E ≤ 6 * Z1 := by linarith
    exact ⟨fun i hi => (h5.1 i hi).trans h6, fun hi => (h5.2 hi).trans h6⟩
  have hfin : E + 60 * u * (6 * Z1) ≤ δ + (8 * o.errtol + (400 * R.recs.length + 400) * u) * Z1 := by
    have : 0 ≤ u * Z1 := by positivity
    rw [hE]; nlinarith
  have weaken : ∀ {Zt : K} {x : ℕ → K}, ClearUpTo R.mat R.mesh.rows (E + 60 * u * (6 * Z1)) Zt x →
      ClearUpTo R.mat R.mesh.rows (δ + (8 * o.errtol + (400 * R.recs.length + 400) * u) * Z1) Zt x := by
    intro Zt x hc i j hij
    obtain ⟨c1, c2, c3⟩ := hc i j hij
    exact ⟨by linarith, fun hne => by have := c2 hne; linarith, by linarith⟩
  by_cases h2 : 2 ≤ R.recs.length
  · by_cases hcon : ∃ i, Connected R.mesh.rows i
    · obtain ⟨x, Zt, c1, c2, c3⟩ := C95_clear hr (by norm_num at hu; linarith) h2 size (fun k hk' => by have := hs k hk'; omega)
        (by nlinarith) hsu hall (fun b hb => ⟨(hM b hb).2 hcon, (hM b hb).1⟩) h0 h1
      exact ⟨x, Zt, c1, c2, weaken c3⟩
    · obtain ⟨B, hB⟩ := exists_bound (R.recs.map (fun b => b.Z))
      obtain ⟨x, Zt, c1, c2, -⟩ := C95_clear (M := B) hr (by norm_num at hu; linarith) h2 size (fun k hk' => by have := hs k hk'; omega)
        (by nlinarith) hsu hall (fun b hb => ⟨hB _ (List.mem_map.2 ⟨b, hb, rfl⟩), fun i hi => absurd ⟨i, hi⟩ hcon⟩) h0 h1
      exact ⟨x, Zt, c1, c2, fun i j hij => absurd ⟨i, j, Or.inl hij⟩ hcon⟩
  · have ht1 : t = 1 := ht.resolve_left h2
    have hrest : rest = [] := by
      rw [erecs] at h2
      simp only [List.length_cons] at h2
      exact List.length_eq_zero_iff.1 (by omega)
    subst ht1
    refine ⟨fun _ => 0, b0.Z, ?_, ?_, ?_⟩
    · intro c
      unfold resultX
      rw [erecs, hrest]
      simp only [List.map_cons, List.map_nil, ex0]
      cases size with
      | none => rw [(C95_single hr _ _).1, if_neg one_ne_zero]
      | some m =>
        have hm := hs m rfl
        rw [(C95_single_resampled hr (by norm_num at hu; linarith) (by omega) (hsu m rfl) hr.zero _).1]
        obtain ⟨kn, hk1, hk2⟩ := linspaceR_knots hr (by omega : 2 ≤ m) (hsu m rfl)
        rw [hk2, Knots.getD (by omega : 1 < m), if_neg]
        rintro ⟨-, hh⟩
        have := hk1.mono 1 (m - 1) (by omega) (by omega)
        rw [hk1.last] at this
        linarith
    · unfold resultZ
      rw [erecs, hrest]
      simp only [List.map_cons, List.map_nil]
      cases size with
      | none => rw [(C95_single hr _ _).2]
      | some m => exact single_end hr (by have := hs m rfl; omega) (hsu m rfl) _
    · have := hall b0 (by rw [erecs]; simp)
      rw [ex0] at this
      refine weaken fun i j hij => ?_
      obtain ⟨c1, c2, c3⟩ := this i j hij
      have : 0 ≤ 60 * u * (6 * Z1) := by positivity
      exact ⟨by linarith, fun hne => by have := c2 hne; linarith, by linarith⟩

end

theorem loopR_inf (S : Sys K) (A : Floats K) (o : Opts K) {r : ℕ} (fuel : ℕ) {a : Rec K} (ha : a.q r = .pinf) :
    ∀ b ∈ (S.loopR A o fuel a).1, b.q r = .pinf := by
  induction fuel generalizing a with
  | zero => simp [Sys.loopR]
  | succ n ih =>
    unfold Sys.loopR
    split_ifs
    · cases hstep : S.stepR A o a with
      | error x => simp
      | ok c =>
        have hc : c.q r = .pinf := by
          unfold Sys.stepR at hstep
          simp only at hstep
          split at hstep
          · split_ifs at hstep
          · split_ifs at hstep
            split at hstep
            · cases hstep
            · injection hstep with hstep
              rw [← hstep]
              simp only [ha]
              rfl
        simp only [List.mem_cons]
        rintro b (rfl | hb)
        · exact hc
        · exact ih hc b hb
    · simp

/-- C95: the bounds `H(t)` returned by `solve` are NaN, not infinite, in the rows without bound (second row of the end nodes), as soon as one
step was made. -/
theorem C95_bounds (S : Sys K) (A : Floats K) (o : Opts K) (hr : Rounds A.fl u) {r : ℕ} (hq : S.q0 r = .pinf) (hn : 2 ≤ (S.runR A o).1.length)
    (size : Option ℕ) (hs : ∀ k, size = some k → 2 ≤ k) (hnu : 4 * ((S.runR A o).1.length : K) * u ≤ 1) (hsu : ∀ k, size = some k → 4 * k * u ≤ 1)
    {t : K} (h0 : 0 ≤ t) (h1 : t ≤ 1) : resultQ A.fl (S.runR A o).1 size t r = .nan := by
  refine (C95_infinite hr hn size hs hnu hsu h0 h1 (by simp) ?_).1
  intro c hc
  obtain ⟨b, hb, rfl⟩ := List.mem_map.1 hc
  unfold Sys.runR at hb
  simp only [List.mem_cons] at hb
  rcases hb with rfl | hb
  · exact hq
  · exact loopR_inf S A o _ hq b hb

theorem deformR_get (fl : K → K) (m : Mesh K) (x : ℕ → K) (i : ℕ) :
    (m.deformR fl x).rows[i]? = (m.rows[i]?).map (fun r => { r with z := fl (r.z + x (2 * i)) }) := by
  simp [Mesh.deformR]

/-- C95: the deformed mesh `mesh.z += u(t)[::2]`, as computed, overlaps by at most `2 u B` more than the displaced nodes, where `B` bounds the
height of the plate and the overlap. -/
theorem C95_deformed (hr : Rounds fl u) {mat : Mat K} (hm : GoodMat mat) {mesh : Mesh K} (hin : ∀ i j, IsPair mesh.rows i j → j < mesh.rows.length)
    {ε Z B : K} {x : ℕ → K} (he : 0 ≤ ε) (h : ClearUpTo mat mesh.rows ε Z x) (hB : |Z| + 2 * ε ≤ B) :
    ClearUpTo mat (mesh.deformR fl x).rows (ε + 2 * u * B) Z (fun _ => 0) := by
  have hu0 := hr.u_nonneg
  intro i j hij
  have hij' : IsPair mesh.rows i j := by
    obtain ⟨h1, r, h2, h3⟩ := hij
    rw [deformR_get] at h2
    obtain ⟨r', h4, h5⟩ := Option.map_eq_some_iff.1 h2
    refine ⟨h1, r', h4, ?_⟩
    rw [← h5] at h3
    exact h3
  have hj := hin i j hij'
  have hi : i < mesh.rows.length := lt_of_le_of_lt hij'.1 hj
  have height : ∀ k, k < mesh.rows.length → nodeHeight (mesh.deformR fl x).rows k = fl (nodeHeight mesh.rows k + x (2 * k)) := by
    intro k hk
    unfold nodeHeight
    rw [deformR_get, List.getElem?_eq_getElem hk]
    rfl
  have thick : ∀ k, nodeThick mat (mesh.deformR fl x).rows k = nodeThick mat mesh.rows k := by
    intro k
    unfold nodeThick
    rw [deformR_get]
    cases mesh.rows[k]? <;> rfl
  have ti := nodeThick_nonneg hm mesh.rows i
  have tj := nodeThick_nonneg hm mesh.rows j
  obtain ⟨b1, b2, b3⟩ := h i j hij'
  simp only [floorGap, pairGap, roofGap] at b1 b2 b3
  have hZ := abs_le.1 (le_refl |Z|)
  have pos : |nodeHeight mesh.rows i + x (2 * i)| ≤ B ∧ |nodeHeight mesh.rows j + x (2 * j)| ≤ B := by
    by_cases hne : i = j
    · subst hne
      exact ⟨abs_le.2 ⟨by linarith [abs_nonneg Z], by linarith [hZ.2]⟩, abs_le.2 ⟨by linarith [abs_nonneg Z], by linarith [hZ.2]⟩⟩
    · have b2 := b2 hne
      exact ⟨abs_le.2 ⟨by linarith [abs_nonneg Z], by linarith [hZ.2]⟩, abs_le.2 ⟨by linarith [abs_nonneg Z], by linarith [hZ.2]⟩⟩
  have ei := abs_le.1 ((hr.err (nodeHeight mesh.rows i + x (2 * i))).trans (mul_le_mul_of_nonneg_left pos.1 hu0))
  have ej := abs_le.1 ((hr.err (nodeHeight mesh.rows j + x (2 * j))).trans (mul_le_mul_of_nonneg_left pos.2 hu0))
  have hB0 : 0 ≤ u * B := mul_nonneg hu0 ((abs_nonneg _).trans pos.1)
  simp only [floorGap, pairGap, roofGap, thick, height i hi, height j hj, add_zero]
  refine ⟨by linarith [ei.1], fun hne => ?_, by linarith [ej.2]⟩
  have b2 := b2 hne
  linarith [ei.2, ej.1]

/-- C95: `main.py` as written, with doubles: for any random numbers, permutation and linear solver the displacements `u(1)` and the plate
position `Z(1)` returned by `solve` (with `interp_size=100`) are numbers, and fibers and plates overlap by at most the error of the linear
programming solver and `10^(-5)` times the height of the stacked mat. -/
theorem C95_main_py {σ : Type} {g : Rng σ ℝ} (hg : UnitInterval g) {lp : Linprog ℝ} {δ : ℝ} (hlp : NearLinprog δ lp) (hans : Answers dbl lp)
    (hfmt : InFormat dbl lp) (hδ : 0 ≤ δ) (hδ' : δ ≤ 1 / 80) (lin : LinSolver ℝ) (order : Sys ℝ → List ℕ) (e s : σ) :
    ∃ R s' Z, ∃ (x : ℕ → ℝ) (Z1 : ℝ),
      mainProgramR dbl (fun x => dbl (Real.sqrt x)) g (fun t => dbl (Real.cos t)) (fun t => dbl (Real.sin t)) e lp order mainArgs true
        (some 10) (some (dbl (1 / 100))) none (dbl (99 / 100)) (mainOpts lin) s = .ok (R, s') ∧ IsTop R.mat R.mesh.rows Z ∧
      (∀ c, resultX dbl R.recs (some 100) 1 c = .fin (x c)) ∧ resultZ dbl R.recs (some 100) 1 = .fin Z1 ∧
      ClearUpTo R.mat R.mesh.rows (δ + 1 / 10 ^ 5 * Z) Z1 x := by
  have hr := dbl_rounds
  obtain ⟨R, s', Z, hR, -, hT, hl1, hl2, -, -⟩ := C94_main_py hg hlp hans hfmt hδ hδ' lin order e s
  obtain ⟨hc, hs⟩ := C94_circle hr (by norm_num)
  have hl : |dbl (1 / 100) - 1 / 100| ≤ 1 / 2 ^ 53 * |1 / 100| := hr.err _
  have ht : |dbl (1 / 10 ^ 6) - 1 / 10 ^ 6| ≤ 1 / 2 ^ 53 * |1 / 10 ^ 6| := hr.err _
  rw [abs_of_nonneg (by positivity : (0 : ℝ) ≤ 1 / 100), abs_le] at hl
  rw [abs_of_nonneg (by positivity : (0 : ℝ) ≤ 1 / 10 ^ 6), abs_le] at ht
  norm_num at hl ht
  have hlen : ProgramLengths dbl (1 / 2 ^ 53) mainArgs (some (dbl (1 / 100))) none (dbl (1 / 100)) := by
    refine ⟨rfl, ?_, hr.idem _, by simp, fun _ => ?_⟩
    · norm_num; linarith [hl.1]
    · simp only [mainArgs]
      norm_num
      linarith [hl.2]
  have hsq := C93_sqrt hr (by norm_num)
  have hc' : NearUnit (fun t => dbl (Real.cos t)) (fun t => dbl (Real.sin t)) (1 / 10 ^ 9) :=
    fun t => (hc t).trans (by norm_num)
  have hsize : dbl mainArgs.size = mainArgs.size := by
    have := dbl_int 50 (by norm_num)
    simpa [mainArgs] using this
  have hA : ProgramArith dbl (fun x => dbl (Real.sqrt x)) (1 / 2 ^ 53) (1 / 10 ^ 9) (fun t => dbl (Real.cos t)) (fun t => dbl (Real.sin t))
      mainArgs := C94_binary (by norm_num) hsq hc' (by norm_num) (by norm_num) hsize
  have hlen2 : (R.recs.length : ℝ) ≤ 1001 := by exact_mod_cast hl2
  have hgrid : Grid dbl mainArgs.n.toNat := C94_grid (by norm_num) (by simp [mainArgs])
  obtain ⟨x, Z1, h1, h2, h3⟩ := C95_results (o := mainOpts lin) hA hg rfl hs hlp hans hfmt hgrid hδ (by simp only [mainArgs]; linarith)
    (by simp [mainArgs]) hlen (by simp only [mainOpts]; norm_num; linarith [ht.1]) (by simp only [mainOpts]; norm_num; linarith [ht.1])
    (by simp only [mainOpts]; norm_num; linarith [ht.2]) hR hT (by norm_num; linarith) (some 100) (by intro k hk; cases hk; norm_num)
    (by intro k hk; cases hk; norm_num) zero_le_one le_rfl (Or.inr rfl)
  refine ⟨R, s', Z, x, Z1, hR, hT, h1, h2, ?_⟩
  have hZ0 : 0 ≤ Z := by
    obtain ⟨m, net, -, -, h1, h2, h3, h4, -, -, -⟩ := mainR_parts hR
    obtain ⟨k1, -, k3, k4⟩ := C94_matNew_result hA.rounds hA.root hA.small hA.one hA.half hA.size hg hA.circle hA.eps h1
    obtain ⟨-, hN⟩ := safe_of hA hg h1
    have hpos : 0 < m.fibers.length := by simp only [mainArgs] at k1; omega
    have hmem : m.fibers[0] ∈ m.fibers := List.getElem_mem hpos
    have := (C91_rests hlp k3 (fun f hf => (k4 f hf).2.2.2.2.2.2.2 rfl hs) hN h2 hfmt (by norm_num) hδ
      ⟨_, hmem, by rw [(k4 _ hmem).2.2.2.2.1]; simp only [mainArgs]; linarith⟩ h3 h4 hT).1
    linarith
  have hle : δ + (8 * (mainOpts lin).errtol + (400 * R.recs.length + 400) * (1 / 2 ^ 53)) * Z ≤ δ + 1 / 10 ^ 5 * Z := by
    have h10 : 8 * (mainOpts lin).errtol + (400 * (R.recs.length : ℝ) + 400) * (1 / 2 ^ 53) ≤ 1 / 10 ^ 5 := by
      simp only [mainOpts]
      norm_num
      linarith [ht.2]
    have := mul_le_mul_of_nonneg_right h10 hZ0
    linarith
  intro i j hij
  obtain ⟨c1, c2, c3⟩ := h3 i j hij
  exact ⟨by linarith, fun hne => by have := c2 hne; linarith, by linarith⟩

end Fibermat
