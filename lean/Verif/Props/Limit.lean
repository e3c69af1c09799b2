import Verif.Spec.Limit
import Verif.Props.Pipeline

/-! # How far a mat can be compressed (C82) -/

set_option linter.unusedSectionVars false
set_option linter.unusedSimpArgs false

namespace Fibermat
variable {K : Type} [Field K] [LinearOrder K] [IsStrictOrderedRing K]
open Spec
variable {lp : Linprog K} {m m' : Mat K} {periodic : Bool} {threshold : Option K} {net st : Net K} {mesh : Mesh K}
  {lmin lmax : Option K} {coupling : K} {o : Opts K} {perm : Option (List ℕ)} {S : Sys K} {recs : List (Rec K)} {stop : Stop}

/-- The recorded packing is `Z0 / Z`. -/
theorem packing_eq {mat : Mat K} (h : solve mat mesh lmin lmax coupling o perm = .ok (S, recs, stop)) (hm : GoodMat mat)
    (hp : PositiveLengths mesh.rows lmin lmax) {k : ℕ} {a : Rec K} (ha : recs[k]? = some a) (hZ : 0 < a.Z) :
    a.rlambda = .fin (S.Z0 / a.Z) := by
  obtain ⟨Km, cs, hK, hC, -⟩ := solve_run h
  obtain ⟨bl, hs, l, has, -, hc, -, hnK, hn, hnC, hZ0, hsd, rfl⟩ := solve_sound h hm hp hK hC
  rcases k with _ | k
  · rw [run_zero] at ha
    cases ha
    simp only [Sys.init] at hZ ⊢
    rw [div_self hZ.ne']
  · have hk : k < (S.run { o with perm := perm.getD (List.range S.n) }).1.length := by
      have := (List.getElem?_eq_some_iff.1 ha).1; omega
    obtain ⟨dx', t', s', hst'⟩ := hsd.next (List.getElem?_eq_getElem hk) ha
    rw [hst'.lam, Cell.fin_div_fin hZ.ne']

/-- Without penetration, the plates leave room for the solid material along every connection. -/
theorem solid_le {place : ℕ → ℕ} (hpl : Placement st.rows mesh.rows place) {Z : K} {u : ℕ → K} (h : NonPenetrating m' mesh.rows Z u)
    (hpos : ∀ r ∈ st.rows, r.A ≠ r.B → 0 ≤ thick m' r.A.toNat) {r : NetRow K} (hr : r ∈ st.rows) : solid m' r ≤ Z := by
  obtain ⟨k, hk⟩ := List.mem_iff_getElem?.1 hr
  obtain ⟨a, ha, ea, ca⟩ := hpl.endA k r hk
  obtain ⟨b, hb, eb, cb⟩ := hpl.endB k r hk
  have hia := (List.getElem?_eq_some_iff.1 ha).1
  have hib := (List.getElem?_eq_some_iff.1 hb).1
  have ta : nodeThick m' mesh.rows (place (2 * k)) = thick m' r.A.toNat := by simp [nodeThick, thick, ha, ea.fiber]
  have tb : nodeThick m' mesh.rows (place (2 * k + 1)) = thick m' r.B.toNat := by simp [nodeThick, thick, hb, eb.fiber]
  have f1 := h.floor _ hia
  have f2 := h.roof _ hia
  have f3 := h.floor _ hib
  have f4 := h.roof _ hib
  rw [ta] at f1 f2
  rw [tb] at f3 f4
  unfold solid
  split_ifs with e
  · linarith
  · rw [if_neg e] at ca cb
    have hklt : k < st.rows.length := (List.getElem?_eq_some_iff.1 hk).1
    have hne : place (2 * k) ≠ place (2 * k + 1) := by
      intro e'
      have := hpl.inj (2 * k) (2 * k + 1) (by omega) (by omega) e'
      omega
    rcases lt_or_gt_of_ne hne with hlt | hlt
    · have := h.pair _ _ a ha ca hlt
      rw [ta, tb] at this
      linarith
    · have := h.pair _ _ b hb cb hlt
      rw [ta, tb] at this
      linarith

/-- When the material is jammed, the plates leave no more room than the solid material along some connection, up to the tolerance. -/
theorem jammed_le {place : ℕ → ℕ} (hpl : Placement st.rows mesh.rows place) {tol Z : K} (htol : 0 ≤ tol) {u : ℕ → K}
    (h : Jammed m' mesh.rows tol Z u) : ∃ r ∈ st.rows, Z ≤ solid m' r + 3 * tol := by
  obtain ⟨i, j, ⟨hij, a, ha, hc⟩, h1, h2, h3⟩ := h
  have hi := (List.getElem?_eq_some_iff.1 ha).1
  obtain ⟨q, hq, rfl⟩ := placement_surj hpl hi
  have hk : q / 2 < st.rows.length := by omega
  have hr : st.rows[q / 2]? = some (st.rows[q / 2]) := List.getElem?_eq_getElem hk
  generalize st.rows[q / 2] = r at hr
  refine ⟨r, List.mem_of_getElem? hr, ?_⟩
  obtain ⟨b, hb, eb, cb⟩ := hpl.endA _ r hr
  obtain ⟨c, hc', ec, cc⟩ := hpl.endB _ r hr
  have tA : nodeThick m' mesh.rows (place (2 * (q / 2))) = thick m' r.A.toNat := by simp [nodeThick, thick, hb, eb.fiber]
  have tB : nodeThick m' mesh.rows (place (2 * (q / 2) + 1)) = thick m' r.B.toNat := by simp [nodeThick, thick, hc', ec.fiber]
  unfold floorGap at h1
  unfold roofGap at h3
  unfold pairGap at h2
  unfold solid
  rcases Nat.even_or_odd' q with ⟨k, hq' | hq'⟩
  · have e2 : q / 2 = k := by omega
    rw [e2] at hr hb cb hc' cc tA tB
    rw [← hq'] at hb cb tA
    rw [ha] at hb
    cases hb
    rw [hc] at cb
    split_ifs with e
    · rw [if_pos e] at cb
      have cb : j = place q := by exact_mod_cast cb
      subst cb
      linarith
    · rw [if_neg e] at cb
      have cb : j = place (2 * k + 1) := by rw [← hq']; exact_mod_cast cb
      subst cb
      have hne : place q ≠ place (2 * k + 1) := by
        intro e'
        have := hpl.inj _ _ (by omega) (by omega) e'
        omega
      have := h2 hne
      rw [tA] at this h1
      rw [tB] at this h3
      linarith
  · have e2 : q / 2 = k := by omega
    rw [e2] at hr hb cb hc' cc tA tB
    rw [← hq'] at hc' cc tB
    rw [ha] at hc'
    cases hc'
    rw [hc] at cc
    split_ifs with e
    · rw [if_pos e] at cc
      have cc : j = place q := by exact_mod_cast cc
      subst cc
      rw [← e] at tB
      linarith
    · rw [if_neg e] at cc
      have cc : j = place (2 * k) := by exact_mod_cast cc
      subst cc
      have hne : place q ≠ place (2 * k) := by
        intro e'
        have := hpl.inj _ _ (by omega) (by omega) e'
        omega
      have := h2 hne
      rw [tB] at this h1
      rw [tA] at this h3
      linarith

theorem solid_same (hsame : SameExceptZ m m') (r : NetRow K) : solid m' r = solid m r := by
  unfold solid
  rw [same_thick hsame, same_thick hsame]

/-- The chain has a greatest solid height. -/
theorem C82_exists {rows : List (NetRow K)} (hne : rows ≠ []) (m : Mat K) : ∃ H, SolidHeight m rows H := by
  induction rows with
  | nil => exact absurd rfl hne
  | cons r l ih =>
    by_cases hl : l = []
    · subst hl
      exact ⟨solid m r, ⟨r, by simp, rfl⟩, by simp⟩
    · obtain ⟨H, ⟨q, hq, e⟩, hH⟩ := ih hl
      rcases le_total H (solid m r) with hle | hle
      · refine ⟨solid m r, ⟨r, by simp, rfl⟩, fun p hp => ?_⟩
        rcases List.mem_cons.1 hp with rfl | hp
        · exact le_rfl
        · exact (hH p hp).trans hle
      · refine ⟨H, ⟨q, by simp [hq], e⟩, fun p hp => ?_⟩
        rcases List.mem_cons.1 hp with rfl | hp
        · exact hle
        · exact hH p hp

/-- The plate never goes below the greatest height of solid material along a connection, and the packing is bounded
accordingly. -/
theorem C82_limit (hlp : GoodLinprog lp) (h : GoodMat m) (hw : ∀ f ∈ m.fibers, f.w = 0)
    (hn : netNew m periodic = .ok net) (hst : stackNew lp m net threshold = .ok (m', st))
    (hmesh : meshNew st = .ok mesh) (hs : solve m' mesh lmin lmax coupling o perm = .ok (S, recs, stop))
    (hp : PositiveLengths mesh.rows lmin lmax) (htol : 0 ≤ o.tol) (hlin : ExactLin o.lin) (hperm : PermOf S.n perm)
    {H : K} (hH : SolidHeight m st.rows H) (k : ℕ) (a : Rec K) (ha : recs[k]? = some a) :
    0 < H ∧ H ≤ a.Z ∧ a.rlambda = .fin (S.Z0 / a.Z) := by
  have hnp := (C78_nonPenetrating hlp h hw hn hst hmesh hs hp htol hlin hperm k a ha).1
  have hne := chain_nonempty hlp h hn hst hmesh hs
  obtain ⟨net', g1, rfl, hgood, hsame, hend, h3, hvalid, hof, hner⟩ := chain_facts hlp h hne hn hst hmesh
  obtain ⟨place, hpl⟩ := C26_constraints h3
  obtain ⟨Km, cs, hK, hC, -⟩ := solve_run hs
  obtain ⟨hs', l, hc⟩ := contacts_of hC
  have hnode : ∀ r ∈ (keep threshold net').rows, 0 < thick m' r.A.toNat ∧ 0 < thick m' r.B.toNat := by
    intro r hr
    obtain ⟨k, hk⟩ := List.mem_iff_getElem?.1 hr
    obtain ⟨a, ha, ea, -⟩ := hpl.endA k r hk
    obtain ⟨b, hb, eb, -⟩ := hpl.endB k r hk
    have ta : nodeThick m' mesh.rows (place (2 * k)) = thick m' r.A.toNat := by simp [nodeThick, thick, ha, ea.fiber]
    have tb : nodeThick m' mesh.rows (place (2 * k + 1)) = thick m' r.B.toNat := by simp [nodeThick, thick, hb, eb.fiber]
    rw [← ta, ← tb]
    exact ⟨nodeThick_pos hgood hc.thick (List.getElem?_eq_some_iff.1 ha).1,
      nodeThick_pos hgood hc.thick (List.getElem?_eq_some_iff.1 hb).1⟩
  obtain ⟨⟨r, hr, rfl⟩, hall⟩ := hH
  have hle : solid m r ≤ a.Z := by
    rw [← solid_same hsame]
    exact solid_le hpl hnp (fun r hr _ => (hnode r hr).1.le) hr
  have hpos : 0 < solid m r := by
    rw [← solid_same hsame]
    unfold solid
    split_ifs
    · exact (hnode r hr).1
    · exact add_pos (hnode r hr).1 (hnode r hr).2
  exact ⟨hpos, hle, packing_eq hs hgood hp ha (lt_of_lt_of_le hpos hle)⟩

/-- With enough iterations, the compression ends at the target packing, or with the plate at the greatest height of solid material
along a connection (up to three times the tolerance). -/
theorem C82_final (hlp : GoodLinprog lp) (h : GoodMat m) (hw : ∀ f ∈ m.fibers, f.w = 0)
    (hn : netNew m periodic = .ok net) (hst : stackNew lp m net threshold = .ok (m', st)) (hth : KeepsTouching m threshold)
    (hmesh : meshNew st = .ok mesh) (hs : solve m' mesh lmin lmax coupling o perm = .ok (S, recs, stop))
    (hp : PositiveLengths mesh.rows lmin lmax) (hcoup : |coupling| ≤ 1) (hor : |coupling| < 1 ∨ ∀ f ∈ m.fibers, f.E = ⊤)
    (htol : 0 ≤ o.tol) (herr : 0 ≤ o.errtol) (hlin : GoodLin o.lin) (hperm : PermOf S.n perm)
    (hiter : 3 * mesh.rows.length < o.itermax) {H : K} (hH : SolidHeight m st.rows H) :
    ∃ a, recs.getLast? = some a ∧ (Cell.lt a.rlambda o.packing = false ∨ (H ≤ a.Z ∧ a.Z ≤ H + 3 * o.tol)) := by
  obtain ⟨a, ha, hcase⟩ := C78_end hlp h hw hn hst hth hmesh hs hp hcoup hor htol herr hlin hperm hiter
  refine ⟨a, ha, hcase.imp_right (fun hj => ?_)⟩
  obtain ⟨-, hle, -⟩ := C82_limit hlp h hw hn hst hmesh hs hp htol hlin.1 hperm hH _ a (getLast_getElem ha)
  refine ⟨hle, ?_⟩
  have hne := chain_nonempty hlp h hn hst hmesh hs
  obtain ⟨net', g1, rfl, hgood, hsame, hend, h3, -⟩ := chain_facts hlp h hne hn hst hmesh
  obtain ⟨place, hpl⟩ := C26_constraints h3
  obtain ⟨r, hr, hle'⟩ := jammed_le hpl htol hj
  rw [solid_same hsame] at hle'
  have := hH.2 r hr
  linarith

/-- A target packing up to `Z0 / (H + 3 tol)` is always reached. -/
theorem C82_reached (hlp : GoodLinprog lp) (h : GoodMat m) (hw : ∀ f ∈ m.fibers, f.w = 0)
    (hn : netNew m periodic = .ok net) (hst : stackNew lp m net threshold = .ok (m', st)) (hth : KeepsTouching m threshold)
    (hmesh : meshNew st = .ok mesh) (hs : solve m' mesh lmin lmax coupling o perm = .ok (S, recs, stop))
    (hp : PositiveLengths mesh.rows lmin lmax) (hcoup : |coupling| ≤ 1) (hor : |coupling| < 1 ∨ ∀ f ∈ m.fibers, f.E = ⊤)
    (htol : 0 ≤ o.tol) (herr : 0 ≤ o.errtol) (hlin : GoodLin o.lin) (hperm : PermOf S.n perm)
    (hiter : 3 * mesh.rows.length < o.itermax) {H : K} (hH : SolidHeight m st.rows H) {p : K} (hpk : o.packing = .fin p)
    (hle : p * (H + 3 * o.tol) ≤ S.Z0) : ∃ a, recs.getLast? = some a ∧ ∃ x, a.rlambda = .fin x ∧ p ≤ x := by
  obtain ⟨a, ha, hcase⟩ := C82_final hlp h hw hn hst hth hmesh hs hp hcoup hor htol herr hlin hperm hiter hH
  obtain ⟨h0, h1, h2⟩ := C82_limit hlp h hw hn hst hmesh hs hp htol hlin.1 hperm hH _ a (getLast_getElem ha)
  have hZ : 0 < a.Z := lt_of_lt_of_le h0 h1
  refine ⟨a, ha, _, h2, ?_⟩
  rcases hcase with hc | ⟨-, hc⟩
  · rw [hpk, h2] at hc
    simpa [Cell.lt] using hc
  · rw [le_div_iff₀ hZ]
    rcases le_total 0 p with hp0 | hp0
    · exact (mul_le_mul_of_nonneg_left hc hp0).trans hle
    · obtain ⟨Km, cs, hK, hC, -⟩ := solve_run hs
      obtain ⟨-, a0, ha0, -, -, hZ0, -⟩ := C40_itermax hs
      obtain ⟨h0', h1', -⟩ := C82_limit hlp h hw hn hst hmesh hs hp htol hlin.1 hperm hH 0 a0 ha0
      have : 0 < S.Z0 := by rw [← hZ0]; exact lt_of_lt_of_le h0' h1'
      nlinarith [mul_nonneg (neg_nonneg.2 hp0) hZ.le]

/-- A target packing beyond `Z0 / H` is never reached, whatever the number of iterations. -/
theorem C82_never (hlp : GoodLinprog lp) (h : GoodMat m) (hw : ∀ f ∈ m.fibers, f.w = 0)
    (hn : netNew m periodic = .ok net) (hst : stackNew lp m net threshold = .ok (m', st))
    (hmesh : meshNew st = .ok mesh) (hs : solve m' mesh lmin lmax coupling o perm = .ok (S, recs, stop))
    (hp : PositiveLengths mesh.rows lmin lmax) (htol : 0 ≤ o.tol) (hlin : ExactLin o.lin) (hperm : PermOf S.n perm)
    {H : K} (hH : SolidHeight m st.rows H) {p : K} (hlt : S.Z0 < p * H) (a : Rec K) (ha : a ∈ recs) :
    Cell.lt a.rlambda (.fin p) = true := by
  obtain ⟨k, hk⟩ := List.mem_iff_getElem?.1 ha
  obtain ⟨h0, h1, h2⟩ := C82_limit hlp h hw hn hst hmesh hs hp htol hlin hperm hH k a hk
  have hZ : 0 < a.Z := lt_of_lt_of_le h0 h1
  obtain ⟨-, a0, ha0, -, -, hZ0, -⟩ := C40_itermax hs
  obtain ⟨h0', h1', -⟩ := C82_limit hlp h hw hn hst hmesh hs hp htol hlin hperm hH 0 a0 ha0
  have hZ00 : 0 < S.Z0 := by rw [← hZ0]; exact lt_of_lt_of_le h0' h1'
  have hp0 : 0 < p := by
    by_contra hc
    have := mul_nonneg (neg_nonneg.2 (not_lt.1 hc)) h0.le
    linarith
  rw [h2]
  simp only [Cell.lt, decide_eq_true_eq]
  rw [div_lt_iff₀ hZ]
  exact lt_of_lt_of_le hlt (mul_le_mul_of_nonneg_left h1 hp0.le)

/-- In a mat of uniform thickness `t` with at least one connection between two fibers, the limit is twice the thickness, whatever the
number of fibers. -/
theorem uniform_solid {t : K} (ht : 0 ≤ t) (h : ∀ f ∈ m.fibers, f.h = t) {rows : List (NetRow K)}
    (hrows : ∀ r ∈ rows, r.A.toNat < m.fibers.length ∧ r.B.toNat < m.fibers.length) (hc : ∃ r ∈ rows, r.A ≠ r.B) :
    SolidHeight m rows (2 * t) := by
  have hth : ∀ i, i < m.fibers.length → thick m i = t := by
    intro i hi
    have := h _ (List.getElem_mem hi)
    simpa [thick, List.getElem?_eq_getElem hi] using this
  obtain ⟨r, hr, hne⟩ := hc
  refine ⟨⟨r, hr, ?_⟩, fun q hq => ?_⟩
  · rw [solid, if_neg hne, hth _ (hrows r hr).1, hth _ (hrows r hr).2, two_mul]
  · unfold solid
    split_ifs
    · rw [hth _ (hrows q hq).1]; linarith
    · rw [hth _ (hrows q hq).1, hth _ (hrows q hq).2, two_mul]

/-- In a stacked planar mat whose net connects two fibers, some connection between two fibers is kept. -/
theorem kept_connection (hlp : GoodLinprog lp) (h : GoodMat m) (hw : ∀ f ∈ m.fibers, f.w = 0)
    (hn : netNew m periodic = .ok net) (hst : stackNew lp m net threshold = .ok (m', st)) (hth : KeepsTouching m threshold)
    (hc : ∃ r ∈ net.rows, r.A ≠ r.B) :
    (∀ r ∈ st.rows, r.A.toNat < m.fibers.length ∧ r.B.toNat < m.fibers.length) ∧ ∃ r ∈ st.rows, r.A ≠ r.B := by
  obtain ⟨r0, hr0, hne0⟩ := hc
  obtain ⟨hck, ho, hper⟩ := netNew_over h hn
  obtain ⟨o1, o2, o3⟩ := ho r0 hr0
  obtain ⟨hlen, hlow, hsame, hgood, hcase⟩ := stack_lowest hlp h hck ho hst
  obtain ⟨net', g1, rfl⟩ : ∃ net', netNew m' (net.attrs.periodic.getD true) = .ok net' ∧ st = keep threshold net' := by
    rcases hcase with ⟨he, -⟩ | hc
    · rw [he] at o3; simp at o3; omega
    · exact hc
  rw [hper] at g1
  have g1 : netNew m' periodic = .ok net' := g1
  obtain ⟨-, ho', -⟩ := netNew_over hgood g1
  have hw' := same_planar hsame hw
  have hplan := (C12_heights_irrelevant h hgood hw hsame hn g1).2
  constructor
  · intro r hr
    obtain ⟨p, e, -⟩ := keep_rows threshold net'
    rw [e] at hr
    obtain ⟨q1, q2, q3⟩ := ho' r (List.mem_filter.1 hr).1
    rw [hlen] at q3
    omega
  · have hk : r0.B.toNat < m.fibers.length := by omega
    have hgap := hlow.1.gap r0 hr0 (by omega)
    have hfl := hlow.1.floor r0.A.toNat (by omega)
    have hposA : 0 < thick m r0.A.toNat := by
      obtain ⟨S, -, hf⟩ := h.size
      have hA : r0.A.toNat < m.fibers.length := by omega
      have := (hf _ (List.getElem_mem hA)).h
      simpa [thick, List.getElem?_eq_getElem hA] using this
    rcases C20_supported hlp h hck ho hst _ hk with hfloor | ⟨r, hr, hAB, hB, hz⟩
    · exfalso
      rw [hfloor] at hgap
      linarith
    · obtain ⟨r', hr', eA, eB⟩ := plan_mem (show planColumns net.rows = planColumns net'.rows from hplan) hr
      obtain ⟨p1, p2, p3⟩ := ho r hr
      obtain ⟨z1, z2⟩ := row_heights hgood hw' g1 hr'
      refine ⟨r', ?_, by rw [eA, eB]; omega⟩
      cases threshold with
      | none => exact hr'
      | some t =>
        simp only [keep, thresholdRows, List.mem_filter, decide_eq_true_eq]
        refine ⟨hr', Or.inl ?_⟩
        have hthm : ∀ i, i < m.fibers.length → thick m i ≤ t := by
          intro i hi
          have := hth t rfl _ (List.getElem_mem hi)
          simpa [thick, List.getElem?_eq_getElem hi] using this
        have hBn : r.B.toNat = r0.B.toNat := by omega
        have hdist : r'.zB - r'.zA = (thick m r.A.toNat + thick m r.B.toNat) / 2 := by
          rw [z1, z2, eA, eB, hBn, hz, hBn]; ring
        have t1 := hthm r.A.toNat (by omega)
        have t2 := hthm r.B.toNat (by omega)
        rw [hdist, abs_of_nonneg (by linarith [thick_nonneg h r.A.toNat, thick_nonneg h r.B.toNat])]
        linarith

/-- In a planar mat of uniform thickness `t` with at least one connection between two fibers, the limit is twice the thickness,
whatever the number of fibers and the height of the stack. -/
theorem C82_uniform (hlp : GoodLinprog lp) (h : GoodMat m) (hw : ∀ f ∈ m.fibers, f.w = 0)
    (hn : netNew m periodic = .ok net) (hst : stackNew lp m net threshold = .ok (m', st)) (hth : KeepsTouching m threshold)
    {t : K} (ht : ∀ f ∈ m.fibers, f.h = t) (hc : ∃ r ∈ net.rows, r.A ≠ r.B) : SolidHeight m st.rows (2 * t) := by
  obtain ⟨h1, h2⟩ := kept_connection hlp h hw hn hst hth hc
  refine uniform_solid ?_ ht h1 h2
  obtain ⟨r, hr, -⟩ := h2
  obtain ⟨S, -, hf⟩ := h.size
  have := (hf _ (List.getElem_mem (h1 r hr).1)).h
  rw [← ht _ (List.getElem_mem (h1 r hr).1)]
  exact this.le

end Fibermat
