import Verif.Lemmas.SolverStop
import Verif.Props.Stiffness
import Verif.Props.SolverMore

/-! # Theorems on the end of `solve` (C61-C64) -/

set_option linter.unusedSectionVars false
set_option linter.unusedSimpArgs false

namespace Fibermat
variable {K : Type} [Field K] [LinearOrder K] [IsStrictOrderedRing K]
open Spec

variable {mat : Mat K} {mesh : Mesh K} {lmin lmax : Option K} {coupling : K} {o : Opts K} {perm : Option (List ℕ)}
  {S : Sys K} {recs : List (Rec K)} {stop : Stop}

theorem frozen_odd {bl : List (Beam K × K)} : ∀ r, Frozen bl r → r % 2 = 1 := by
  rintro r ⟨p, -, -, h | h⟩ <;> omega

theorem getLast_getElem {α : Type} {l : List α} {a : α} (h : l.getLast? = some a) : l[l.length - 1]? = some a := by
  rw [← h, List.getLast?_eq_getElem?]

/-! ## C61 -/

/-- With an exact linear solver, the run always ends in one of the three modelled ways: no division by zero, infinite step or NaN
enters the records. -/
theorem C61_modelled (h : solve mat mesh lmin lmax coupling o perm = .ok (S, recs, stop)) (hm : GoodMat mat)
    (hp : PositiveLengths mesh.rows lmin lmax) (htol : 0 ≤ o.tol) (hlin : ExactLin o.lin) (hperm : PermOf S.n perm) :
    stop ≠ .unmodelled := by
  intro he
  obtain ⟨Km, cs, hK, hC, -, hrun⟩ := solve_run h
  obtain ⟨bl, hs, l, has, hpos, hc, rfl, hnK, hn, hnC, hZ, hsd, rfl⟩ := solve_sound h hm hp hK hC
  have hN : Km.nrows = 2 * mesh.rows.length := by rw [has.eq]
  obtain ⟨b, h1, -, h2⟩ := loop_stop (assemble Km cs) { o with perm := perm.getD (List.range (assemble Km cs).n) } o.itermax
    ((assemble Km cs).init { o with perm := perm.getD (List.range (assemble Km cs).n) }) (e := .unmodelled)
    (by rw [← he]; exact congrArg Prod.snd hrun) (by simp)
  have hb := getLast_getElem h1
  have hb : ((assemble Km cs).run { o with perm := perm.getD (List.range (assemble Km cs).n) }).1[_]? = some b := hb
  cases hd : (assemble Km cs).direction { o with perm := perm.getD (List.range (assemble Km cs).n) } b with
  | some dx => exact hsd.step_some (hsd.inv hb) hd h2
  | none =>
    have := hc.step_none (o := { o with perm := perm.getD (List.range (assemble Km cs).n) }) hN hsd hn frozen_odd hlin (permOf_getD hperm) htol hb hd
    rw [h2] at this
    cases this

/-! ## C62 -/

/-- The last record of a run that stopped early, and the absence of an answer of the linear solver. -/
theorem blocked_none (h : solve mat mesh lmin lmax coupling o perm = .ok (S, recs, .blocked)) (hm : GoodMat mat)
    (hp : PositiveLengths mesh.rows lmin lmax) (herr : 0 ≤ o.errtol) (hlin : ExactLin o.lin)
    (hperm : PermOf S.n perm) (hcr : ConstraintsReciprocal mesh.rows) (hne : mesh.rows ≠ []) :
    ∃ a, recs.getLast? = some a ∧ Cell.lt a.rlambda o.packing = true ∧
      S.direction { o with perm := perm.getD (List.range S.n) } a = none := by
  obtain ⟨Km, cs, hK, hC, -, hrun⟩ := solve_run h
  obtain ⟨bl, hs, l, has, hpos, hc, rfl, hnK, hn, hnC, hZ, hsd, rfl⟩ := solve_sound h hm hp hK hC
  have hN : Km.nrows = 2 * mesh.rows.length := by rw [has.eq]
  obtain ⟨b, h1, h0, h2⟩ := loop_stop (assemble Km cs) { o with perm := perm.getD (List.range (assemble Km cs).n) } o.itermax
    ((assemble Km cs).init { o with perm := perm.getD (List.range (assemble Km cs).n) }) (e := .blocked)
    (congrArg Prod.snd hrun) (by simp)
  have hb := getLast_getElem h1
  have hb : ((assemble Km cs).run { o with perm := perm.getD (List.range (assemble Km cs).n) }).1[_]? = some b := hb
  refine ⟨b, h1, h0, ?_⟩
  have hl : l ≠ [] := by
    rintro rfl
    obtain ⟨r, hr⟩ : ∃ r, mesh.rows[0]? = some r := ⟨mesh.rows[0]'(List.length_pos_of_ne_nil hne), List.getElem?_eq_getElem _⟩
    obtain ⟨j, p, h1, -, -⟩ := hcr 0 r hr
    obtain ⟨x, hx, -⟩ := hc.all 0 r hr (by omega)
    cases hx
  cases hd : (assemble Km cs).direction { o with perm := perm.getD (List.range (assemble Km cs).n) } b with
  | none => rfl
  | some dx =>
    obtain ⟨c, hstep⟩ := hc.step_some (o := { o with perm := perm.getD (List.range (assemble Km cs).n) }) hN hsd hn hlin
      (permOf_getD hperm) herr (hsd.inv hb) hl hd
    rw [h2] at hstep
    cases hstep

/-- The run stops early only when the reduced system of the last record is singular. -/
theorem C62_singular (h : solve mat mesh lmin lmax coupling o perm = .ok (S, recs, .blocked)) (hm : GoodMat mat)
    (hp : PositiveLengths mesh.rows lmin lmax) (herr : 0 ≤ o.errtol) (hlin : GoodLin o.lin)
    (hperm : PermOf S.n perm) (hcr : ConstraintsReciprocal mesh.rows) (hne : mesh.rows ≠ []) :
    ∃ a, recs.getLast? = some a ∧ Cell.lt a.rlambda o.packing = true ∧ ¬ RegularAt S o.tol a := by
  obtain ⟨a, h1, h2, h3⟩ := blocked_none h hm hp herr hlin.1 hperm hcr hne
  refine ⟨a, h1, h2, fun hreg => ?_⟩
  obtain ⟨Km, cs, hK, hC, -, hrun⟩ := solve_run h
  obtain ⟨bl, hs, l, has, hpos, hc, rfl, hnK, hn, hnC, hZ, hsd, rfl⟩ := solve_sound h hm hp hK hC
  have hi := hsd.inv (getLast_getElem h1)
  obtain ⟨dx, hd, -⟩ := hsd.direction_perm (o := { o with perm := perm.getD (List.range (assemble Km cs).n) })
    (o' := { o with perm := perm.getD (List.range (assemble Km cs).n) }) hi (permOf_getD hperm) (permOf_getD hperm) rfl hlin hlin
    hreg
  rw [h3] at hd
  cases hd

/-- Two contacts that share a node are the same contact. -/
theorem Contacts.unique {rows : List (MeshRow K)} {cs : ConstraintSys K} {hs : List K} {l : List (Contact K)}
    (hc : Contacts mat rows cs hs l) (hcr : ConstraintsReciprocal rows) {k k' : ℕ} {x y : Contact K}
    (hk : l[k]? = some x) (hk' : l[k']? = some y) (hxy : x.i = y.i ∨ x.i = y.j ∨ x.j = y.i ∨ x.j = y.j) : k = k' := by
  have hi : x.i = y.i → k = k' := by
    intro e
    obtain ⟨h1, e1⟩ := List.getElem?_eq_some_iff.1 hk
    obtain ⟨h2, e2⟩ := List.getElem?_eq_some_iff.1 hk'
    have := hc.distinct
    rw [List.nodup_iff_injective_get] at this
    have := @this ⟨k, by simpa using h1⟩ ⟨k', by simpa using h2⟩ (by simp [e1, e2, e])
    simpa using this
  apply hi
  have p1 := hc.isPair (List.mem_of_getElem? hk)
  have p2 := hc.isPair (List.mem_of_getElem? hk')
  obtain ⟨l1, r1, a1, b1⟩ := p1
  obtain ⟨l2, r2, a2, b2⟩ := p2
  -- the partner of the partner
  have back : ∀ (i j : ℕ) (r : MeshRow K), rows[i]? = some r → r.constraint = (j : Int) → ∀ p, rows[j]? = some p →
      p.constraint = (i : Int) := by
    intro i j r hr hj p hp
    obtain ⟨j', p', h1, h2, h3⟩ := hcr i r hr
    have : j = j' := by omega
    subst this
    rw [hp] at h2; cases h2
    exact h3
  have part : ∀ z ∈ l, ∃ p, rows[z.j]? = some p ∧ p.constraint = (z.i : Int) := by
    intro z hz
    obtain ⟨r, p, h1, h2, h3, -⟩ := (hc.contact z hz).rows
    exact ⟨p, h2, back _ _ _ h1 h3 _ h2⟩
  obtain ⟨q1, c1, d1⟩ := part x (List.mem_of_getElem? hk)
  obtain ⟨q2, c2, d2⟩ := part y (List.mem_of_getElem? hk')
  rcases hxy with e | e | e | e
  · exact e
  · rw [e, c2] at a1; cases a1; omega
  · rw [e, a2] at c1; cases c1; omega
  · rw [e, c2] at c1; cases c1; omega

/-- A sum over the contact rows, contact by contact. -/
theorem sum_contacts (n : ℕ) (f : ℕ → K) :
    ∑ j ∈ Finset.range (3 * n), f j = ∑ k ∈ Finset.range n, (f (3 * k) + f (3 * k + 1) + f (3 * k + 2)) := by
  induction n with
  | zero => simp
  | succ n ih =>
    rw [show 3 * (n + 1) = 3 * n + 1 + 1 + 1 by ring, Finset.sum_range_succ, Finset.sum_range_succ, Finset.sum_range_succ, ih,
      Finset.sum_range_succ]
    ring

/-- The run stops early only when the mat is squeezed solid somewhere between the plates, or some fibers are not held by the
closed contacts. -/
theorem C62_blocked (h : solve mat mesh lmin lmax coupling o perm = .ok (S, recs, .blocked)) (hm : GoodMat mat)
    (ht : FiniteTensile mat) (hv : ValidMesh mesh.frame) (hp : PositiveLengths mesh.rows lmin lmax) (hcoup : |coupling| < 1)
    (htol : 0 ≤ o.tol) (herr : 0 ≤ o.errtol) (hlin : GoodLin o.lin) (hperm : PermOf S.n perm) (hne : mesh.rows ≠ []) :
    ∃ a, recs.getLast? = some a ∧ Cell.lt a.rlambda o.packing = true ∧
      (Jammed mat mesh.rows o.tol a.Z a.x ∨ Unsupported mat mesh.rows o.tol a.Z a.x) := by
  have hcr : ConstraintsReciprocal mesh.rows := by have := hv.constraints; rwa [rows_meshFrame] at this
  obtain ⟨a, h1, h2, h3⟩ := C62_singular h hm hp herr hlin hperm hcr hne
  refine ⟨a, h1, h2, ?_⟩
  obtain ⟨Km, cs, hK, hC, -, hrun⟩ := solve_run h
  obtain ⟨M, hM, hrigid⟩ := C33_no_energy_iff hK hm ht hv hp hcoup
  obtain ⟨bl, hs, l, has, hpos, hc, rfl, hnK, hn, hnC, hZ, hsd, rfl⟩ := solve_sound h hm hp hK hC
  have hN : Km.nrows = 2 * mesh.rows.length := by rw [has.eq]
  have ha := getLast_getElem h1
  have hi := hsd.inv ha
  have hMT : M = table mesh.rows coupling bl := by
    funext r c
    have e1 := hM r c
    have e2 := has.entries hm ht (hpos) r c
    rw [e1] at e2
    simpa using e2
  subst hMT
  set N := 2 * mesh.rows.length with hNdef
  set T := table mesh.rows coupling bl with hT
  unfold RegularAt at h3
  push Not at h3
  obtain ⟨y, y1, y2, r0, hr0, hy0⟩ := h3
  have y2 : ∀ r, r < (assemble Km cs).n → (assemble Km cs).active o.tol a.x a.q r = true →
      apply (assemble Km cs) (wholeTable N T cs.C) y r = 0 := by
    intro r hr hact
    have := y2 r hr hact
    rw [hsd.mulVec (hsd.active_num hi hr hact).1] at this
    simpa using this
  have hrow : ∀ j, j < 3 * l.length → y (N + j) * rowDot cs.C j y = 0 := by
    intro j hj
    by_cases hact : (assemble Km cs).active o.tol a.x a.q (N + j) = true
    · rw [← apply_constraint (N := N) (T := T) (C := cs.C) hn (by rw [hc.C]) y j, y2 _ (by omega) hact, mul_zero]
    · rw [y1 _ (by simpa using hact), zero_mul]
  have hcross : ∑ r ∈ Finset.range N, y r * ∑ j ∈ Finset.range (3 * l.length), cs.C.get j r * y (N + j) = 0 := by
    have : ∑ r ∈ Finset.range N, y r * ∑ j ∈ Finset.range (3 * l.length), cs.C.get j r * y (N + j) =
        ∑ j ∈ Finset.range (3 * l.length), y (N + j) * rowDot cs.C j y := by
      have hcols : cs.C.ncols = N := by rw [hc.C]
      simp only [rowDot, hcols, Finset.mul_sum]
      rw [Finset.sum_comm]
      apply Finset.sum_congr rfl
      intro j _
      apply Finset.sum_congr rfl
      intro r _
      ring
    rw [this]
    exact Finset.sum_eq_zero (fun j hj => hrow j (Finset.mem_range.1 hj))
  have hen : energy N T y = 0 := by
    have hf : ∀ r, r < N → y r * apply (assemble Km cs) (wholeTable N T cs.C) y r = 0 := by
      intro r hr
      by_cases hact : (assemble Km cs).active o.tol a.x a.q r = true
      · rw [y2 _ (by omega) hact, mul_zero]
      · rw [y1 _ (by simpa using hact), zero_mul]
    have e : energy N T y = ∑ r ∈ Finset.range N, y r * ∑ s ∈ Finset.range N, T r s * y s := by
      unfold energy
      apply Finset.sum_congr rfl
      intro r _
      rw [Finset.mul_sum]
      apply Finset.sum_congr rfl
      intro s _
      ring
    have e2 : ∑ r ∈ Finset.range N, y r * apply (assemble Km cs) (wholeTable N T cs.C) y r = energy N T y + 0 := by
      rw [e, ← hcross, ← Finset.sum_add_distrib]
      apply Finset.sum_congr rfl
      intro r hr
      rw [apply_force hn y (Finset.mem_range.1 hr), mul_add]
    rw [Finset.sum_eq_zero (fun r hr => hf r (Finset.mem_range.1 hr))] at e2
    linarith
  obtain ⟨hrot, htrans⟩ := (hrigid y).1 hen
  by_cases hu : ∃ i, i < mesh.rows.length ∧ y (2 * i) ≠ 0
  · right
    refine ⟨y, hu, htrans, ?_⟩
    intro i j hij
    obtain ⟨k, x, hk, rfl, rfl⟩ := hc.ofPair hij
    have hkl := (List.getElem?_eq_some_iff.1 hk).1
    have key : ∀ d, d < 3 → (d = 1 → x.i ≠ x.j) → geoGap mat mesh.rows a.Z a.x x d ≤ o.tol →
        (if d = 0 then - y (2 * x.i) else if d = 1 then y (2 * x.i) - y (2 * x.j) else y (2 * x.j)) = 0 := by
      intro d hd h1 h2
      have hact := (hc.active hN hsd hn hi hk hd o.tol).2 ⟨h1, h2⟩
      rw [← hc.row hk hd y, ← apply_constraint (N := N) (T := T) (C := cs.C) hn (by rw [hc.C]) y]
      exact y2 _ (by omega) hact
    refine ⟨fun hg => ?_, fun hne hg => ?_, fun hg => ?_⟩
    · have := key 0 (by omega) (by omega) (by simpa [geoGap] using hg)
      simpa using this
    · have := key 1 (by omega) (fun _ => hne) (by simpa [geoGap] using hg)
      simp at this
      linarith
    · have := key 2 (by omega) (by omega) (by simpa [geoGap] using hg)
      simpa using this
  · left
    push Not at hu
    -- the displacements vanish, so some contact force does not
    have hdisp : ∀ r, r < N → y r = 0 := by
      intro r hr
      rcases Nat.even_or_odd' r with ⟨i, rfl | rfl⟩
      · exact hu i (by omega)
      · by_cases hact : (assemble Km cs).active o.tol a.x a.q (2 * i + 1) = true
        · apply hrot
          by_contra hon
          obtain ⟨hrg, c, hcb⟩ := hsd.active_num hi (by omega) hact
          obtain ⟨-, s, hs', hne⟩ := (hsd.active_iff hi hrg hcb _).1 hact
          apply hne
          by_cases hsN : s < N
          · rw [hsd.symm]
            simp only [wholeTable, hr, hsN, if_true]
            rw [hT, table, get_sum_ite]
            apply List.sum_eq_zero
            intro z hz
            obtain ⟨e, he, rfl⟩ := List.mem_map.1 hz
            rw [if_neg]
            rintro ⟨e1, -⟩
            apply hon
            obtain ⟨p, hpm, hpe⟩ := List.mem_flatMap.1 he
            have hb := has.beam p hpm
            obtain ⟨r, p', h1, h2, h3, -⟩ := hb.rows
            have hst : StartsBeam mesh.rows p.1.i := ⟨r, h1, by rw [h3]; exact_mod_cast hb.lt⟩
            simp only [numEntries, List.mem_cons, List.not_mem_nil, or_false] at hpe
            have hend : i = p.1.i ∨ i = p.1.j := by
              rcases hpe with rfl | rfl | rfl | rfl | rfl | rfl | rfl | rfl | rfl | rfl | rfl | rfl | rfl | rfl | rfl | rfl <;>
                simp only at e1 <;> omega
            rcases hend with rfl | rfl
            · exact Or.inl hst
            · exact Or.inr ⟨p.1.i, hst, by simp [succNode, h1, h3]⟩
          · simp only [wholeTable, hr, hsN, if_true, if_false]
            obtain ⟨q, d, hd, rfl⟩ : ∃ q d, d < 3 ∧ s = N + (3 * q + d) :=
              ⟨(s - N) / 3, (s - N) % 3, by omega, by omega⟩
            have hq : l[q]? = some l[q] := List.getElem?_eq_getElem (by omega)
            rw [Nat.add_sub_cancel_left, hc.entry hq hd hr]
            have z1 : ¬ (2 * l[q].i = 2 * i + 1) := by omega
            have z2 : ¬ (2 * l[q].j = 2 * i + 1) := by omega
            simp [z1, z2]
        · exact y1 _ (by simpa using hact)
    have hr0N : N ≤ r0 := by
      by_contra hlt
      exact hy0 (hdisp r0 (by omega))
    obtain ⟨q, d, hd, rfl⟩ : ∃ q d, d < 3 ∧ r0 = N + (3 * q + d) :=
      ⟨(r0 - N) / 3, (r0 - N) % 3, by omega, by omega⟩
    have hq : l[q]? = some l[q] := List.getElem?_eq_getElem (by omega)
    generalize l[q] = x at hq
    have hxl := List.mem_of_getElem? hq
    have hlt := hc.lt x hxl
    -- balance of the forces on the nodes of the contact
    have hbal : ∀ i, i = x.i ∨ i = x.j → cs.C.get (3 * q) (2 * i) * y (N + 3 * q) +
        cs.C.get (3 * q + 1) (2 * i) * y (N + (3 * q + 1)) + cs.C.get (3 * q + 2) (2 * i) * y (N + (3 * q + 2)) = 0 := by
      intro i hix
      have hact := hc.active_node (o := { o with perm := perm.getD (List.range (assemble Km cs).n) }) hN hsd hn frozen_odd
        hlin.1 (permOf_getD hperm) htol ha hxl hix
      have hiN : 2 * i < N := by omega
      have := y2 (2 * i) (by omega) hact
      rw [apply_force hn y hiN, Finset.sum_eq_zero (fun s hs => by rw [hdisp s (Finset.mem_range.1 hs), mul_zero]), zero_add,
        sum_contacts, Finset.sum_eq_single q] at this
      · exact this
      · intro k hk hkq
        have hkl := Finset.mem_range.1 hk
        have hk' : l[k]? = some l[k] := List.getElem?_eq_getElem hkl
        generalize l[k] = z at hk'
        have hz : ∀ i', i' = z.i ∨ i' = z.j → 2 * i' ≠ 2 * i := by
          intro i' hi' e
          apply hkq
          refine hc.unique hcr hk' hq ?_
          rcases hi' with rfl | rfl <;> rcases hix with rfl | rfl <;> omega
        have z1 := hz _ (Or.inl rfl)
        have z2 := hz _ (Or.inr rfl)
        have c0 := hc.entry hk' (show 0 < 3 by omega) hiN
        have c1 := hc.entry hk' (show 1 < 3 by omega) hiN
        have c2 := hc.entry hk' (show 2 < 3 by omega) hiN
        simp only [z1, z2, if_false] at c0 c1 c2
        simp only [add_zero] at c0
        rw [c0, c1, c2]
        simp
      · intro hnm
        exact absurd (Finset.mem_range.2 (List.getElem?_eq_some_iff.1 hq).1) hnm
    have bi := hbal x.i (Or.inl rfl)
    have bj := hbal x.j (Or.inr rfl)
    have c0 := fun i hi => hc.entry (s := 2 * i) hq (show 0 < 3 by omega) hi
    have c1 := fun i hi => hc.entry (s := 2 * i) hq (show 1 < 3 by omega) hi
    have c2 := fun i hi => hc.entry (s := 2 * i) hq (show 2 < 3 by omega) hi
    simp only [add_zero] at c0
    rw [c0 _ hlt.1, c1 _ hlt.1, c2 _ hlt.1] at bi
    rw [c0 _ hlt.2, c1 _ hlt.2, c2 _ hlt.2] at bj
    have hforce : ∀ d, d < 3 → y (N + (3 * q + d)) ≠ 0 → (d = 1 → x.i ≠ x.j) ∧ geoGap mat mesh.rows a.Z a.x x d ≤ o.tol := by
      intro d hd hyd
      rw [← hc.active hN hsd hn hi hq hd o.tol]
      by_contra hcon
      exact hyd (y1 _ (by simpa using hcon))
    refine ⟨x.i, x.j, hc.isPair hxl, ?_⟩
    by_cases hij : x.i = x.j
    · have hy1 : y (N + (3 * q + 1)) = 0 := by
        by_contra hcon
        exact (hforce 1 (by omega) hcon).1 rfl hij
      have b0 : y (N + (3 * q + 2)) = y (N + (3 * q + 0)) := by
        simp [hij, hy1] at bi
        simp only [add_zero]
        linarith
      have hy0' : y (N + (3 * q + 0)) ≠ 0 := by
        rcases (by omega : d = 0 ∨ d = 1 ∨ d = 2) with rfl | rfl | rfl
        · exact hy0
        · exact absurd hy1 hy0
        · rwa [b0] at hy0
      have g0 := (hforce 0 (by omega) hy0').2
      have g2 := (hforce 2 (by omega) (by rwa [b0])).2
      exact ⟨by simpa [geoGap] using g0, fun hne => absurd hij hne, by simpa [geoGap] using g2⟩
    · have hij2 : ¬ (2 * x.i = 2 * x.j) := by omega
      have hij3 : ¬ (2 * x.j = 2 * x.i) := by omega
      simp [hij2, hij3, hij, Ne.symm hij] at bi bj
      have b0 : y (N + (3 * q + 1)) = y (N + (3 * q + 0)) := by simp only [add_zero]; linarith
      have b1 : y (N + (3 * q + 2)) = y (N + (3 * q + 0)) := by rw [← b0]; linarith
      have hy0' : y (N + (3 * q + 0)) ≠ 0 := by
        rcases (by omega : d = 0 ∨ d = 1 ∨ d = 2) with rfl | rfl | rfl
        · exact hy0
        · rwa [b0] at hy0
        · rwa [b1] at hy0
      have g0 := (hforce 0 (by omega) hy0').2
      have g1 := (hforce 1 (by omega) (by rwa [b0])).2
      have g2 := (hforce 2 (by omega) (by rwa [b1])).2
      exact ⟨by simpa [geoGap] using g0, fun _ => by simpa [geoGap] using g1, by simpa [geoGap] using g2⟩

/-! ## C63 -/

/-- Once the mat is squeezed solid somewhere between the plates, no further step is made. -/
theorem C63_jammed (h : solve mat mesh lmin lmax coupling o perm = .ok (S, recs, stop)) (hm : GoodMat mat)
    (hp : PositiveLengths mesh.rows lmin lmax) (hlin : ExactLin o.lin) (hperm : PermOf S.n perm)
    (k : ℕ) (a : Rec K) (ha : recs[k]? = some a) (hj : Jammed mat mesh.rows o.tol a.Z a.x) : k + 1 = recs.length := by
  obtain ⟨Km, cs, hK, hC, -, hrun⟩ := solve_run h
  obtain ⟨bl, hs, l, has, hpos, hc, rfl, hnK, hn, hnC, hZ, hsd, rfl⟩ := solve_sound h hm hp hK hC
  have hN : Km.nrows = 2 * mesh.rows.length := by rw [has.eq]
  have hk := (List.getElem?_eq_some_iff.1 ha).1
  by_contra hne
  have hi := hsd.inv ha
  obtain ⟨b, hb⟩ : ∃ b, ((assemble Km cs).run { o with perm := perm.getD (List.range (assemble Km cs).n) }).1[k + 1]? = some b :=
    ⟨_, List.getElem?_eq_getElem (by omega)⟩
  obtain ⟨dx, t, s, hst⟩ := hsd.next ha hb
  have hex := hsd.exact (o := { o with perm := perm.getD (List.range (assemble Km cs).n) }) hlin (permOf_getD hperm) hi hst.dir
  obtain ⟨i, j, hij, g0, g1, g2⟩ := hj
  obtain ⟨q, x, hq, rfl, rfl⟩ := hc.ofPair hij
  have hql := (List.getElem?_eq_some_iff.1 hq).1
  have key : ∀ d, d < 3 → (d = 1 → x.i ≠ x.j) → geoGap mat mesh.rows a.Z a.x x d ≤ o.tol →
      (if d = 0 then dx (2 * x.i) else if d = 1 then dx (2 * x.j) - dx (2 * x.i) else 1 - dx (2 * x.j)) = 0 := by
    intro d hd h1 h2
    have hact := (hc.active hN hsd hn hi hq hd o.tol).2 ⟨h1, h2⟩
    rw [← hc.rates (Km := Km) (T := table mesh.rows coupling bl) hN hn hq hd dx, hex _ (by omega) hact, sub_self]
  have k0 := key 0 (by omega) (by omega) (by simpa [geoGap] using g0)
  have k2 := key 2 (by omega) (by omega) (by simpa [geoGap] using g2)
  simp at k0 k2
  by_cases e : x.i = x.j
  · rw [e] at k0; linarith
  · have k1 := key 1 (by omega) (fun _ => e) (by simpa [geoGap] using g1 e)
    simp at k1
    linarith

/-! ## C64 -/

/-- A run whose iterations are not limited, and that did not reach the target packing, ends because the mat is squeezed solid
between the plates or some fibers are not held. -/
theorem C64_completion (h : solve mat mesh lmin lmax coupling o perm = .ok (S, recs, stop)) (hm : GoodMat mat)
    (ht : FiniteTensile mat) (hv : ValidMesh mesh.frame) (hp : PositiveLengths mesh.rows lmin lmax) (hcoup : |coupling| < 1)
    (htol : 0 ≤ o.tol) (herr : 0 ≤ o.errtol) (hlin : GoodLin o.lin) (hperm : PermOf S.n perm) (hne : mesh.rows ≠ [])
    (hiter : 3 * mesh.rows.length < o.itermax) :
    ∃ a, recs.getLast? = some a ∧ (Cell.lt a.rlambda o.packing = false ∨
      Jammed mat mesh.rows o.tol a.Z a.x ∨ Unsupported mat mesh.rows o.tol a.Z a.x) := by
  cases stop with
  | unmodelled => exact absurd rfl (C61_modelled h hm hp htol hlin.1 hperm)
  | blocked =>
    obtain ⟨a, h1, -, h2⟩ := C62_blocked h hm ht hv hp hcoup htol herr hlin hperm hne
    exact ⟨a, h1, Or.inr h2⟩
  | reached =>
    rcases C40_reached h with h1 | ⟨a, h1, h2⟩
    · exfalso
      obtain ⟨Km, cs, hK, hC, -, -⟩ := solve_run h
      have h2 := C45_terminates h hm hp htol hlin.1 hperm hC
      obtain ⟨hs, l, hc⟩ := contacts_of hC
      have hl : l.length ≤ mesh.rows.length := by
        have : (l.map (·.i)).toFinset ⊆ Finset.range mesh.rows.length := by
          intro i hi
          rw [List.mem_toFinset, List.mem_map] at hi
          obtain ⟨x, hx, rfl⟩ := hi
          have := hc.lt x hx
          rw [Finset.mem_range]; omega
        have := Finset.card_le_card this
        rw [List.toFinset_card_of_nodup hc.distinct, Finset.card_range] at this
        simpa using this
      rw [hc.C] at h2
      simp only at h2
      omega
    · exact ⟨a, h1, Or.inl h2⟩

end Fibermat
