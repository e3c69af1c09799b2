import Verif.Lemmas.RoundedRun
import Verif.Lemmas.RoundedExact
import Verif.Lemmas.Binary
import Mathlib.Data.Rat.Floor
import Verif.Props.Solver
import Verif.Props.SolverExamples
import Verif.Lemmas.SolverStop

/-! # C89: the solver with rounded arithmetic -/

set_option linter.unusedSectionVars false

namespace Fibermat
open Spec
variable {K : Type} [Field K] [LinearOrder K] [IsStrictOrderedRing K]

section
variable {A : Floats K} {o : Opts K} {u κ δ ε : K} {mat : Mat K} {mesh : Mesh K} {lmin lmax : Option K} {coupling : K}
  {Km : Coo (Cell K)} {cs : ConstraintSys K} {S' : Sys K}

theorem gap_bounds (hC : constraint mat mesh = .ok cs) (hm : GoodMat mat) (he : 0 ≤ ε) (h0 : ClearUpTo mat mesh.rows ε cs.Z (fun _ => 0))
    {i j : ℕ} (hp : IsPair mesh.rows i j) : i < mesh.rows.length ∧ j < mesh.rows.length →
    floorGap mat mesh.rows (fun _ => 0) i ≤ cs.Z + 2 * ε ∧ (i ≠ j → pairGap mat mesh.rows (fun _ => 0) i j ≤ cs.Z + 2 * ε) ∧
    roofGap mat mesh.rows cs.Z (fun _ => 0) j ≤ cs.Z + 2 * ε := by
  rintro ⟨hi, hj⟩
  obtain ⟨-, -, hs, l, Z, h3, h4, h5, rfl⟩ := constraint_eq hC
  have top := (top_isTop h3 h5).2
  have t1 := top i hi
  have t2 := top j hj
  have p1 := nodeThick_pos hm h3 hi
  have p2 := nodeThick_pos hm h3 hj
  obtain ⟨g0, g1, g2⟩ := h0 i j hp
  simp only [floorGap, pairGap, roofGap, add_zero] at *
  refine ⟨by linarith, fun e => by have := g1 e; linarith, ?_⟩
  by_cases e : i = j
  · subst e; linarith
  · have := g1 e; linarith

/-- Stored bounds of the constraints of a connection. -/
theorem stored_bound (hC : constraint mat mesh = .ok cs) (hm : GoodMat mat) (hst : Stored A.fl δ (assemble Km cs) S')
    (he : 0 ≤ ε) (h0 : ClearUpTo mat mesh.rows ε cs.Z (fun _ => 0)) {hs : List K} {l : List (Contact K)} (hc : Contacts mat mesh.rows cs hs l)
    (hN : Km.nrows = 2 * mesh.rows.length) {k : ℕ} {x : Contact K} (hx : l[k]? = some x) :
    (∃ b, S'.q0 (S'.nK + (3 * k + 0)) = .fin b ∧ A.fl b = b ∧ -(δ + ε) ≤ b ∧ b ≤ cs.Z + δ + 2 * ε ∧
      |b - floorGap mat mesh.rows (fun _ => 0) x.i| ≤ δ) ∧
    (x.i ≠ x.j → ∃ b, S'.q0 (S'.nK + (3 * k + 1)) = .fin b ∧ A.fl b = b ∧ -(δ + ε) ≤ b ∧ b ≤ cs.Z + δ + 2 * ε ∧
      |b - pairGap mat mesh.rows (fun _ => 0) x.i x.j| ≤ δ) ∧
    (∃ b, S'.q0 (S'.nK + (3 * k + 2)) = .fin b ∧ A.fl b = b ∧ -(δ + ε) ≤ b ∧ b ≤ cs.Z + δ + 2 * ε ∧
      |b - roofGap mat mesh.rows cs.Z (fun _ => 0) x.j| ≤ δ) := by
  have hxl := List.mem_of_getElem? hx
  obtain ⟨i1, i2, e1, e2, e3, e4⟩ := contact_data hc.thick (hc.contact x hxl)
  have hpr := hc.isPair hxl
  obtain ⟨b0, b1, b2⟩ := gap_bounds hC hm he h0 hpr ⟨i1, i2⟩
  obtain ⟨g0, g1, g2⟩ := h0 _ _ hpr
  have hnK : S'.nK = 2 * mesh.rows.length := by rw [hst.nK]; exact hN
  rw [hnK]
  have close : ∀ r b, (assemble Km cs).q0 r = .fin b → -ε ≤ b → b ≤ cs.Z + 2 * ε →
      ∃ b', S'.q0 r = .fin b' ∧ A.fl b' = b' ∧ -(δ + ε) ≤ b' ∧ b' ≤ cs.Z + δ + 2 * ε ∧ |b' - b| ≤ δ := by
    intro r b hb c1 c2
    obtain ⟨b', h1, h2, h3⟩ := hst.bound _ b hb
    have := abs_le.1 h3
    exact ⟨b', h1, h2, by linarith, by linarith, h3⟩
  refine ⟨close _ _ ?_ g0 b0, fun e => close _ _ ?_ (g1 e) (b1 e), close _ _ ?_ g2 b2⟩
  · rw [hc.q0 hN hx (by omega)]
    simp only [contactBounds, floorGap, add_zero, e1, e3, List.getElem?_cons_zero, Option.getD_some]
  · rw [hc.q0 hN hx (by omega)]
    simp [contactBounds, pairGap, e, e1, e2, e3, e4]
  · rw [hc.q0 hN hx (by omega)]
    simp [contactBounds, roofGap, e2, e4]

theorem presses_of (hK : stiffness mat mesh lmin lmax coupling = .ok Km) (hC : constraint mat mesh = .ok cs) (hm : GoodMat mat)
    (hp : PositiveLengths mesh.rows lmin lmax) (hst : Stored A.fl δ (assemble Km cs) S')
    (he : 0 ≤ ε) (h0 : ClearUpTo mat mesh.rows ε cs.Z (fun _ => 0)) :
    ∃ (rigid : ℕ → Prop) (hs : List K) (l : List (Contact K)), Contacts mat mesh.rows cs hs l ∧ Km.nrows = 2 * mesh.rows.length ∧
      Presses A.fl (δ + ε) (cs.Z + δ + 2 * ε) S' rigid (l.map (fun x => (x.i, x.j))) := by
  obtain ⟨bl, ha, hpos, -⟩ := assembled hK
  obtain ⟨hs, l, hc⟩ := contacts_of hC
  have hN : Km.nrows = 2 * mesh.rows.length := by rw [ha.eq]
  have hsd := assemble_sound ha hm (hpos hp) hc
  have hnK : S'.nK = 2 * mesh.rows.length := by rw [hst.nK]; exact hN
  have hnC : S'.nC = 3 * l.length := by rw [hst.nC]; simp [assemble, hc.C]
  have hpk : ∀ k i j : ℕ, (l.map (fun x : Contact K => (x.i, x.j)))[k]? = some (i, j) → ∃ x : Contact K, l[k]? = some x ∧ x.i = i ∧ x.j = j := by
    intro k i j hk
    rw [List.getElem?_map, Option.map_eq_some_iff] at hk
    obtain ⟨x, h1, h2⟩ := hk
    cases h2
    exact ⟨x, h1, rfl, rfl⟩
  refine ⟨Frozen bl, hs, l, hc, hN, ?_⟩
  constructor
  · rw [hnC, List.length_map]
  · intro p hpm
    rw [List.mem_map] at hpm
    obtain ⟨x, hx, rfl⟩ := hpm
    exact ⟨(hc.contact x hx).le, by rw [hnK]; exact (hc.lt x hx).2⟩
  · intro r c hrc
    exact hst.soft r c _ (hsd.num r c hrc)
  · intro r hr
    exact hst.stiff r r (hsd.diag r hr)
  · intro r hr
    rw [hst.nK]; exact hsd.lt r hr
  · intro k i j hk d hd c hc'
    obtain ⟨x, hx, rfl, rfl⟩ := hpk k i j hk
    have hlt := hc.lt x (List.mem_of_getElem? hx)
    rw [hst.unit _ _ (Or.inl (by rw [hst.nK]; omega)), hst.unit _ _ (Or.inr (by rw [hst.nK]; omega)), hnK]
    have hn1 : ¬ (2 * mesh.rows.length + (3 * k + d) < 2 * mesh.rows.length) := by omega
    simp only [assemble, hN, hn1, if_false, Nat.add_sub_cancel_left]
    by_cases hcl : c < 2 * mesh.rows.length
    · rw [if_pos hcl, hc.entry hx hd hcl]
      have e : (if d = 0 then - (if 2 * x.i = c then 1 else 0) else if d = 1 then (if 2 * x.i = c then 1 else 0) -
          (if 2 * x.j = c then 1 else 0) else (if 2 * x.j = c then 1 else 0) : K) = coef d x.i x.j c := by
        simp only [coef, eq_comm (a := c)]
      rw [e]
      exact ⟨rfl, rfl⟩
    · rw [if_neg hcl]
      have e : (coef d x.i x.j c : K) = 0 := by
        have e1 : c ≠ 2 * x.i := by omega
        have e2 : c ≠ 2 * x.j := by omega
        simp [coef, e1, e2]
      rw [e]
      exact ⟨rfl, rfl⟩
  · intro k hk d hd
    rw [List.length_map] at hk
    rw [hst.dq, hnK]
    exact hc.dq hN (List.getElem?_eq_getElem hk) hd
  · intro k i j hk d hd
    obtain ⟨x, hx, rfl, rfl⟩ := hpk k i j hk
    obtain ⟨q0, q1, q2⟩ := stored_bound hC hm hst he h0 hc hN hx
    rcases (by omega : d = 0 ∨ d = 1 ∨ d = 2) with rfl | rfl | rfl
    · rw [if_neg (by omega)]
      obtain ⟨b, h1, h2, h3, h4, -⟩ := q0
      exact ⟨b, h1, h2, h3, h4⟩
    · by_cases e : x.i = x.j
      · rw [if_pos ⟨rfl, e⟩]
        apply hst.free
        rw [hnK, hc.q0 hN hx (by omega)]
        simp [contactBounds, e]
      · rw [if_neg (by simp [e])]
        obtain ⟨b, h1, h2, h3, h4, -⟩ := q1 e
        exact ⟨b, h1, h2, h3, h4⟩
    · rw [if_neg (by omega)]
      obtain ⟨b, h1, h2, h3, h4, -⟩ := q2
      exact ⟨b, h1, h2, h3, h4⟩

theorem final_arith {η Z B br qr c n x gap b : K} (hη : 0 ≤ η) (hc : 0 ≤ c) (hd : 0 ≤ δ) (hZ : 0 ≤ Z) (hδ : 10 * δ + 20 * ε ≤ Z)
    (hB : B = Z + δ + 2 * ε) (hn : 0 ≤ n) (hq : br - qr ≤ 6 * B) (hbr : br ≤ B) (hb : |b - gap| ≤ δ)
    (hg : -(δ + ε + η * (br - qr) + 321 * n * (c * B)) ≤ b + x) :
    -(3 * δ + ε + (7 * η + 400 * n * c) * Z) ≤ gap + x - δ - 42 * n * (c * B) := by
  have h1 : η * (br - qr) ≤ η * (7 * Z) := mul_le_mul_of_nonneg_left (by linarith) hη
  have h2 : n * c * (363 * B) ≤ n * c * (400 * Z) := mul_le_mul_of_nonneg_left (by linarith) (mul_nonneg hn hc)
  have h3 := (abs_le.1 hb).2
  linarith

/-- The fibers found by the solver overlap only by the initial overlap and by the errors of storage, of the linear solver, and of
rounding. -/
theorem gaps_from (hK : stiffness mat mesh lmin lmax coupling = .ok Km) (hC : constraint mat mesh = .ok cs) (hm : GoodMat mat)
    (hp : PositiveLengths mesh.rows lmin lmax) (he : 0 ≤ ε) (h0 : ClearUpTo mat mesh.rows ε cs.Z (fun _ => 0))
    (hst : Stored A.fl δ (assemble Km cs) S') (hδ : 10 * δ + 20 * ε ≤ cs.Z)
    (hr : Rounds A.fl u) (hu : u ≤ 1 / 1000) (hn : NormTest A.tooBig κ)
    (htol : 0 ≤ o.tol) (herr : 0 ≤ κ * o.errtol) (herr' : κ * o.errtol ≤ 1 / 100)
    {k : ℕ} (hk : 400 * (k : K) * u ≤ 1) {a : Rec K} (ha : (S'.runR A o).1[k]? = some a) :
    ClearUpTo mat mesh.rows (3 * δ + ε + (7 * (κ * o.errtol) + 400 * k * u) * cs.Z) a.Z a.x := by
  intro i j hij
  obtain ⟨rigid, hs, l, hc, hN, hpr⟩ := presses_of hK hC hm hp hst he h0
  obtain ⟨m, x, hx, rfl, rfl⟩ := hc.ofPair hij
  have hu0 : 0 ≤ u := by
    have := hr.err 1
    rw [abs_one, mul_one] at this
    exact (abs_nonneg _).trans this
  have hd0 : 0 ≤ δ := (abs_nonneg _).trans hst.top.2
  have hZ : 0 ≤ cs.Z := by linarith
  obtain ⟨⟨bf, qf, ff, lf, uf, cf⟩, hpair, ⟨br, qr, fr, lr, ur, cr⟩⟩ := stored_bound hC hm hst he h0 hc hN hx
  obtain ⟨bp, qp, fp, lp, up, cp, pz⟩ : ∃ bp, (x.i ≠ x.j → S'.q0 (S'.nK + (3 * m + 1)) = .fin bp) ∧ A.fl bp = bp ∧ -(δ + ε) ≤ bp ∧
      bp ≤ cs.Z + δ + 2 * ε ∧ (x.i ≠ x.j → |bp - pairGap mat mesh.rows (fun _ => 0) x.i x.j| ≤ δ) ∧ (x.i = x.j → bp = 0) := by
    by_cases e : x.i = x.j
    · exact ⟨0, fun h => absurd e h, hr.zero, by linarith, by linarith, fun h => absurd e h, fun _ => rfl⟩
    · obtain ⟨b, h1, h2, h3, h4, h5⟩ := hpair e
      exact ⟨b, fun _ => h1, h2, h3, h4, fun _ => h5, fun h => absurd h e⟩
  have hB : 0 ≤ cs.Z + δ + 2 * ε := by linarith
  have hδB : δ + ε ≤ (cs.Z + δ + 2 * ε) / 10 := by linarith
  have hZ' := abs_le.1 hst.top.2
  have hZ0 : (assemble Km cs).Z0 = cs.Z := rfl
  rw [hZ0] at hZ'
  have hinv := runR_induction (S := S') (A := A) (o := o)
    (p := PairInv S' A u (κ * o.errtol) (δ + ε) (cs.Z + δ + 2 * ε) rigid m x.i x.j bf bp br) (N := k) ?_ ?_ le_rfl ha
  · obtain ⟨qk, eq, -, lq, g0, g1, g2, hdZ⟩ := hinv.roof
    have hnu : 0 ≤ (k : K) * (u * (cs.Z + δ + 2 * ε)) := mul_nonneg (Nat.cast_nonneg k) (mul_nonneg hu0 hB)
    have hEB := budget (E := δ + ε + κ * o.errtol * (br - qk) + 321 * k * (u * (cs.Z + δ + 2 * ε))) hB hu0 herr herr' hδB hk rfl ur lq
      (by linarith)
    have hq6 : br - qk ≤ 6 * (cs.Z + δ + 2 * ε) := by linarith
    have hkn : (0 : K) ≤ k := Nat.cast_nonneg k
    have r0 := final_arith (x := a.x (2 * x.i)) herr hu0 hd0 hZ hδ rfl hkn hq6 ur cf g0
    have r2 := final_arith (x := qk - br - a.x (2 * x.j)) herr hu0 hd0 hZ hδ rfl hkn hq6 ur cr
      (by linarith)
    have hdZ' := abs_le.1 hdZ
    simp only [floorGap, pairGap, roofGap, add_zero] at r0 r2 cp ⊢
    refine ⟨by linarith, fun e => ?_, by linarith⟩
    have r1 := final_arith (x := a.x (2 * x.j) - a.x (2 * x.i)) herr hu0 hd0 hZ hδ rfl hkn hq6 ur
      (cp e) (by linarith)
    linarith
  · refine ⟨fun _ _ => rfl, qf, qp, hst.top.1, le_rfl, br, qr, fr, le_rfl, ?_⟩
    simp only [Sys.initR, sub_self, add_zero, sub_zero, Nat.cast_zero, mul_zero, zero_mul, abs_zero]
    exact ⟨lf, lp, lr, le_rfl⟩
  · intro n a b hnk hi hs
    have hnk' : ((n + 1 : ℕ) : K) ≤ k := by exact_mod_cast hnk
    refine hi.step hpr hr hu0 hu hn htol herr herr' hB (by linarith) hδB (by linarith) (by linarith)
      (by rw [List.getElem?_map, hx]; rfl) (abs_le.2 ⟨by linarith, uf⟩) (abs_le.2 ⟨by linarith, up⟩) (abs_le.2 ⟨by linarith, ur⟩)
      pz ff fp ?_ hs
    nlinarith

/-- The fibers found by the solver overlap only by the errors of storage, of the linear solver, and of rounding. -/
theorem C89_gaps (hK : stiffness mat mesh lmin lmax coupling = .ok Km) (hC : constraint mat mesh = .ok cs) (hm : GoodMat mat)
    (hp : PositiveLengths mesh.rows lmin lmax) (h0 : ClearUpTo mat mesh.rows 0 cs.Z (fun _ => 0))
    (hst : Stored A.fl δ (assemble Km cs) S') (hδ : 10 * δ ≤ cs.Z)
    (hr : Rounds A.fl u) (hu : u ≤ 1 / 1000) (hn : NormTest A.tooBig κ)
    (htol : 0 ≤ o.tol) (herr : 0 ≤ κ * o.errtol) (herr' : κ * o.errtol ≤ 1 / 100)
    {k : ℕ} (hk : 400 * (k : K) * u ≤ 1) {a : Rec K} (ha : (S'.runR A o).1[k]? = some a) :
    ClearUpTo mat mesh.rows (3 * δ + (7 * (κ * o.errtol) + 400 * k * u) * cs.Z) a.Z a.x := by
  have := gaps_from hK hC hm hp le_rfl h0 hst (by linarith) hr hu hn htol herr herr' hk ha
  rwa [add_zero] at this

end

/-- Without rounding errors, the records are those of the solver. -/
theorem C89_exact (S : Sys K) (o : Opts K) :
    S.runR Floats.exact o = S.run o ∧ Rounds (Floats.exact (K := K)).fl 0 ∧ NormTest (Floats.exact (K := K)).tooBig 1 := by
  refine ⟨runR_exact S o, ⟨fun _ _ h => h, fun _ => rfl, fun a => ?_⟩, ?_⟩
  · simp [Floats.exact]
  · intro errtol es h e he
    simp only [Floats.exact, List.map_map] at h
    have hsum : cellSum (es.map ((fun c : Cell K => c * c) ∘ Cell.fin)) = .fin ((es.map (fun x => x * x)).sum) := by
      clear h he
      induction es with
      | nil => rfl
      | cons x es ih =>
        unfold cellSum at ih ⊢
        rw [List.map_cons, List.sum_cons, ih, List.map_cons, List.sum_cons]
        rfl
    rw [hsum] at h
    simp only [errGt, Bool.or_eq_false_iff, decide_eq_false_iff_not, not_lt] at h
    rw [one_mul]
    apply abs_le_of_sq_le_sq _ h.1
    have h1 : e * e ≤ (es.map (fun x => x * x)).sum :=
      List.single_le_sum (by intro y hy; rw [List.mem_map] at hy; obtain ⟨x, -, rfl⟩ := hy; exact mul_self_nonneg x) _
        (List.mem_map_of_mem he)
    rw [pow_two]
    exact h1.trans h.2

/-- The upper plate never goes up, and the recorded packing never decreases as long as the plate is above the lower one. -/
theorem C89_plate {S : Sys K} {A : Floats K} {o : Opts K} {u : K} (hr : Rounds A.fl u) (h1 : A.fl 1 = 1) (htol : 0 ≤ o.tol)
    (hZ : A.fl S.Z0 = S.Z0) (hZ0 : 0 ≤ S.Z0) (k : ℕ) (a b : Rec K) (ha : (S.runR A o).1[k]? = some a)
    (hb : (S.runR A o).1[k + 1]? = some b) :
    b.Z ≤ a.Z ∧ (0 < b.Z → ∃ p q, a.rlambda = .fin p ∧ b.rlambda = .fin q ∧ p ≤ q) := by
  have inv := runR_induction (S := S) (A := A) (o := o) (N := k) (p := fun n c => A.fl c.Z = c.Z ∧ c.Z ≤ S.Z0 ∧
    (0 < c.Z → ∃ y, c.rlambda = .fin (A.fl y) ∧ y * c.Z = S.Z0)) ?_ ?_ le_rfl ha
  · obtain ⟨f1, f2, f3⟩ := inv
    obtain ⟨t, ht, e1, e2⟩ := stepR_down hr htol (runR_next ha hb)
    have hle : b.Z ≤ a.Z := by
      have := hr.mono (a.Z + -t) a.Z (by linarith)
      rw [f1] at this
      rwa [e1]
    refine ⟨hle, fun hp => ?_⟩
    obtain ⟨y, e3, e4⟩ := f3 (hp.trans_le hle)
    rw [Cell.fin_div_fin hp.ne', Cell.round_fin] at e2
    refine ⟨_, _, e3, e2, hr.mono _ _ ?_⟩
    rw [le_div_iff₀ hp]
    have hy : 0 ≤ y := by
      have ha0 := hp.trans_le hle
      by_contra hneg
      have := mul_neg_of_neg_of_pos (not_le.1 hneg) ha0
      linarith
    rw [← e4]
    exact mul_le_mul_of_nonneg_left hle hy
  · exact ⟨hZ, le_rfl, fun _ => ⟨1, by rw [h1]; rfl, one_mul _⟩⟩
  · rintro n c d - ⟨f1, f2, -⟩ hs
    obtain ⟨t, ht, e1, e2⟩ := stepR_down hr htol hs
    have hle : d.Z ≤ c.Z := by
      have := hr.mono (c.Z + -t) c.Z (by linarith)
      rw [f1] at this
      rwa [e1]
    refine ⟨by rw [e1, hr.idem], hle.trans f2, fun hp => ⟨S.Z0 / d.Z, ?_, div_mul_cancel₀ _ hp.ne'⟩⟩
    rw [e2, Cell.fin_div_fin hp.ne', Cell.round_fin]

/-- The rounded norm, with a square root of relative accuracy `4 u` on squares, is good enough. -/
theorem C89_norm {fl root : K → K} {u : K} (hr : Rounds fl u) (hu : u ≤ 1 / 1000)
    (hroot : ∀ s, 0 ≤ s → 0 ≤ root s ∧ (1 - 4 * u) * s ≤ root s ^ 2) : NormTest (normGt fl root) (101 / 100) := by
  have hu0 : 0 ≤ u := by
    have := hr.err 1
    rw [abs_one, mul_one] at this
    exact (abs_nonneg _).trans this
  intro errtol es h e he
  have key : ∀ (l : List K) (z : K), 0 ≤ z → fl z = z → ∃ s, (l.map Cell.fin).foldl
      (fun acc c => (acc + (c * c).round fl).round fl) (.fin z) = .fin s ∧ z ≤ s ∧ ∀ e ∈ l, fl (e * e) ≤ s := by
    intro l
    induction l with
    | nil => intro z _ _; exact ⟨z, rfl, le_rfl, by simp⟩
    | cons y l ih =>
      intro z hz fz
      have hy : 0 ≤ fl (y * y) := hr.nonneg (mul_self_nonneg y)
      have h1 : z ≤ fl (z + fl (y * y)) := by
        have := hr.mono z (z + fl (y * y)) (by linarith)
        rwa [fz] at this
      have h2 : fl (y * y) ≤ fl (z + fl (y * y)) := by
        have := hr.mono (fl (y * y)) (z + fl (y * y)) (by linarith)
        rwa [hr.idem] at this
      obtain ⟨s, e1, e2, e3⟩ := ih (fl (z + fl (y * y))) (hz.trans h1) (hr.idem _)
      refine ⟨s, ?_, h1.trans e2, ?_⟩
      · rw [List.map_cons, List.foldl_cons, ← e1]
        rfl
      · intro w hw
        rcases List.mem_cons.1 hw with rfl | hw
        · exact h2.trans e2
        · exact e3 w hw
  obtain ⟨s, e1, e2, e3⟩ := key es 0 le_rfl hr.zero
  unfold normGt at h
  rw [e1] at h
  simp only [decide_eq_false_iff_not, not_lt] at h
  obtain ⟨r1, r2⟩ := hroot s e2
  have hE : 0 ≤ errtol := r1.trans h
  have h1 := e3 e he
  have h2 := (abs_le.1 (hr.err (e * e))).1
  rw [abs_of_nonneg (mul_self_nonneg e)] at h2
  have h3 : root s ^ 2 ≤ errtol ^ 2 := pow_le_pow_left₀ r1 h 2
  have h4 : 4 * u * s ≤ 4 / 1000 * s := mul_le_mul_of_nonneg_right (by linarith) e2
  have h5 : u * (e * e) ≤ 1 / 1000 * (e * e) := mul_le_mul_of_nonneg_right hu (mul_self_nonneg e)
  apply abs_le_of_sq_le_sq _ (by linarith)
  nlinarith

/-- Rounding to the nearest number of `p` bits, ties to even, is such a rounding with `u = 2 ^ -p`; it keeps numbers of `p` bits. -/
theorem C89_binary [FloorRing K] {p : ℕ} (hp : 1 ≤ p) : Rounds (binary p : K → K) (1 / 2 ^ p) ∧
    ∀ n f : ℤ, |n| ≤ 2 ^ p → binary p ((n : K) * 2 ^ f) = n * 2 ^ f :=
  ⟨binary_rounds hp, binary_exact hp⟩

end Fibermat
