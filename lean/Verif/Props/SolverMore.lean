import Verif.Props.Solver
import Verif.Props.Interp

/-! # Theorems on `solve` (C47, C48, C54) -/

set_option linter.unusedSectionVars false
set_option linter.unusedSimpArgs false

namespace Fibermat
variable {K : Type} [Field K] [LinearOrder K] [IsStrictOrderedRing K]
open Spec

variable {mat : Mat K} {mesh : Mesh K} {lmin lmax : Option K} {coupling : K} {o : Opts K} {perm : Option (List ℕ)}
  {S : Sys K} {recs : List (Rec K)} {stop : Stop}

/-! ## C47 -/

/-- Total force on the upper plate: sum of the forces of the upper rows. -/
def plateForce (N n : ℕ) (a : Rec K) : K := ∑ j ∈ Finset.range n, if j % 3 = 2 then a.x (N + j) else 0

/-- With an exact linear solver and `|coupling| ≤ 1`, the force on the plate never decreases (any tensile moduli). -/
theorem C47_monotone (h : solve mat mesh lmin lmax coupling o perm = .ok (S, recs, stop)) (hm : GoodMat mat)
    (hp : PositiveLengths mesh.rows lmin lmax) (htol : 0 ≤ o.tol) (hlin : ExactLin o.lin) (hperm : PermOf S.n perm)
    (hcoup : |coupling| ≤ 1) {cs : ConstraintSys K} (hC : constraint mat mesh = .ok cs)
    (k : ℕ) (a b : Rec K) (ha : recs[k]? = some a) (hb : recs[k + 1]? = some b) :
    plateForce (2 * mesh.rows.length) cs.C.nrows a ≤ plateForce (2 * mesh.rows.length) cs.C.nrows b := by
  obtain ⟨Km, -, hK, -, -, -⟩ := solve_run h
  obtain ⟨bl, hs, l, has, hpos, hc, rfl, hnK, hn, hnC, hZ, hsd, rfl⟩ := solve_sound h hm hp hK hC
  have hi := hsd.inv ha
  obtain ⟨dx, t, s, hst⟩ := hsd.next ha hb
  have ht := hst.pos htol
  have hnC' : (assemble Km cs).nC = 3 * l.length := hnC
  have hwork := hsd.work (o := { o with perm := perm.getD (List.range (assemble Km cs).n) }) hlin (permOf_getD hperm) hi hst (by
    intro i j hi hj
    rw [hnK]; simp [wholeTable])
  have hN : Km.nrows = 2 * mesh.rows.length := by rw [has.eq]
  -- the energy of the direction
  have hen : 0 ≤ energy (2 * mesh.rows.length) (table mesh.rows coupling bl) dx := by
    rw [has.energy_eq]
    apply List.sum_nonneg
    intro x hx
    obtain ⟨p, hpm, rfl⟩ := List.mem_map.1 hx
    exact beamEnergy_nonneg hcoup dx (has.solid hm p hpm) (hpos p hpm)
  have hen2 : energy (assemble Km cs).nK (wholeTable (2 * mesh.rows.length) (table mesh.rows coupling bl) cs.C) dx =
      energy (2 * mesh.rows.length) (table mesh.rows coupling bl) dx := by
    rw [hnK]
    unfold energy
    apply Finset.sum_congr rfl
    intro r hr
    apply Finset.sum_congr rfl
    intro s hs
    simp [wholeTable, Finset.mem_range.1 hr, Finset.mem_range.1 hs]
  rw [hen2] at hwork
  have hsum : ∑ r ∈ Finset.range (assemble Km cs).n, (assemble Km cs).dq r * dx r =
      ∑ j ∈ Finset.range (3 * l.length), if j % 3 = 2 then dx (2 * mesh.rows.length + j) else 0 := by
    rw [hn, Finset.sum_range_add]
    have z : ∑ r ∈ Finset.range (2 * mesh.rows.length), (assemble Km cs).dq r * dx r = 0 := by
      apply Finset.sum_eq_zero
      intro r hr
      rw [(hsd.force r (by rw [hnK]; exact Finset.mem_range.1 hr)).2, zero_mul]
    rw [z, zero_add]
    apply Finset.sum_congr rfl
    intro j hj
    have : (assemble Km cs).dq (2 * mesh.rows.length + j) = if j % 3 = 2 then 1 else 0 := by
      rw [← hc.incr (Finset.mem_range.1 hj)]
      simp [assemble, hN]
    rw [this]
    split_ifs <;> ring
  rw [hsum] at hwork
  have : plateForce (2 * mesh.rows.length) cs.C.nrows b = plateForce (2 * mesh.rows.length) cs.C.nrows a -
      t * ∑ j ∈ Finset.range (3 * l.length), if j % 3 = 2 then dx (2 * mesh.rows.length + j) else 0 := by
    unfold plateForce
    rw [hnC, Finset.mul_sum, ← Finset.sum_sub_distrib]
    apply Finset.sum_congr rfl
    intro j _
    rw [hst.x]
    split_ifs <;> ring
  rw [this, hwork]
  nlinarith [mul_nonneg ht.le hen]

/-- The force on the plate is zero at the start, hence never negative. -/
theorem C47_nonneg (h : solve mat mesh lmin lmax coupling o perm = .ok (S, recs, stop)) (hm : GoodMat mat)
    (hp : PositiveLengths mesh.rows lmin lmax) (htol : 0 ≤ o.tol) (hlin : ExactLin o.lin) (hperm : PermOf S.n perm)
    (hcoup : |coupling| ≤ 1) {cs : ConstraintSys K} (hC : constraint mat mesh = .ok cs)
    (k : ℕ) (a : Rec K) (ha : recs[k]? = some a) : 0 ≤ plateForce (2 * mesh.rows.length) cs.C.nrows a := by
  induction k generalizing a with
  | zero =>
    obtain ⟨-, a', ha', hx, -⟩ := C40_itermax h
    rw [ha] at ha'; cases ha'
    simp [plateForce, hx]
  | succ k ih =>
    have hk : k < recs.length := by
      have := (List.getElem?_eq_some_iff.1 ha).1; omega
    have hb := List.getElem?_eq_getElem hk
    exact (ih _ hb).trans (C47_monotone h hm hp htol hlin hperm hcoup hC k _ a hb ha)

/-! ## C48 -/

theorem step_perm {M : ℕ → ℕ → K} {rigid : ℕ → Prop} (h : Sound S M rigid) {o' : Opts K} {a : Rec K} (hi : StepInv S rigid a)
    (hp : o.perm.Perm (List.range S.n)) (hp' : o'.perm.Perm (List.range S.n)) (ht : o'.tol = o.tol) (he : o'.errtol = o.errtol)
    (hlin : GoodLin o.lin) (hlin' : GoodLin o'.lin) (hreg : RegularAt S o.tol a) : S.step o' a = S.step o a := by
  obtain ⟨dx, h1, h2⟩ := h.direction_perm hi hp hp' ht hlin hlin' hreg
  unfold Sys.step Sys.limiting
  rw [h1, h2, ht, he]

theorem loop_perm {M : ℕ → ℕ → K} {rigid : ℕ → Prop} (h : Sound S M rigid) {o' : Opts K}
    (hp : o.perm.Perm (List.range S.n)) (hp' : o'.perm.Perm (List.range S.n)) (ht : o'.tol = o.tol) (he : o'.errtol = o.errtol)
    (hpk : o'.packing = o.packing) (hlin : GoodLin o.lin) (hlin' : GoodLin o'.lin) (n : ℕ) (a : Rec K) (hi : StepInv S rigid a)
    (hreg : ∀ b ∈ a :: (S.loop o n a).1, Cell.lt b.rlambda o.packing = true → RegularAt S o.tol b) :
    S.loop o' n a = S.loop o n a := by
  induction n generalizing a with
  | zero => rfl
  | succ n ih =>
    unfold Sys.loop at hreg ⊢
    rw [hpk]
    split_ifs at hreg ⊢ with hl
    · rw [step_perm h hi hp hp' ht he hlin hlin' (hreg a (by simp) hl)]
      cases hs : S.step o a with
      | error e => rfl
      | ok b =>
        rw [hs] at hreg
        simp only at hreg ⊢
        obtain ⟨dx, t, s, hst⟩ := h.step hi hs
        rw [ih b hst.inv (fun c hc => hreg c (List.mem_cons_of_mem _ hc))]
    · rfl

/-- With a linear solver that finds unique solutions, and regular reduced systems at the recorded states, the result does not
depend on the permutation. -/
theorem C48_perm (h : solve mat mesh lmin lmax coupling o perm = .ok (S, recs, stop)) (hm : GoodMat mat)
    (hp : PositiveLengths mesh.rows lmin lmax) (hlin : GoodLin o.lin) (hperm : PermOf S.n perm)
    (hreg : ∀ a ∈ recs, Cell.lt a.rlambda o.packing = true → RegularAt S o.tol a)
    {perm' : Option (List ℕ)} (hperm' : PermOf S.n perm') :
    solve mat mesh lmin lmax coupling o perm' = .ok (S, recs, stop) := by
  obtain ⟨Km, cs, hK, hC, -, hrun⟩ := solve_run h
  obtain ⟨bl, hs, l, has, hpos, hc, rfl, hnK, hn, hnC, hZ, hsd, rfl⟩ := solve_sound h hm hp hK hC
  have key : (assemble Km cs).run { o with perm := perm'.getD (List.range (assemble Km cs).n) } =
      (assemble Km cs).run { o with perm := perm.getD (List.range (assemble Km cs).n) } := by
    have := loop_perm hsd (o := { o with perm := perm.getD (List.range (assemble Km cs).n) })
      (o' := { o with perm := perm'.getD (List.range (assemble Km cs).n) }) (permOf_getD hperm) (permOf_getD hperm') rfl rfl rfl
      hlin hlin o.itermax _ (hsd.inv_init _) hreg
    exact congrArg (fun r : List (Rec K) × Stop => ((assemble Km cs).init
      { o with perm := perm.getD (List.range (assemble Km cs).n) } :: r.1, r.2)) this
  unfold solve
  rw [hK, hC]
  change Except.ok (assemble Km cs, (assemble Km cs).run { o with perm := perm'.getD (List.range (assemble Km cs).n) }) = _
  rw [key, hrun]

/-! ## C54 -/

/-- The interpolated results `Interpolate(hist, size=interp_size)(t)` satisfy `C u(t) ≤ H(t) + errtol (Z(0) - Z(t))` in every row
whose recorded bounds are numbers `Hs`. -/
theorem C54_admissible (h : solve mat mesh lmin lmax coupling o perm = .ok (S, recs, stop)) (hm : GoodMat mat)
    (hp : PositiveLengths mesh.rows lmin lmax) (htol : 0 ≤ o.tol) {cs : ConstraintSys K} (hC : constraint mat mesh = .ok cs)
    (hadm : Admissible cs (fun _ => 0)) (hlen : 2 ≤ recs.length) (size : Option ℕ) (hs : ∀ k, size = some k → 2 ≤ k) {t : K}
    (h0 : 0 ≤ t) (h1 : t ≤ 1) (j : ℕ) (hj : j < cs.C.nrows) (Hs : List K)
    (hH : recs.map (fun a => a.q (2 * mesh.rows.length + j)) = Hs.map Cell.fin) :
    rowDot cs.C j (fun s => interpolate .linear (recs.map (fun a => a.x s)) size t) ≤
      interpolate .linear Hs size t + o.errtol * (interpolate .linear (recs.map (·.Z)) size 0 -
        interpolate .linear (recs.map (·.Z)) size t) := by
  obtain ⟨w, w0, w1, hw⟩ := C52_weights (K := K) .linear hlen size hs h0 h1
  have hHl : Hs.length = recs.length := by
    have := congrArg List.length hH
    simpa using this.symm
  have hZ0 : interpolate .linear (recs.map (·.Z)) size 0 = cs.Z := by
    have := (C51_ends .linear (recs.map (·.Z)) (by simpa using hlen) size hs).1
    rw [this]
    obtain ⟨-, a, ha, -, -, hz, -⟩ := C40_itermax h
    obtain ⟨Km, cs', hK, hC', hS, -⟩ := solve_run h
    rw [hC] at hC'; cases hC'
    have e : (recs[0]'(by omega)).Z = a.Z := by
      rw [List.getElem?_eq_getElem (by omega)] at ha
      rw [Option.some.inj ha]
    simp only [List.getElem_map, e, hz, hS]
    rfl
  rw [hZ0, hw Hs hHl, hw (recs.map (·.Z)) (by simp)]
  have hu : rowDot cs.C j (fun s => interpolate .linear (recs.map (fun a => a.x s)) size t) =
      ∑ k ∈ Finset.range recs.length, w k * rowDot cs.C j (fun s => (recs.map (fun a => a.x s)).getD k 0) := by
    unfold rowDot
    simp only [Finset.mul_sum]
    rw [Finset.sum_comm]
    apply Finset.sum_congr rfl
    intro s _
    rw [hw _ (by simp), Finset.mul_sum]
    apply Finset.sum_congr rfl
    intro k _
    ring
  rw [hu]
  have hsplit : ∑ k ∈ Finset.range recs.length, w k * Hs.getD k 0 + o.errtol * (cs.Z -
      ∑ k ∈ Finset.range recs.length, w k * (recs.map (·.Z)).getD k 0) =
      ∑ k ∈ Finset.range recs.length, w k * (Hs.getD k 0 + o.errtol * (cs.Z - (recs.map (·.Z)).getD k 0)) := by
    have : cs.Z = ∑ k ∈ Finset.range recs.length, w k * cs.Z := by rw [← Finset.sum_mul, w1, one_mul]
    conv_lhs => rw [this]
    rw [← Finset.sum_sub_distrib, Finset.mul_sum, ← Finset.sum_add_distrib]
    apply Finset.sum_congr rfl
    intro k _
    ring
  rw [hsplit]
  apply Finset.sum_le_sum
  intro k hk
  have hk := Finset.mem_range.1 hk
  apply mul_le_mul_of_nonneg_left _ (w0 k)
  have ha := List.getElem?_eq_getElem hk
  have := C42_admissible h hm hp htol hC hadm k recs[k] ha j hj
  have hq : (recs[k]).q (2 * mesh.rows.length + j) = .fin (Hs[k]'(by omega)) := by
    have := congrArg (fun l => l[k]?) hH
    simpa [hk, hHl] using this
  rw [hq, Cell.fin_add_fin, Cell.le_fin_iff] at this
  simpa [List.getD_eq_getElem?_getD, hk, hHl] using this

/-- The interpolated plate position does not increase with the pseudo-time. -/
theorem C54_plate (h : solve mat mesh lmin lmax coupling o perm = .ok (S, recs, stop)) (hm : GoodMat mat)
    (hp : PositiveLengths mesh.rows lmin lmax) (htol : 0 ≤ o.tol) (hlen : 2 ≤ recs.length) (size : Option ℕ)
    (hs : ∀ k, size = some k → 2 ≤ k) {t t' : K} (h0 : 0 ≤ t) (htt : t ≤ t') (h1 : t' ≤ 1) :
    interpolate .linear (recs.map (·.Z)) size t' ≤ interpolate .linear (recs.map (·.Z)) size t := by
  refine C53_antitone .linear _ (by simpa using hlen) size hs ?_ h0 htt h1
  obtain ⟨Km, cs, hK, hC, -, -⟩ := solve_run h
  obtain ⟨bl, hs, l, has, hpos, hc, -, hnK, hn, hnC, hZ, hsd, rfl⟩ := solve_sound h hm hp hK hC
  rw [List.pairwise_map, List.pairwise_iff_getElem]
  intro i j hi hj hij
  exact hsd.Z_anti (o := { o with perm := perm.getD (List.range S.n) }) htol hij.le (List.getElem?_eq_getElem hi)
    (List.getElem?_eq_getElem hj)

end Fibermat
