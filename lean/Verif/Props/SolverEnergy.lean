import Verif.Lemmas.SolverEnergy
import Verif.Props.SolverStop
import Verif.Props.Energy

/-! # Theorems on forces and energies along a compression (C67-C71)

Records of a run: `a.x r` for `r < 2 N` (`N` nodes) are the displacements `u`, `a.x (2 N + j)` the contact forces `f`. -/

set_option linter.unusedSectionVars false
set_option linter.unusedSimpArgs false

namespace Fibermat
variable {K : Type} [Field K] [LinearOrder K] [IsStrictOrderedRing K]
open Spec

variable {mat : Mat K} {mesh : Mesh K} {lmin lmax : Option K} {coupling : K} {o : Opts K} {perm : Option (List ℕ)}
  {S : Sys K} {recs : List (Rec K)} {stop : Stop}

/-! ## C67 -/

/-- A motion without elastic reaction makes no work against the contact forces. -/
theorem free_work (h : solve mat mesh lmin lmax coupling o perm = .ok (S, recs, stop)) (hm : GoodMat mat)
    (hp : PositiveLengths mesh.rows lmin lmax) (htol : 0 ≤ o.tol) (hlin : ExactLin o.lin) (hperm : PermOf S.n perm)
    {cs : ConstraintSys K} (hC : constraint mat mesh = .ok cs) {k : ℕ} {a : Rec K} (ha : recs[k]? = some a) (v : ℕ → K)
    (hv : ∀ (Km : Coo (Cell K)) (bl : List (Beam K × K)), stiffness mat mesh lmin lmax coupling = .ok Km →
      Assembled mat mesh.rows coupling Km bl → (lmin = none → lmax = none → ∀ p ∈ bl, p.2 = p.1.l) →
      (∀ r, Frozen bl r → v r = 0) ∧
      ∀ r, ∑ s ∈ Finset.range (2 * mesh.rows.length), table mesh.rows coupling bl r s * v s = 0) :
    ∑ j ∈ Finset.range cs.C.nrows, rowDot cs.C j v * a.x (2 * mesh.rows.length + j) = 0 := by
  obtain ⟨Km, -, hK, -, -, -⟩ := solve_run h
  obtain ⟨Km', cs', h1, h2, rfl, hr⟩ := solve_run h
  rw [hC] at h2; cases h2
  obtain ⟨bl, has, hpos, hraw⟩ := assembled h1
  obtain ⟨hs, l, hc⟩ := contacts_of hC
  obtain ⟨v1, v2⟩ := hv Km' bl h1 has hraw
  have hN : Km'.nrows = 2 * mesh.rows.length := by rw [has.eq]
  have hl : cs.C.nrows = 3 * l.length := by rw [hc.C]
  have hn : (assemble Km' cs).n = 2 * mesh.rows.length + cs.C.nrows := by unfold Sys.n assemble; simp only [hN, hl]
  have hsd := assemble_sound has hm (hpos hp) hc
  have ha : ((assemble Km' cs).run { o with perm := perm.getD (List.range (assemble Km' cs).n) }).1[k]? = some a := by
    rw [hr]; exact ha
  have := virtual_work (T := table mesh.rows coupling bl) (C := cs.C) (rigid := Frozen bl) hn (by rw [hc.C]) (y := a.x) (v := v)
    (fun r hr hg => hsd.balance_exact (o := { o with perm := perm.getD (List.range (assemble Km' cs).n) }) hlin
      (permOf_getD hperm) htol (by change r < Km'.nrows; omega) hg ha) v1
  rw [bilin_symm _ (table_symm _ _ _)] at this
  simp only [v2, mul_zero, Finset.sum_const_zero] at this
  linarith

/-- A sum over components, node by node. -/
theorem sum_dofs (n : ℕ) (f : ℕ → K) :
    ∑ s ∈ Finset.range (2 * n), f s = ∑ i ∈ Finset.range n, (f (2 * i) + f (2 * i + 1)) := by
  induction n with
  | zero => simp
  | succ n ih =>
    rw [show 2 * (n + 1) = 2 * n + 1 + 1 by ring, Finset.sum_range_succ, Finset.sum_range_succ, ih, Finset.sum_range_succ]
    ring

/-- Constraints do not involve rotations. -/
theorem Contacts.odd {rows : List (MeshRow K)} {cs : ConstraintSys K} {hs : List K} {l : List (Contact K)}
    (hc : Contacts mat rows cs hs l) {j i : ℕ} (hj : j < cs.C.nrows) (hi : i < rows.length) : cs.C.get j (2 * i + 1) = 0 := by
  rw [hc.C] at hj
  simp only at hj
  obtain ⟨q, d, hd, rfl⟩ : ∃ q d, d < 3 ∧ j = 3 * q + d := ⟨j / 3, j % 3, by omega, by omega⟩
  have hq : l[q]? = some l[q] := List.getElem?_eq_getElem (by omega)
  rw [hc.entry hq hd (by omega)]
  have z1 : ¬ (2 * l[q].i = 2 * i + 1) := by omega
  have z2 : ¬ (2 * l[q].j = 2 * i + 1) := by omega
  simp [z1, z2]

/-- Work of the contact forces in a motion of the nodes `A`. -/
theorem Contacts.work {rows : List (MeshRow K)} {cs : ConstraintSys K} {hs : List K} {l : List (Contact K)}
    (hc : Contacts mat rows cs hs l) {A : Finset ℕ} (hA : ∀ i ∈ A, i < rows.length) (g v f : ℕ → K)
    (hg : ∀ i, i < rows.length → v (2 * i) = open Classical in if i ∈ A then g i else 0) :
    ∑ j ∈ Finset.range cs.C.nrows, rowDot cs.C j v * f j = - ∑ i ∈ A, g i * contactForce cs.C f i := by
  classical
  have e : ∀ j ∈ Finset.range cs.C.nrows, rowDot cs.C j v * f j = ∑ i ∈ A, g i * (cs.C.get j (2 * i) * f j) := by
    intro j hj
    have hj := Finset.mem_range.1 hj
    unfold rowDot
    have hcols : cs.C.ncols = 2 * rows.length := by rw [hc.C]
    rw [hcols, sum_dofs, Finset.sum_mul]
    have hsub : A ⊆ Finset.range rows.length := fun i hi => Finset.mem_range.2 (hA i hi)
    rw [← Finset.sum_subset hsub (f := fun i => (cs.C.get j (2 * i) * v (2 * i) + cs.C.get j (2 * i + 1) * v (2 * i + 1)) * f j)]
    · apply Finset.sum_congr rfl
      intro i hi
      rw [hc.odd hj (hA i hi), hg i (hA i hi), if_pos hi]; ring
    · intro i hi hn
      rw [hc.odd hj (Finset.mem_range.1 hi), hg i (Finset.mem_range.1 hi), if_neg hn]; ring
  rw [Finset.sum_congr rfl e, Finset.sum_comm, ← Finset.sum_neg_distrib]
  apply Finset.sum_congr rfl
  intro i _
  unfold contactForce
  rw [mul_neg, neg_neg, Finset.mul_sum]

theorem nodesOf_lt {rows : List (MeshRow K)} {k : Int} {i : ℕ} (hi : i ∈ nodesOf rows k) : i < rows.length := by
  simp only [nodesOf, Finset.mem_filter, Finset.mem_range] at hi
  exact hi.1

/-- With an exact linear solver the contact forces on each fiber add up to zero. -/
theorem C67_fiber (h : solve mat mesh lmin lmax coupling o perm = .ok (S, recs, stop)) (hm : GoodMat mat)
    (hv : ValidMesh mesh.frame) (hp : PositiveLengths mesh.rows lmin lmax) (htol : 0 ≤ o.tol) (hlin : ExactLin o.lin)
    (hperm : PermOf S.n perm) {cs : ConstraintSys K} (hC : constraint mat mesh = .ok cs) (k : ℕ) (a : Rec K)
    (ha : recs[k]? = some a) (m : Int) :
    ∑ i ∈ nodesOf mesh.rows m, contactForce cs.C (fun j => a.x (2 * mesh.rows.length + j)) i = 0 := by
  classical
  have hbeams : BeamsCyclic mesh.rows := by have := hv.beams; rwa [rows_meshFrame] at this
  have hw := free_work h hm hp htol hlin hperm hC ha (fun s => if s % 2 = 0 ∧ s / 2 ∈ nodesOf mesh.rows m then 1 else 0) (by
    intro Km bl hK has _
    refine ⟨?_, has.row _ ?_⟩
    · rintro r ⟨p, -, -, h | h⟩ <;> (subst h; rw [if_neg]; omega)
    · intro p hpm u
      refine (beam_bilin _ _ _ _ _ _ u (fun s => if s % 2 = 0 ∧ s / 2 ∈ nodesOf mesh.rows m then 1 else 0)).trans ?_
      have hiff := beam_mem_iff hbeams (has.beam p hpm) m
      have e1 : (2 * p.1.i + 1) % 2 ≠ 0 := by omega
      have e2 : (2 * p.1.j + 1) % 2 ≠ 0 := by omega
      have e3 : (2 * p.1.i) % 2 = 0 := by omega
      have e4 : (2 * p.1.j) % 2 = 0 := by omega
      have e5 : (2 * p.1.i) / 2 = p.1.i := by omega
      have e6 : (2 * p.1.j) / 2 = p.1.j := by omega
      simp only [e1, e2, e3, e4, e5, e6, false_and, true_and, if_false, ← hiff]
      ring)
  obtain ⟨hs, l, hc⟩ := contacts_of hC
  rw [hc.work (A := nodesOf mesh.rows m) (fun i hi => nodesOf_lt hi) (fun _ => 1) _
    (fun j => a.x (2 * mesh.rows.length + j)) (by
      intro i _
      have e3 : (2 * i) % 2 = 0 := by omega
      have e5 : (2 * i) / 2 = i := by omega
      simp only [e3, e5, true_and])] at hw
  simpa using hw

/-- The force on the floor equals the force on the upper plate. -/
theorem C67_plates (h : solve mat mesh lmin lmax coupling o perm = .ok (S, recs, stop)) (hm : GoodMat mat)
    (hp : PositiveLengths mesh.rows lmin lmax) (htol : 0 ≤ o.tol) (hlin : ExactLin o.lin)
    (hperm : PermOf S.n perm) {cs : ConstraintSys K} (hC : constraint mat mesh = .ok cs) (k : ℕ) (a : Rec K)
    (ha : recs[k]? = some a) :
    totalForce cs.C (fun j => a.x (2 * mesh.rows.length + j)) 0 =
      totalForce cs.C (fun j => a.x (2 * mesh.rows.length + j)) 2 := by
  have hw := free_work h hm hp htol hlin hperm hC ha (fun s => if s % 2 = 0 then 1 else 0) (by
    intro Km bl hK has _
    refine ⟨?_, has.row _ ?_⟩
    · rintro r ⟨p, -, -, h | h⟩ <;> (subst h; rw [if_neg]; omega)
    · intro p hpm u
      refine (beam_bilin _ _ _ _ _ _ u (fun s => if s % 2 = 0 then 1 else 0)).trans ?_
      have e1 : (2 * p.1.i + 1) % 2 ≠ 0 := by omega
      have e2 : (2 * p.1.j + 1) % 2 ≠ 0 := by omega
      have e3 : (2 * p.1.i) % 2 = 0 := by omega
      have e4 : (2 * p.1.j) % 2 = 0 := by omega
      simp only [e1, e2, e3, e4, if_true, if_false]
      ring)
  obtain ⟨hs, l, hc⟩ := contacts_of hC
  have hnr : cs.C.nrows = 3 * l.length := by rw [hc.C]
  suffices key : totalForce cs.C (fun j => a.x (2 * mesh.rows.length + j)) 2 -
      totalForce cs.C (fun j => a.x (2 * mesh.rows.length + j)) 0 =
      ∑ j ∈ Finset.range cs.C.nrows, rowDot cs.C j (fun s => if s % 2 = 0 then 1 else 0) * a.x (2 * mesh.rows.length + j) by
    rw [hw] at key; linarith
  unfold totalForce
  rw [← Finset.sum_sub_distrib]
  apply Finset.sum_congr rfl
  intro j hj
  have hj := Finset.mem_range.1 hj
  obtain ⟨q, d, hd, rfl⟩ : ∃ q d, d < 3 ∧ j = 3 * q + d := ⟨j / 3, j % 3, by omega, by omega⟩
  have hq : l[q]? = some l[q] := List.getElem?_eq_getElem (by omega)
  rw [hc.row hq hd]
  have e1 : (2 * l[q].i) % 2 = 0 := by omega
  have e2 : (2 * l[q].j) % 2 = 0 := by omega
  have e3 : (3 * q + d) % 3 = d := by omega
  simp only [e1, e2, e3, if_true, sub_self]
  interval_cases d <;> simp

/-- With `coupling = 1`, unchanged beam lengths and a finite tensile modulus, the moments of the contact forces on a fiber add up to
zero. -/
theorem C67_moment (h : solve mat mesh none none 1 o perm = .ok (S, recs, stop)) (hm : GoodMat mat)
    (hv : ValidMesh mesh.frame) (hp : PositiveLengths mesh.rows none none) (htol : 0 ≤ o.tol) (hlin : ExactLin o.lin)
    (hperm : PermOf S.n perm) {cs : ConstraintSys K} (hC : constraint mat mesh = .ok cs) (k : ℕ) (a : Rec K)
    (ha : recs[k]? = some a) (m : ℕ) (f : Fiber K) (hf : mat.fibers[m]? = some f) (hE : f.E ≠ ⊤) :
    ∑ i ∈ nodesOf mesh.rows m, abscissa mesh.rows i *
      contactForce cs.C (fun j => a.x (2 * mesh.rows.length + j)) i = 0 := by
  classical
  have hbeams : BeamsCyclic mesh.rows := by have := hv.beams; rwa [rows_meshFrame] at this
  have hw := free_work h hm hp htol hlin hperm hC ha
    (fun s => if s / 2 ∈ nodesOf mesh.rows m then (if s % 2 = 0 then abscissa mesh.rows (s / 2) else 1) else 0) (by
    intro Km bl hK has hraw
    have hiff := fun p hpm => beam_mem_iff hbeams (has.beam p hpm) m
    have hd : ∀ i : ℕ, (2 * i + 1) / 2 = i ∧ (2 * i) / 2 = i ∧ (2 * i) % 2 = 0 ∧ (2 * i + 1) % 2 ≠ 0 := fun i => by omega
    refine ⟨?_, has.row _ ?_⟩
    · rintro r ⟨p, hpm, hEp, hr⟩
      have hnot : p.1.i ∉ nodesOf mesh.rows m := by
        intro hmem
        obtain ⟨r0, q0, h1, h2, -, -, -, hf'⟩ := (has.beam p hpm).rows
        simp only [nodesOf, Finset.mem_filter, Finset.mem_range] at hmem
        obtain ⟨-, r1, hr1, hm1⟩ := hmem
        rw [h1] at hr1; cases hr1
        rw [hm1] at hf'
        simp only [Int.toNat_natCast] at hf'
        rw [hf] at hf'; cases hf'
        exact hE hEp
      rcases hr with hr | hr
      · subst hr; simp only [(hd _).1, hnot, if_false]
      · subst hr; simp only [(hd _).1]; rw [if_neg]; exact fun hh => hnot ((hiff p hpm).2 hh)
    · intro p hpm u
      refine (beam_bilin _ _ _ _ _ _ u (fun s => if s / 2 ∈ nodesOf mesh.rows m then
        (if s % 2 = 0 then abscissa mesh.rows (s / 2) else 1) else 0)).trans ?_
      obtain ⟨r, q, h1, h2, -, hl, -⟩ := (has.beam p hpm).rows
      have hl' : abscissa mesh.rows p.1.j = abscissa mesh.rows p.1.i + p.2 := by
        rw [hraw rfl rfl p hpm, hl]; simp [abscissa, h1, h2]
      simp only [(hd _).1, (hd _).2.1, (hd _).2.2.1, (hd _).2.2.2, if_true, if_false, ← hiff p hpm]
      split_ifs with hk
      · rw [hl']; ring
      · ring)
  obtain ⟨hs, l, hc⟩ := contacts_of hC
  rw [hc.work (A := nodesOf mesh.rows m) (fun i hi => nodesOf_lt hi) (fun i => abscissa mesh.rows i) _
    (fun j => a.x (2 * mesh.rows.length + j)) (by
      intro i _
      have e3 : (2 * i) % 2 = 0 := by omega
      have e5 : (2 * i) / 2 = i := by omega
      simp only [e3, e5, if_true])] at hw
  simpa using hw

/-! ## C68 -/

section
variable {Km : Coo (Cell K)} {bl : List (Beam K × K)} {cs : ConstraintSys K} {hs : List K} {l : List (Contact K)} {T : ℕ → ℕ → K}

/-- Increments of the rows whose unknown does not vanish. -/
theorem dir_rate {N : ℕ} {rigid : ℕ → Prop} (hc : Contacts mat mesh.rows cs hs l) (hN : Km.nrows = 2 * mesh.rows.length)
    (hsd : Sound (assemble Km cs) (wholeTable (2 * mesh.rows.length) T cs.C) rigid)
    (hn : (assemble Km cs).n = 2 * mesh.rows.length + 3 * l.length)
    (hlin : ExactLin o.lin) (hp : o.perm.Perm (List.range (assemble Km cs).n)) {a : Rec K} (hi : StepInv (assemble Km cs) rigid a)
    {dx : ℕ → K} (hd : (assemble Km cs).direction o a = some dx) (f : ℕ → K)
    (hf : ∀ j, j < 3 * l.length → f j ≠ 0 → (assemble Km cs).active o.tol a.x a.q (2 * mesh.rows.length + j) = true) :
    ∑ j ∈ Finset.range (3 * l.length), rowDot cs.C j dx * f j =
      ∑ j ∈ Finset.range (3 * l.length), if j % 3 = 2 then f j else 0 := by
  apply Finset.sum_congr rfl
  intro j hj
  have hj := Finset.mem_range.1 hj
  by_cases h0 : f j = 0
  · simp [h0]
  · have hact := hf j hj h0
    have := hsd.exact hlin hp hi hd _ (by omega) hact
    rw [apply_constraint hn (by rw [hc.C])] at this
    have e : (assemble Km cs).dq (2 * mesh.rows.length + j) = if j % 3 = 2 then 1 else 0 := by
      rw [← hc.incr hj]; simp [assemble, hN]
    rw [this, e]
    split_ifs <;> simp

/-- Power of the plate during an exact step: forces, force rates and energy of the direction. -/
theorem step_power (hc : Contacts mat mesh.rows cs hs l) (hN : Km.nrows = 2 * mesh.rows.length)
    (hT : ∀ r s, T r s = T s r) {rigid : ℕ → Prop}
    (hsd : Sound (assemble Km cs) (wholeTable (2 * mesh.rows.length) T cs.C) rigid)
    (hn : (assemble Km cs).n = 2 * mesh.rows.length + 3 * l.length) (htol : 0 ≤ o.tol)
    (hlin : ExactLin o.lin) (hp : o.perm.Perm (List.range (assemble Km cs).n)) {k : ℕ} {a : Rec K}
    (ha : ((assemble Km cs).run o).1[k]? = some a)
    {dx : ℕ → K} (hd : (assemble Km cs).direction o a = some dx) :
    (∑ r ∈ Finset.range (2 * mesh.rows.length), dx r * ∑ s ∈ Finset.range (2 * mesh.rows.length), T r s * a.x s =
      - ∑ j ∈ Finset.range (3 * l.length), if j % 3 = 2 then a.x (2 * mesh.rows.length + j) else 0) ∧
    energy (2 * mesh.rows.length) T dx =
      - ∑ j ∈ Finset.range (3 * l.length), if j % 3 = 2 then dx (2 * mesh.rows.length + j) else 0 := by
  have hi := hsd.inv ha
  have hcols : cs.C.ncols = 2 * mesh.rows.length := by rw [hc.C]
  have hnK : (assemble Km cs).nK = 2 * mesh.rows.length := hN
  have hfr : ∀ r, rigid r → dx r = 0 := fun r hr => hsd.dir_frozen hi hd hr
  constructor
  · rw [virtual_work hn hcols (fun r hr hg => hsd.balance_exact hlin hp htol (by omega) hg ha) hfr]
    rw [dir_rate (N := 0) hc hN hsd hn hlin hp hi hd (fun j => a.x (2 * mesh.rows.length + j))]
    intro j hj h0
    exact hsd.support hlin hp (by omega) ha h0
  · rw [energy_eq_bilin, virtual_work hn hcols (fun r hr hg => hsd.dir_balance hlin hp htol ha hd (by omega) hg) hfr]
    rw [dir_rate (N := 0) hc hN hsd hn hlin hp hi hd (fun j => dx (2 * mesh.rows.length + j))]
    intro j hj h0
    by_contra hcon
    exact h0 (direction_zero hd (by simpa using hcon))

end

/-- Change of the force on the plate during a step. -/
theorem totalForce_step {C : Coo K} {N : ℕ} {a b : Rec K} {dx : ℕ → K} {t : K} (hx : ∀ r, b.x r = a.x r - dx r * t) :
    totalForce C (fun j => b.x (N + j)) 2 = totalForce C (fun j => a.x (N + j)) 2 -
      t * ∑ j ∈ Finset.range C.nrows, if j % 3 = 2 then dx (N + j) else 0 := by
  unfold totalForce
  rw [Finset.mul_sum, ← Finset.sum_sub_distrib]
  apply Finset.sum_congr rfl
  intro j _
  simp only [hx]
  split_ifs <;> ring

/-- The elastic energy gained in a step is the work of the plate: mean force times displacement.  (`elasticEnergy` is twice the
energy.) -/
theorem C68_work (h : solve mat mesh lmin lmax coupling o perm = .ok (S, recs, stop)) (hm : GoodMat mat)
    (hp : PositiveLengths mesh.rows lmin lmax) (htol : 0 ≤ o.tol) (hlin : ExactLin o.lin)
    (hperm : PermOf S.n perm) {cs : ConstraintSys K} (hC : constraint mat mesh = .ok cs) {L : ℕ → K}
    (hL : BeamLengths mesh.rows lmin lmax L) (k : ℕ) (a b : Rec K) (ha : recs[k]? = some a) (hb : recs[k + 1]? = some b) :
    elasticEnergy mat mesh.rows coupling L b.x - elasticEnergy mat mesh.rows coupling L a.x =
      (totalForce cs.C (fun j => a.x (2 * mesh.rows.length + j)) 2 +
        totalForce cs.C (fun j => b.x (2 * mesh.rows.length + j)) 2) * (a.Z - b.Z) := by
  obtain ⟨Km, bl, hs, l, has, hpos, hbl, hc, rfl, hN, hnK, hn, hnC, hcols, hZ, hsd, rfl⟩ := solve_lengths h hm hp hC
  obtain ⟨dx, t, s, hst⟩ := hsd.next ha hb
  rw [← has.energy_doc hm hpos ((hbl L).1 hL), ← has.energy_doc hm hpos ((hbl L).1 hL)]
  have hsym := table_symm mesh.rows coupling bl
  obtain ⟨h1, h2⟩ := step_power (o := { o with perm := perm.getD (List.range (assemble Km cs).n) }) hc hN hsym hsd hn htol hlin
    (permOf_getD hperm) ha hst.dir
  have eb : energy (2 * mesh.rows.length) (table mesh.rows coupling bl) b.x =
      energy (2 * mesh.rows.length) (table mesh.rows coupling bl) (fun r => a.x r + (-t) * dx r) := by
    congr 1
    funext r
    rw [hst.x]; ring
  have e2 : ∑ r ∈ Finset.range (2 * mesh.rows.length), (-t) * dx r * ∑ s ∈ Finset.range (2 * mesh.rows.length),
      table mesh.rows coupling bl r s * a.x s = (-t) * ∑ r ∈ Finset.range (2 * mesh.rows.length), dx r *
        ∑ s ∈ Finset.range (2 * mesh.rows.length), table mesh.rows coupling bl r s * a.x s := by
    rw [Finset.mul_sum]
    apply Finset.sum_congr rfl
    intro r _
    ring
  rw [eb, energy_add _ hsym, energy_smul, e2, h1, h2, totalForce_step (C := cs.C) hst.x, hst.Z, hnC]
  unfold totalForce
  rw [hnC]
  ring

/-- The elastic energy is never negative and never decreases (`|coupling| ≤ 1`). -/
theorem C68_energy (h : solve mat mesh lmin lmax coupling o perm = .ok (S, recs, stop)) (hm : GoodMat mat)
    (hp : PositiveLengths mesh.rows lmin lmax) (htol : 0 ≤ o.tol) (hlin : ExactLin o.lin)
    (hperm : PermOf S.n perm) (hcoup : |coupling| ≤ 1) {L : ℕ → K}
    (hL : BeamLengths mesh.rows lmin lmax L) (k : ℕ) (a b : Rec K) (ha : recs[k]? = some a) (hb : recs[k + 1]? = some b) :
    0 ≤ elasticEnergy mat mesh.rows coupling L a.x ∧
      elasticEnergy mat mesh.rows coupling L a.x ≤ elasticEnergy mat mesh.rows coupling L b.x := by
  obtain ⟨Km, cs, hK, hC, -, -⟩ := solve_run h
  have hw := C68_work h hm hp htol hlin hperm hC hL k a b ha hb
  have h1 := C47_nonneg h hm hp htol hlin hperm hcoup hC k a ha
  have h2 := C47_nonneg h hm hp htol hlin hperm hcoup hC (k + 1) b hb
  have h3 := C41_down h hm hp htol k a b ha hb
  constructor
  · obtain ⟨Km, bl, hs, l, has, hpos, hbl, hc, rfl, hN, hnK, hn, hnC, hcols, hZ, hsd, rfl⟩ := solve_lengths h hm hp hC
    rw [← has.energy_doc hm hpos ((hbl L).1 hL), has.energy_eq]
    apply List.sum_nonneg
    intro x hx
    obtain ⟨p, hpm, rfl⟩ := List.mem_map.1 hx
    exact beamEnergy_nonneg hcoup _ (has.solid hm p hpm) (hpos p hpm)
  · have : 0 ≤ (totalForce cs.C (fun j => a.x (2 * mesh.rows.length + j)) 2 +
        totalForce cs.C (fun j => b.x (2 * mesh.rows.length + j)) 2) * (a.Z - b.Z) :=
      mul_nonneg (add_nonneg h1 h2) (by linarith)
    linarith

/-! ## C69 -/

/-- The mat stiffens: the slope of the curve force against plate displacement never decreases. -/
theorem C69_stiffening (h : solve mat mesh lmin lmax coupling o perm = .ok (S, recs, stop)) (hm : GoodMat mat)
    (hp : PositiveLengths mesh.rows lmin lmax) (htol : 0 ≤ o.tol) (hlin : ExactLin o.lin)
    (hperm : PermOf S.n perm) (hcoup : |coupling| ≤ 1) {cs : ConstraintSys K} (hC : constraint mat mesh = .ok cs)
    (k : ℕ) (a b c : Rec K) (ha : recs[k]? = some a) (hb : recs[k + 1]? = some b) (hc' : recs[k + 2]? = some c) :
    (totalForce cs.C (fun j => b.x (2 * mesh.rows.length + j)) 2 -
      totalForce cs.C (fun j => a.x (2 * mesh.rows.length + j)) 2) / (a.Z - b.Z) ≤
    (totalForce cs.C (fun j => c.x (2 * mesh.rows.length + j)) 2 -
      totalForce cs.C (fun j => b.x (2 * mesh.rows.length + j)) 2) / (b.Z - c.Z) := by
  obtain ⟨Km, bl, hs, l, has, hpos, hbl, hc, rfl, hN, hnK, hn, hnC, hcols, hZ, hsd, rfl⟩ := solve_lengths h hm hp hC
  set o' : Opts K := { o with perm := perm.getD (List.range (assemble Km cs).n) } with ho'
  have hpm := permOf_getD hperm
  obtain ⟨dx, t, s, hst⟩ := hsd.next ha hb
  obtain ⟨dy, t', s', hst'⟩ := hsd.next hb hc'
  have hsym := table_symm mesh.rows coupling bl
  have hi := hsd.inv ha
  have hi' := hsd.inv hb
  have ht := hst.pos htol
  have ht' := hst'.pos htol
  obtain ⟨-, p1⟩ := step_power (o := o') hc hN hsym hsd hn htol hlin hpm ha hst.dir
  obtain ⟨-, p2⟩ := step_power (o := o') hc hN hsym hsd hn htol hlin hpm hb hst'.dir
  have s1 : (totalForce cs.C (fun j => b.x (2 * mesh.rows.length + j)) 2 -
      totalForce cs.C (fun j => a.x (2 * mesh.rows.length + j)) 2) / (a.Z - b.Z) =
      energy (2 * mesh.rows.length) (table mesh.rows coupling bl) dx := by
    rw [totalForce_step (C := cs.C) hst.x, hst.Z, p1, hnC, div_eq_iff (by linarith)]; ring
  have s2 : (totalForce cs.C (fun j => c.x (2 * mesh.rows.length + j)) 2 -
      totalForce cs.C (fun j => b.x (2 * mesh.rows.length + j)) 2) / (b.Z - c.Z) =
      energy (2 * mesh.rows.length) (table mesh.rows coupling bl) dy := by
    rw [totalForce_step (C := cs.C) hst'.x, hst'.Z, p2, hnC, div_eq_iff (by linarith)]; ring
  rw [s1, s2]
  have e : energy (2 * mesh.rows.length) (table mesh.rows coupling bl) dy =
      energy (2 * mesh.rows.length) (table mesh.rows coupling bl) (fun r => dx r + (dy r - dx r)) := by
    congr 1; funext r; ring
  have hz : ∑ r ∈ Finset.range (2 * mesh.rows.length), (dy r - dx r) * ∑ s ∈ Finset.range (2 * mesh.rows.length),
      table mesh.rows coupling bl r s * dx s = 0 := by
    rw [virtual_work (S := assemble Km cs) (rigid := Frozen bl) hn hcols
      (fun r hr hg => hsd.dir_balance (o := o') hlin hpm htol ha hst.dir (by omega) hg)
      (fun r hr => by
        rw [hsd.dir_frozen hi hst.dir hr, hsd.dir_frozen hi' hst'.dir hr, sub_self])]
    rw [neg_eq_zero]
    apply Finset.sum_eq_zero
    intro j hj
    have hj := Finset.mem_range.1 hj
    by_cases h0 : dx (2 * mesh.rows.length + j) = 0
    · rw [h0, mul_zero]
    · have hact : (assemble Km cs).active o'.tol a.x a.q (2 * mesh.rows.length + j) = true := by
        by_contra hcon
        exact h0 (direction_zero hst.dir (by simpa using hcon))
      have hact' := hst.stays (o := o') hsd hlin hpm hi (by omega) hact
      have q1 := hsd.exact (o := o') hlin hpm hi hst.dir _ (by omega) hact
      have q2 := hsd.exact (o := o') hlin hpm hi' hst'.dir _ (by omega) hact'
      rw [apply_constraint hn hcols] at q1 q2
      have : rowDot cs.C j (fun r => dy r - dx r) = rowDot cs.C j dy - rowDot cs.C j dx := by
        unfold rowDot
        rw [← Finset.sum_sub_distrib]
        apply Finset.sum_congr rfl
        intro s _
        ring
      rw [this, q1, q2, sub_self, zero_mul]
  rw [e, energy_add _ hsym, hz, mul_zero, add_zero]
  have hnn : 0 ≤ energy (2 * mesh.rows.length) (table mesh.rows coupling bl) (fun r => dy r - dx r) := by
    rw [has.energy_eq]
    apply List.sum_nonneg
    intro x hx
    obtain ⟨p, hpm, rfl⟩ := List.mem_map.1 hx
    exact beamEnergy_nonneg hcoup _ (has.solid hm p hpm) (hpos p hpm)
  linarith

/-! ## C70 -/

theorem Assembled.guided {rows : List (MeshRow K)} {c : K} {Km : Coo (Cell K)} {bl : List (Beam K × K)}
    (has : Assembled mat rows c Km bl) (hbeams : BeamsCyclic rows) {w : ℕ → K} :
    Guided mat rows w ↔ ∀ r, Frozen bl r → w r = 0 := by
  have hboth : ∀ p ∈ bl, (OnBeam rows p.1.i ∧ nodeFiber mat rows p.1.i = some p.1.fiber) ∧
      (OnBeam rows p.1.j ∧ nodeFiber mat rows p.1.j = some p.1.fiber) := by
    intro p hpm
    obtain ⟨d1, d2, d3⟩ := (has.beam p hpm).data
    refine ⟨⟨Or.inl d1, d3⟩, ⟨Or.inr ⟨_, d1, d2⟩, ?_⟩⟩
    obtain ⟨r, q, h1, h2, h3, -, -, hf⟩ := (has.beam p hpm).rows
    obtain ⟨-, q', hq', hfib⟩ := beam_next hbeams h1 h3 (has.beam p hpm).lt
    rw [h2] at hq'; cases hq'
    simp [nodeFiber, h2, hfib, hf]
  constructor
  · rintro hg r ⟨p, hpm, hE, hr | hr⟩
    · rw [hr]; exact hg _ _ (hboth p hpm).1.2 hE (hboth p hpm).1.1
    · rw [hr]; exact hg _ _ (hboth p hpm).2.2 hE (hboth p hpm).2.1
  · intro hfr i f hf hE hon
    apply hfr
    have : ∃ p ∈ bl, i = p.1.i ∨ i = p.1.j := by
      rcases hon with hst | ⟨k, hst, rfl⟩
      · obtain ⟨p, hpm, rfl⟩ := has.all i hst
        exact ⟨p, hpm, Or.inl rfl⟩
      · obtain ⟨p, hpm, rfl⟩ := has.all k hst
        exact ⟨p, hpm, Or.inr (has.beam p hpm).data.2.1⟩
    obtain ⟨p, hpm, h1 | h1⟩ := this
    · subst h1
      have := (hboth p hpm).1.2
      rw [hf] at this; cases this
      exact ⟨p, hpm, hE, Or.inl rfl⟩
    · subst h1
      have := (hboth p hpm).2.2
      rw [hf] at this; cases this
      exact ⟨p, hpm, hE, Or.inr rfl⟩

/-- Energy of another displacement compared to the recorded one. -/
theorem energy_compare (h : solve mat mesh lmin lmax coupling o perm = .ok (S, recs, stop)) (hm : GoodMat mat)
    (hv : ValidMesh mesh.frame) (hp : PositiveLengths mesh.rows lmin lmax) (htol : 0 ≤ o.tol) (hlin : ExactLin o.lin)
    (hperm : PermOf S.n perm) (hcoup : |coupling| ≤ 1) {cs : ConstraintSys K} (hC : constraint mat mesh = .ok cs) {L : ℕ → K}
    (hL : BeamLengths mesh.rows lmin lmax L) {k : ℕ} {a : Rec K} (ha : recs[k]? = some a) {w : ℕ → K}
    (hw : Guided mat mesh.rows w) :
    elasticEnergy mat mesh.rows coupling L a.x - 2 * ∑ j ∈ Finset.range cs.C.nrows,
      (rowDot cs.C j w - rowDot cs.C j a.x) * a.x (2 * mesh.rows.length + j) ≤ elasticEnergy mat mesh.rows coupling L w := by
  have hbeams : BeamsCyclic mesh.rows := by have := hv.beams; rwa [rows_meshFrame] at this
  obtain ⟨Km, bl, hs, l, has, hpos, hbl, hc, rfl, hN, hnK, hn, hnC, hcols, hZ, hsd, rfl⟩ := solve_lengths h hm hp hC
  have hsym := table_symm mesh.rows coupling bl
  rw [← has.energy_doc hm hpos ((hbl L).1 hL), ← has.energy_doc hm hpos ((hbl L).1 hL), hnC]
  have hi := hsd.inv ha
  have e : energy (2 * mesh.rows.length) (table mesh.rows coupling bl) w =
      energy (2 * mesh.rows.length) (table mesh.rows coupling bl) (fun r => a.x r + (w r - a.x r)) := by
    congr 1; funext r; ring
  have hz := virtual_work (S := assemble Km cs) (T := table mesh.rows coupling bl) (y := a.x) (v := fun r => w r - a.x r)
    (rigid := Frozen bl) hn hcols
    (fun r hr hg => hsd.balance_exact (o := { o with perm := perm.getD (List.range (assemble Km cs).n) }) hlin
      (permOf_getD hperm) htol (by omega) hg ha)
    (fun r hr => by rw [(has.guided hbeams).1 hw r hr, hi.frozen r hr, sub_self])
  have hdot : ∀ j, rowDot cs.C j (fun r => w r - a.x r) = rowDot cs.C j w - rowDot cs.C j a.x := by
    intro j
    unfold rowDot
    rw [← Finset.sum_sub_distrib]
    apply Finset.sum_congr rfl
    intro s _
    ring
  simp only [hdot] at hz
  rw [e, energy_add _ hsym, hz]
  have hnn : 0 ≤ energy (2 * mesh.rows.length) (table mesh.rows coupling bl) (fun r => w r - a.x r) := by
    rw [has.energy_eq]
    apply List.sum_nonneg
    intro x hx
    obtain ⟨p, hpm, rfl⟩ := List.mem_map.1 hx
    exact beamEnergy_nonneg hcoup _ (has.solid hm p hpm) (hpos p hpm)
  linarith

/-- The recorded displacements have the least elastic energy among all displacements with the same gaps at the loaded contacts. -/
theorem C70_least_energy (h : solve mat mesh lmin lmax coupling o perm = .ok (S, recs, stop)) (hm : GoodMat mat)
    (hv : ValidMesh mesh.frame) (hp : PositiveLengths mesh.rows lmin lmax) (htol : 0 ≤ o.tol) (hlin : ExactLin o.lin)
    (hperm : PermOf S.n perm) (hcoup : |coupling| ≤ 1) {cs : ConstraintSys K} (hC : constraint mat mesh = .ok cs) {L : ℕ → K}
    (hL : BeamLengths mesh.rows lmin lmax L) (k : ℕ) (a : Rec K) (ha : recs[k]? = some a) (w : ℕ → K)
    (hw : Guided mat mesh.rows w)
    (hsame : ∀ j, j < cs.C.nrows → a.x (2 * mesh.rows.length + j) ≠ 0 → rowDot cs.C j w = rowDot cs.C j a.x) :
    elasticEnergy mat mesh.rows coupling L a.x ≤ elasticEnergy mat mesh.rows coupling L w := by
  have := energy_compare h hm hv hp htol hlin hperm hcoup hC hL ha hw
  rw [Finset.sum_eq_zero] at this
  · linarith
  · intro j hj
    by_cases h0 : a.x (2 * mesh.rows.length + j) = 0
    · rw [h0, mul_zero]
    · rw [hsame j (Finset.mem_range.1 hj) h0]; ring

/-- The recorded displacements are themselves among those compared in C70 and C71. -/
theorem C70_guided (h : solve mat mesh lmin lmax coupling o perm = .ok (S, recs, stop)) (hm : GoodMat mat)
    (hv : ValidMesh mesh.frame) (hp : PositiveLengths mesh.rows lmin lmax) (k : ℕ) (a : Rec K) (ha : recs[k]? = some a) :
    Guided mat mesh.rows a.x := by
  have hbeams : BeamsCyclic mesh.rows := by have := hv.beams; rwa [rows_meshFrame] at this
  obtain ⟨Km, cs, hK, hC, -, -⟩ := solve_run h
  obtain ⟨Km, bl, hs, l, has, hpos, hbl, hc, rfl, hN, hnK, hn, hnC, hcols, hZ, hsd, rfl⟩ := solve_lengths h hm hp hC
  exact (has.guided hbeams).2 (hsd.inv ha).frozen

/-! ## C71 -/

/-- When no contact force is negative, the recorded displacements minimise the elastic energy among all displacements that do not
penetrate each other or the plates at the recorded height, up to `tol` times the sum of the forces. -/
theorem C71_minimum (h : solve mat mesh lmin lmax coupling o perm = .ok (S, recs, stop)) (hm : GoodMat mat)
    (hv : ValidMesh mesh.frame) (hp : PositiveLengths mesh.rows lmin lmax) (htol : 0 ≤ o.tol) (hlin : ExactLin o.lin)
    (hperm : PermOf S.n perm) (hcoup : |coupling| ≤ 1) {cs : ConstraintSys K} (hC : constraint mat mesh = .ok cs) {L : ℕ → K}
    (hL : BeamLengths mesh.rows lmin lmax L) (k : ℕ) (a : Rec K) (ha : recs[k]? = some a)
    (hpush : ∀ j, j < cs.C.nrows → 0 ≤ a.x (2 * mesh.rows.length + j)) (w : ℕ → K)
    (hw : Guided mat mesh.rows w) (hnp : NonPenetrating mat mesh.rows a.Z w) :
    elasticEnergy mat mesh.rows coupling L a.x ≤ elasticEnergy mat mesh.rows coupling L w +
      2 * o.tol * ∑ j ∈ Finset.range cs.C.nrows, a.x (2 * mesh.rows.length + j) := by
  have hcr : ConstraintsReciprocal mesh.rows := by have := hv.constraints; rwa [rows_meshFrame] at this
  have hle := (C50_plate h hm hp hC hcr k a ha w).2 hnp
  have hcomp := energy_compare h hm hv hp htol hlin hperm hcoup hC hL ha hw
  have hsum : ∑ j ∈ Finset.range cs.C.nrows, (rowDot cs.C j w - rowDot cs.C j a.x) * a.x (2 * mesh.rows.length + j) ≤
      o.tol * ∑ j ∈ Finset.range cs.C.nrows, a.x (2 * mesh.rows.length + j) := by
    rw [Finset.mul_sum]
    apply Finset.sum_le_sum
    intro j hj
    have hj := Finset.mem_range.1 hj
    by_cases h0 : a.x (2 * mesh.rows.length + j) = 0
    · rw [h0, mul_zero, mul_zero]
    · apply mul_le_mul_of_nonneg_right _ (hpush j hj)
      have hlej := hle j hj
      obtain ⟨Km, bl, hs, l, has, hpos, hbl, hc, rfl, hN, hnK, hn, hnC, hcols, hZ, hsd, rfl⟩ := solve_lengths h hm hp hC
      have hi := hsd.inv ha
      have hact := hsd.support (o := { o with perm := perm.getD (List.range (assemble Km cs).n) }) hlin (permOf_getD hperm)
        (r := 2 * mesh.rows.length + j) (by omega) ha h0
      obtain ⟨hg, b, hb⟩ := hsd.active_num hi (by omega) hact
      have hgap := ((hsd.active_iff hi hg hb _).1 hact).1
      unfold gap at hgap
      rw [apply_constraint hn hcols] at hgap
      rw [hi.bounds, hb, Cell.fin_add_fin, Cell.le_fin_iff] at hlej
      change _ ≤ o.tol at hgap
      linarith
  linarith

end Fibermat
