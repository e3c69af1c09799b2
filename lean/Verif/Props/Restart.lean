import Verif.Lemmas.Restart
import Verif.Spec.Restart
import Verif.Props.Plate
import Verif.Lemmas.SolverEnergy

/-! # A run started again from the deformed mesh (C131) -/

set_option linter.unusedSectionVars false
set_option linter.unusedSimpArgs false

namespace Fibermat
variable {K : Type} [Field K] [LinearOrder K] [IsStrictOrderedRing K]
open Spec

variable {mat : Mat K} {mesh : Mesh K} {lmin lmax : Option K} {coupling : K} {o o' : Opts K} {perm : Option (List ℕ)}
  {S : Sys K} {recs : List (Rec K)} {stop : Stop}

/-- The plate stays above the floor. -/
theorem plate_pos (h : solve mat mesh lmin lmax coupling o perm = .ok (S, recs, stop)) (hm : GoodMat mat)
    (hp : PositiveLengths mesh.rows lmin lmax) (htol : 0 ≤ o.tol) (hlin : ExactLin o.lin) (hperm : PermOf S.n perm)
    {cs : ConstraintSys K} (hC : constraint mat mesh = .ok cs) (hadm : Admissible cs (fun _ => 0))
    (hcr : ConstraintsReciprocal mesh.rows) {k : ℕ} {a : Rec K} (ha : recs[k]? = some a) : 0 < a.Z := by
  obtain ⟨⟨i, hi, -⟩, -⟩ := C75_touches h hm hp htol hlin hperm hC hadm hcr k a ha
  rw [deform_length] at hi
  obtain ⟨h1, h2, -⟩ := C46_thickness h hm hp htol hlin hperm hC hadm hcr k a ha i hi
  exact lt_of_lt_of_le h1 h2

/-- The stretch factor of a record. -/
theorem record_lambda (h : solve mat mesh lmin lmax coupling o perm = .ok (S, recs, stop)) (hm : GoodMat mat)
    (hp : PositiveLengths mesh.rows lmin lmax) (htol : 0 ≤ o.tol) (hlin : ExactLin o.lin) (hperm : PermOf S.n perm)
    {cs : ConstraintSys K} (hC : constraint mat mesh = .ok cs) (hadm : Admissible cs (fun _ => 0))
    (hcr : ConstraintsReciprocal mesh.rows) {k : ℕ} {a : Rec K} (ha : recs[k]? = some a) : a.rlambda = .fin (S.Z0 / a.Z) := by
  have hpos := plate_pos h hm hp htol hlin hperm hC hadm hcr ha
  cases k with
  | zero =>
    obtain ⟨-, b, hb, -, -, hZ, hr⟩ := C40_itermax h
    rw [hb] at ha
    cases ha
    rw [hr, ← hZ, div_self hpos.ne']
  | succ k =>
    have hk : k < recs.length := by have := (List.getElem?_eq_some_iff.1 ha).1; omega
    have hb : recs[k]? = some recs[k] := List.getElem?_eq_getElem hk
    generalize recs[k] = b at hb
    obtain ⟨Km, bl, hs, l, -, -, -, -, -, -, -, -, -, -, -, hsd, hrecs⟩ := solve_lengths h hm hp hC
    rw [hrecs] at ha hb
    obtain ⟨dx, t, s, hst⟩ := hsd.next hb ha
    rw [hst.lam, Cell.fin_div_fin hpos.ne']

/-- C131: a run started again from the mesh deformed by a record of another run, with the iterations and the packing that are left,
is the rest of that run: it stops for the same reason after as many records, with the plate at the same heights, and with
displacements and forces that are those of the first run minus those of the record. -/
theorem C131_restart (h : solve mat mesh lmin lmax coupling o perm = .ok (S, recs, stop)) (hm : GoodMat mat)
    (hp : PositiveLengths mesh.rows lmin lmax) (htol : 0 ≤ o.tol) (hlin : ExactLin o.lin) (hperm : PermOf S.n perm)
    {cs : ConstraintSys K} (hC : constraint mat mesh = .ok cs) (hadm : Admissible cs (fun _ => 0))
    (hv : ValidMesh mesh.frame) {k : ℕ} {a : Rec K} (ha : recs[k]? = some a) (ho : Continues o o' k S.Z0 a.Z) :
    ∃ S' recs', solve mat (mesh.deform a.x) lmin lmax coupling o' perm = .ok (S', recs', stop) ∧
      S'.n = S.n ∧ S'.Z0 = a.Z ∧ recs'.length + k = recs.length ∧
      ∀ m b b', recs[k + m]? = some b → recs'[m]? = some b' → b'.Z = b.Z ∧ (∀ r, b'.x r = b.x r - a.x r) ∧
        (0 < m → (∀ r, r < S.n → b'.mask r = b.mask r) ∧ b'.errSq = b.errSq) := by
  have hcr : ConstraintsReciprocal mesh.rows := by have := hv.constraints; rwa [rows_meshFrame] at this
  obtain ⟨-, hK', cs', hC', eC, edH, eZ, -, hH⟩ := C75_restart h hm hp htol hlin hperm hC hadm hv k a ha
  have hposZ : ∀ {j : ℕ} {b : Rec K}, recs[j]? = some b → 0 < b.Z := fun hb => plate_pos h hm hp htol hlin hperm hC hadm hcr hb
  have hlam := record_lambda h hm hp htol hlin hperm hC hadm hcr ha
  obtain ⟨-, a0, ha0, -, -, hZa0, -⟩ := C40_itermax h
  have hZ0 : 0 < S.Z0 := by rw [← hZa0]; exact hposZ ha0
  obtain ⟨Km, cs0, hK, hC0, -, hrun⟩ := solve_run h
  rw [hC] at hC0; cases hC0
  obtain ⟨bl, hs, l, has, hpos, hc, rfl, hnK, hn, hnC, hZ, hsd, hrecs⟩ := solve_sound h hm hp hK hC
  have hN : Km.nrows = 2 * mesh.rows.length := by rw [has.eq]
  have hcols : cs.C.ncols = 2 * mesh.rows.length := by rw [hc.C]
  set S := assemble Km cs with hS
  set S' := assemble Km cs' with hS'
  set M := wholeTable (2 * mesh.rows.length) (table mesh.rows coupling bl) cs.C with hM
  set p := perm.getD (List.range S.n) with hpd
  have hpp : p.Perm (List.range S.n) := permOf_getD hperm
  have ha' : (S.run { o with perm := p }).1[k]? = some a := by rw [← hrecs]; exact ha
  have hi := hsd.inv ha'
  have hq' : ∀ r, S.nK ≤ r → r < S.n → S'.q0 r = a.q r + .fin (- apply S M a.x r) := by
    intro r h1 h2
    rw [hnK] at h1
    obtain ⟨j, rfl⟩ : ∃ j, r = 2 * mesh.rows.length + j := ⟨r - 2 * mesh.rows.length, by omega⟩
    have hj : j < cs.C.nrows := by rw [hnC]; omega
    rw [hM, apply_constraint hn hcols]
    show (if 2 * mesh.rows.length + j < Km.nrows then _ else cs'.H.getD (2 * mesh.rows.length + j - Km.nrows) _) = _
    rw [if_neg (by omega), hN, Nat.add_sub_cancel_left, List.getD_eq_getElem?_getD, hH j hj]
    rfl
  have hf : From S S' M (Frozen bl) a := by
    refine ⟨rfl, ?_, ?_, ?_, eZ, ?_, hi.frozen, ?_, ?_, ?_⟩
    · show cs'.C.nrows = cs.C.nrows
      rw [eC]
    · rw [hS, hS']
      simp only [assemble, eC]
    · rw [hS, hS']
      simp only [assemble, edH]
    · intro r hr hg
      exact hsd.balance_exact (o := { o with perm := p }) hlin hpp htol hr hg ha'
    · intro r hr
      have hr : r < Km.nrows := hr
      show (if r < Km.nrows then _ else _) = _
      rw [if_pos hr]
    · intro r h1 h2 b hb
      rw [hq' r h1 h2, hi.bounds, hb, Cell.fin_add_fin, Cell.fin_add_fin, gap, sub_eq_add_neg (_ + _)]
    · intro r h1 h2 hb
      rw [hq' r h1 h2, hi.bounds, hb]
      rfl
  have hSn : S'.n = S.n := hf.n
  obtain ⟨hki, hdrop, hstop⟩ := run_drop ha'
  have hrest : (S.run { o with perm := p }).2 = stop := by rw [hrun]
  have hloop := hf.loop (o := { o with perm := p }) (o' := { o' with perm := p }) hsd ho.tol ho.lin rfl ho.errtol
    (fun r hr => List.mem_range.1 (hpp.mem_iff.1 hr)) hZ0 (hposZ ha) ho.packing (o.itermax - k) (a := a) (a' := S'.init { o' with perm := p })
    hi ((hf.sound hsd).inv_init _) ⟨fun r => (sub_self _).symm, eZ⟩ (hposZ ha) hlam
    (by
      show (Cell.fin 1 : Cell K) = .fin (a.Z / S'.Z0)
      rw [hf.Z0, div_self (hposZ ha).ne'])
    (by
      intro b hb
      have hb' : b ∈ (S.run { o with perm := p }).1.drop (k + 1) := by rw [hdrop]; exact hb
      obtain ⟨j, hj⟩ := List.getElem?_of_mem (List.mem_of_mem_drop hb')
      rw [← hrecs] at hj
      exact hposZ hj)
  obtain ⟨l1, l2⟩ := hloop
  have hit : o.itermax - k = o'.itermax := by have := ho.itermax; omega
  rw [hit] at l1 l2 hdrop hstop
  refine ⟨S', (S'.run { o' with perm := p }).1, ?_, hSn, hf.Z0, ?_, ?_⟩
  · unfold solve
    rw [hK', hK, hC']
    show Except.ok (S', S'.run { o' with perm := perm.getD (List.range S'.n) }) = _
    rw [hSn]
    have : (S'.run { o' with perm := p }).2 = stop := by
      rw [← hrest, hstop]
      exact l1
    rw [← this]
  · have e1 := congrArg List.length hdrop
    have e2 := l2.length_eq
    rw [List.length_drop, ← hrecs, e2] at e1
    have e3 : (S'.run { o' with perm := p }).1.length = (S'.loop { o' with perm := p } o'.itermax (S'.init { o' with perm := p })).1.length + 1 := by
      simp [Sys.run]
    have hk := (List.getElem?_eq_some_iff.1 ha).1
    omega
  · intro m b b' hb hb'
    cases m with
    | zero =>
      rw [Nat.add_zero, ha] at hb
      cases hb
      simp only [Sys.run, List.getElem?_cons_zero, Option.some.injEq] at hb'
      subst hb'
      exact ⟨eZ, fun r => (sub_self _).symm, fun h0 => absurd h0 (lt_irrefl _)⟩
    | succ m =>
      simp only [Sys.run, List.getElem?_cons_succ] at hb'
      have hb : (S.loop { o with perm := p } o'.itermax a).1[m]? = some b := by
        rw [← hdrop, List.getElem?_drop, ← hrecs, show k + 1 + m = k + (m + 1) by omega]
        exact hb
      obtain ⟨hsh, hmask, herr⟩ := List.Forall₂.get l2 (i := m) (List.getElem?_eq_some_iff.1 hb).1 (List.getElem?_eq_some_iff.1 hb').1
      rw [List.get_eq_getElem, List.get_eq_getElem, (List.getElem?_eq_some_iff.1 hb).2, (List.getElem?_eq_some_iff.1 hb').2] at hsh hmask herr
      exact ⟨hsh.Z, hsh.x, fun _ => ⟨hmask, herr⟩⟩

/-- C131: the shape of the fibers is the same whether they are pressed in one run or in two. -/
theorem C131_shape {x y z : ℕ → K} (hz : ∀ r, z r = y r - x r) : (mesh.deform x).deform z = mesh.deform y := by
  unfold Mesh.deform
  simp only [List.mapIdx_mapIdx, Mesh.mk.injEq, and_true]
  apply List.mapIdx_eq_mapIdx_iff.2
  intro i hi
  simp only [Function.comp_apply, hz, MeshRow.mk.injEq, true_and, and_true]
  ring

end Fibermat
