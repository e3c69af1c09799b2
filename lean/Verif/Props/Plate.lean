import Verif.Lemmas.Deform
import Verif.Spec.Energy
import Verif.Props.Solver
import Verif.Props.SolverStop
import Verif.Props.Constraint

/-! # The plate and the deformed mesh (C75) -/

set_option linter.unusedSectionVars false
set_option linter.unusedSimpArgs false

namespace Fibermat
variable {K : Type} [Field K] [LinearOrder K] [IsStrictOrderedRing K]
open Spec

variable {mat : Mat K} {mesh : Mesh K} {lmin lmax : Option K} {coupling : K} {o : Opts K} {perm : Option (List ℕ)}
  {S : Sys K} {recs : List (Rec K)} {stop : Stop}

/-- Displacements between two successive records: `v` is the motion per unit descent of the plate. -/
theorem step_motion (h : solve mat mesh lmin lmax coupling o perm = .ok (S, recs, stop)) (hm : GoodMat mat)
    (hp : PositiveLengths mesh.rows lmin lmax) (htol : 0 ≤ o.tol) (hlin : ExactLin o.lin) (hperm : PermOf S.n perm)
    {k : ℕ} {a b : Rec K} (ha : recs[k]? = some a) (hb : recs[k + 1]? = some b) :
    ∃ (v : ℕ → K) (t : K), 0 < t ∧ b.Z = a.Z - t ∧ (∀ r, b.x r = a.x r - t * v r) ∧
      Follows mat mesh.rows o.tol a.Z a.x v := by
  obtain ⟨Km, cs, hK, hC, -, -⟩ := solve_run h
  obtain ⟨bl, hs, l, has, hpos, hc, rfl, hnK, hn, hnC, hZ, hsd, rfl⟩ := solve_sound h hm hp hK hC
  have hN : Km.nrows = 2 * mesh.rows.length := by rw [has.eq]
  obtain ⟨dx, t, s, hst⟩ := hsd.next ha hb
  have hi := hsd.inv ha
  refine ⟨dx, t, hst.pos htol, hst.Z, fun r => by rw [hst.x]; ring, ?_⟩
  intro i j hij
  obtain ⟨q, x, hq, rfl, rfl⟩ := hc.ofPair hij
  have hql := (List.getElem?_eq_some_iff.1 hq).1
  have key : ∀ d, d < 3 → (d = 1 → x.i ≠ x.j) → geoGap mat mesh.rows a.Z a.x x d ≤ o.tol →
      (if d = 0 then dx (2 * x.i) else if d = 1 then dx (2 * x.j) - dx (2 * x.i) else 1 - dx (2 * x.j)) = 0 := by
    intro d hd h1 h2
    have hact := (hc.active hN hsd hn hi hq hd o.tol).2 ⟨h1, h2⟩
    rw [← hc.rates (T := table mesh.rows coupling bl) hN hn hq hd dx]
    rw [hsd.exact (o := { o with perm := perm.getD (List.range (assemble Km cs).n) }) hlin (permOf_getD hperm) hi hst.dir _
      (by omega) hact]
    ring
  refine ⟨fun hg => ?_, fun hne hg => ?_, fun hg => ?_⟩
  · have := key 0 (by omega) (by omega) (by simpa [geoGap] using hg)
    simpa using this
  · have := key 1 (by omega) (fun _ => hne) (by simpa [geoGap] using hg)
    simp at this
    linarith
  · have := key 2 (by omega) (by omega) (by simpa [geoGap] using hg)
    simp at this
    linarith

/-- Gaps closed in a record keep exactly their value in the next one. -/
theorem gaps_kept (h : solve mat mesh lmin lmax coupling o perm = .ok (S, recs, stop)) (hm : GoodMat mat)
    (hp : PositiveLengths mesh.rows lmin lmax) (htol : 0 ≤ o.tol) (hlin : ExactLin o.lin) (hperm : PermOf S.n perm)
    {k : ℕ} {a b : Rec K} (ha : recs[k]? = some a) (hb : recs[k + 1]? = some b) (i j : ℕ) (hij : IsPair mesh.rows i j) :
    (floorGap mat mesh.rows a.x i ≤ o.tol → floorGap mat mesh.rows b.x i = floorGap mat mesh.rows a.x i) ∧
      (i ≠ j → pairGap mat mesh.rows a.x i j ≤ o.tol → pairGap mat mesh.rows b.x i j = pairGap mat mesh.rows a.x i j) ∧
      (roofGap mat mesh.rows a.Z a.x j ≤ o.tol → roofGap mat mesh.rows b.Z b.x j = roofGap mat mesh.rows a.Z a.x j) := by
  obtain ⟨v, t, -, hZ, hx, hv⟩ := step_motion h hm hp htol hlin hperm ha hb
  obtain ⟨h0, h1, h2⟩ := hv i j hij
  refine ⟨fun hg => ?_, fun hne hg => ?_, fun hg => ?_⟩
  · simp only [floorGap, hx, h0 hg]; ring
  · simp only [pairGap, hx, h1 hne hg]; ring
  · simp only [roofGap, hx, hZ, h2 hg]; ring

/-! ## C75 -/

/-- A gap once closed (up to `tol`) keeps exactly its value until the end of the run. -/
theorem C75_kept (h : solve mat mesh lmin lmax coupling o perm = .ok (S, recs, stop)) (hm : GoodMat mat)
    (hp : PositiveLengths mesh.rows lmin lmax) (htol : 0 ≤ o.tol) (hlin : ExactLin o.lin) (hperm : PermOf S.n perm)
    (k m : ℕ) (hkm : k ≤ m) (a b : Rec K) (ha : recs[k]? = some a) (hb : recs[m]? = some b) (i j : ℕ)
    (hij : IsPair mesh.rows i j) :
    (floorGap mat mesh.rows a.x i ≤ o.tol → floorGap mat mesh.rows b.x i = floorGap mat mesh.rows a.x i) ∧
      (i ≠ j → pairGap mat mesh.rows a.x i j ≤ o.tol → pairGap mat mesh.rows b.x i j = pairGap mat mesh.rows a.x i j) ∧
      (roofGap mat mesh.rows a.Z a.x j ≤ o.tol → roofGap mat mesh.rows b.Z b.x j = roofGap mat mesh.rows a.Z a.x j) := by
  induction hkm generalizing b with
  | refl =>
    rw [ha] at hb; cases hb
    exact ⟨fun _ => rfl, fun _ _ => rfl, fun _ => rfl⟩
  | @step n hn ih =>
    have hlt := (List.getElem?_eq_some_iff.1 hb).1
    have hc : recs[n]? = some recs[n] := List.getElem?_eq_getElem (by omega)
    obtain ⟨i0, i1, i2⟩ := ih _ hc
    obtain ⟨g0, g1, g2⟩ := gaps_kept h hm hp htol hlin hperm hc hb i j hij
    refine ⟨fun hg => ?_, fun hne hg => ?_, fun hg => ?_⟩
    · rw [g0 (by rw [i0 hg]; exact hg), i0 hg]
    · rw [g1 hne (by rw [i1 hne hg]; exact hg), i1 hne hg]
    · rw [g2 (by rw [i2 hg]; exact hg), i2 hg]

/-- From an admissible start with an exact solver, the plate always rests on the deformed mat: its height is that of the top of
the highest node. -/
theorem C75_touches (h : solve mat mesh lmin lmax coupling o perm = .ok (S, recs, stop)) (hm : GoodMat mat)
    (hp : PositiveLengths mesh.rows lmin lmax) (htol : 0 ≤ o.tol) (hlin : ExactLin o.lin) (hperm : PermOf S.n perm)
    {cs : ConstraintSys K} (hC : constraint mat mesh = .ok cs) (hadm : Admissible cs (fun _ => 0))
    (hcr : ConstraintsReciprocal mesh.rows) (k : ℕ) (a : Rec K) (ha : recs[k]? = some a) :
    IsTop mat (mesh.deform a.x).rows a.Z := by
  obtain ⟨⟨⟨i, hi, htop⟩, -⟩, -, -, -, hiff⟩ := C37_geometric hC hm hcr
  have h0 := (hiff _).1 hadm
  have hnp := C46_nonPenetrating h hm hp htol hlin hperm hC hadm hcr k a ha
  refine ⟨?_, fun j hj => ?_⟩
  · obtain ⟨-, a0, ha0, hx0, -, hZ0, -⟩ := C40_itermax h
    have hZ : S.Z0 = cs.Z := by
      obtain ⟨Km, cs', hK, hC', rfl, -⟩ := solve_run h
      rw [hC] at hC'; cases hC'
      rfl
    refine ⟨i, by rw [deform_length]; exact hi, ?_⟩
    -- the highest node has no node above it
    obtain ⟨j, p, hj, hpj, hback⟩ := hcr i _ (List.getElem?_eq_getElem hi)
    have hthick : 0 < nodeThick mat mesh.rows j := by
      obtain ⟨hs, l, hc⟩ := contacts_of hC
      exact nodeThick_pos hm hc.thick (List.getElem?_eq_some_iff.1 hpj).1
    have hle : j ≤ i := by
      by_contra hlt
      push Not at hlt
      have h1 := h0.pair i j _ (List.getElem?_eq_getElem hi) hj hlt
      have h2 := h0.roof j (List.getElem?_eq_some_iff.1 hpj).1
      simp only [add_zero] at h1 h2
      linarith
    have hpair : IsPair mesh.rows j i := ⟨hle, p, hpj, hback⟩
    have hg0 : roofGap mat mesh.rows a0.Z a0.x i = 0 := by
      simp only [roofGap, hx0, hZ0, hZ, htop]; ring
    have := (C75_kept h hm hp htol hlin hperm 0 k (Nat.zero_le _) a0 a ha0 ha j i hpair).2.2 (by rw [hg0]; exact htol)
    rw [hg0] at this
    simp only [roofGap] at this
    rw [deform_nodeHeight hi, deform_nodeThick]
    linarith
  · rw [deform_length] at hj
    rw [deform_nodeHeight hj, deform_nodeThick]
    have := hnp.roof j hj
    linarith

/-- Heights do not matter to the checks and to the stiffness matrix. -/
theorem C75_stiffness (u : ℕ → K) (lmin lmax : Option K) (c : K) :
    stiffness mat (mesh.deform u) lmin lmax c = stiffness mat mesh lmin lmax c :=
  deform_stiffness lmin lmax c

/-- `constraint` of a mesh deformed by `u`: the same matrix, and the bounds reduced by the displacements. -/
theorem C75_constraint {cs : ConstraintSys K} (hC : constraint mat mesh = .ok cs) (u : ℕ → K) :
    ∃ cs', constraint mat (mesh.deform u) = .ok cs' ∧ cs'.C = cs.C ∧ cs'.dH = cs.dH ∧
      IsTop mat (mesh.deform u).rows cs'.Z ∧
      ∀ j, cs'.H[j]? = (cs.H[j]?).map (fun b => b + Cell.fin ((if j % 3 = 2 then cs'.Z - cs.Z else 0) - rowDot cs.C j u)) := by
  obtain ⟨h1, h2, hs, l, Z, h3, h4, h5, rfl⟩ := constraint_eq hC
  obtain ⟨hlen, -⟩ := nodeThickness_spec h3
  obtain ⟨c1, c2, -⟩ := contacts_spec hlen h4
  have hc : Contacts mat mesh.rows _ hs l := contacts_of' hC h3 h4
  have h3' : nodeThickness mat (mesh.deform u).rows = .ok hs := by rw [deform_thickness, h3]
  have h4' := deform_contacts (u := u) h4
  obtain ⟨Z', h5'⟩ : ∃ Z', npMax (((mesh.deform u).rows.zip hs).map (fun p => p.1.z + p.2 / 2)) = .ok Z' := by
    cases hl : ((mesh.deform u).rows.zip hs).map (fun p => p.1.z + p.2 / 2) with
    | cons a l => exact ⟨_, rfl⟩
    | nil =>
      exfalso
      have e : mesh.rows = [] := by
        have := congrArg List.length hl
        simp only [List.length_map, List.length_zip, deform_length, hlen, min_self, List.length_nil] at this
        exact List.length_eq_zero_iff.1 this
      rw [e] at h5
      cases h5
  refine ⟨_, constraint_of h1 (by rw [deform_check]; exact h2) h3' h4' h5', ?_, ?_, top_isTop h3' h5', ?_⟩
  · simp only [List.length_map, deform_length, Coo.mk.injEq, true_and]
    rw [List.zipIdx_map, List.flatMap_map]
    rfl
  · simp only
    rw [List.flatMap_map]
  · intro j
    obtain ⟨q, d, hd, rfl⟩ : ∃ q d, d < 3 ∧ j = 3 * q + d := ⟨j / 3, j % 3, by omega, by omega⟩
    have hmod : (3 * q + d) % 3 = d := by omega
    simp only
    rw [flatMap3_getElem? _ (fun _ => rfl) _ hd, flatMap3_getElem? _ (fun _ => rfl) _ hd, List.getElem?_map, hmod]
    cases hq : l[q]? with
    | none => rfl
    | some x =>
      have hrow := hc.row hq hd u
      simp only at hrow
      rw [hrow]
      have hx := hc.contact x (List.mem_of_getElem? hq)
      interval_cases d
      · simp [contactBounds, Contact.move, Cell.fin_add_fin]; ring
      · by_cases he : x.i = x.j
        · simp [contactBounds, Contact.move, he]; rfl
        · simp [contactBounds, Contact.move, he, Cell.fin_add_fin]; ring
      · simp [contactBounds, Contact.move, Cell.fin_add_fin]; ring

/-- After a run from an admissible start, the mesh deformed by the recorded displacements is assembled again with the same
matrices, the recorded plate and the recorded gaps as bounds; it is again admissible, and a valid mesh again. -/
theorem C75_restart (h : solve mat mesh lmin lmax coupling o perm = .ok (S, recs, stop)) (hm : GoodMat mat)
    (hp : PositiveLengths mesh.rows lmin lmax) (htol : 0 ≤ o.tol) (hlin : ExactLin o.lin) (hperm : PermOf S.n perm)
    {cs : ConstraintSys K} (hC : constraint mat mesh = .ok cs) (hadm : Admissible cs (fun _ => 0))
    (hv : ValidMesh mesh.frame) (k : ℕ) (a : Rec K) (ha : recs[k]? = some a) :
    ValidMesh (mesh.deform a.x).frame ∧ stiffness mat (mesh.deform a.x) lmin lmax coupling = stiffness mat mesh lmin lmax coupling ∧
      ∃ cs', constraint mat (mesh.deform a.x) = .ok cs' ∧ cs'.C = cs.C ∧ cs'.dH = cs.dH ∧ cs'.Z = a.Z ∧
        Admissible cs' (fun _ => 0) ∧
        ∀ j, j < cs.C.nrows → cs'.H[j]? = some (a.q (2 * mesh.rows.length + j) + .fin (- rowDot cs.C j a.x)) := by
  have hcr : ConstraintsReciprocal mesh.rows := by have := hv.constraints; rwa [rows_meshFrame] at this
  obtain ⟨cs', hC', e1, e2, htop, hH⟩ := C75_constraint hC a.x
  have htop' := C75_touches h hm hp htol hlin hperm hC hadm hcr k a ha
  have hZ : cs'.Z = a.Z := by
    obtain ⟨⟨i, hi, h1⟩, h2⟩ := htop
    obtain ⟨⟨j, hj, h3⟩, h4⟩ := htop'
    apply le_antisymm
    · rw [h1]; exact h4 i hi
    · rw [h3]; exact h2 j hj
  refine ⟨deform_valid.2 hv, deform_stiffness _ _ _, cs', hC', e1, e2, hZ, ?_, ?_⟩
  · have hcr' : ConstraintsReciprocal (mesh.deform a.x).rows := deform_constraints.2 hcr
    obtain ⟨-, -, -, -, hiff⟩ := C37_geometric hC' hm hcr'
    rw [hiff, hZ]
    obtain ⟨n1, n2, n3⟩ := C46_nonPenetrating h hm hp htol hlin hperm hC hadm hcr k a ha
    refine ⟨?_, ?_, ?_⟩
    · intro i hi
      rw [deform_length] at hi
      rw [deform_nodeHeight hi, deform_nodeThick, add_zero]
      exact n1 i hi
    · intro i hi
      rw [deform_length] at hi
      rw [deform_nodeHeight hi, deform_nodeThick, add_zero]
      exact n2 i hi
    · intro i j r hr hj hlt
      rw [deform_getElem?, Option.map_eq_some_iff] at hr
      obtain ⟨r0, hr0, rfl⟩ := hr
      obtain ⟨j', p, hj', hp', -⟩ := hcr i r0 hr0
      have hjj : j' = j := by
        have : (j' : Int) = j := by rw [← hj', ← hj]
        exact_mod_cast this
      subst hjj
      rw [deform_nodeHeight (List.getElem?_eq_some_iff.1 hr0).1, deform_nodeHeight (List.getElem?_eq_some_iff.1 hp').1,
        deform_nodeThick, deform_nodeThick, add_zero, add_zero]
      exact n3 i j' r0 hr0 hj hlt
  · intro j hj
    have hq := (C50_bounds h hm hp hC k a ha).2 j
    have hlen : cs.H.length = cs.C.nrows := (C37_geometric hC hm hcr).2.1
    have hb : cs.H[j]? = some cs.H[j] := List.getElem?_eq_getElem (by omega)
    rw [hH j, hb, hq _ hb, hZ, Option.map_some, add_assoc, Cell.fin_add_fin,
      sub_eq_add_neg]

end Fibermat
