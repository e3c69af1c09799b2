import Verif.Lemmas.RoundedAssembly
import Verif.Props.Rounded
import Verif.Props.Pipeline

/-! # C91: the whole computation with rounded arithmetic -/

set_option linter.unusedSectionVars false

namespace Fibermat
open Spec
variable {K : Type} [Field K] [LinearOrder K] [IsStrictOrderedRing K]

section
variable {A : Floats K} {o : Opts K} {u κ ε : K} {mat : Mat K} {mesh : Mesh K} {lmin lmax : Option K} {coupling : K}
  {fl : K → K} {Km : Coo (Cell K)} {cs : ConstraintSys K}

theorem stiffnessR_ok (hK : stiffness mat mesh lmin lmax coupling = .ok Km) (hr : Rounds fl u) (hu : u < 1) (hm : GoodMat mat)
    (hp : PositiveLengths mesh.rows lmin lmax) (ho : OrderedLengths fl mesh.rows lmin lmax) :
    ∃ Km', stiffnessR fl mat mesh lmin lmax coupling = .ok Km' ∧ Km'.nrows = Km.nrows ∧
      Km.entries.map entryKind = Km'.entries.map entryKind := by
  obtain ⟨h1, h2, bs, ls, hb, hres, rfl⟩ := stiffness_eq hK
  have hne : bs ≠ [] := by
    rintro rfl
    cases lmin <;> cases lmax <;> cases hres
  obtain ⟨ls', e, hl, hpos⟩ := rescaleR_pos hr hu hp ho hb hne
  refine ⟨⟨2 * mesh.rows.length, 2 * mesh.rows.length, (bs.zip ls').flatMap (fun p =>
    beamEntries p.1.i p.1.j (coeffsR fl p.1.fiber p.2 coupling))⟩, ?_, rfl, ?_⟩
  · unfold stiffnessR
    rw [h1, h2, hb]
    simp only [bind, Except.bind, e]
    rfl
  · obtain ⟨S, -, hS⟩ := hm.size
    refine entries_kind hr hu coupling bs ls ls' (by simpa using rescale_length hres) hl ?_ (rescale_pos hp hb hres) hpos
    intro b hbm
    obtain ⟨r, q, -, -, -, -, -, hf⟩ := ((beams_spec hb).1 b hbm).rows
    exact GoodFiber.solid (hS _ (List.mem_of_getElem? hf))

/-- Rounded bounds of a contact. -/
theorem bounds_near (hr : Rounds fl u) (hu : u ≤ 1 / 1000) {Z Z' : K} (he : 0 ≤ ε) (hZ : 20 * ε ≤ Z) (hZZ : |Z' - Z| ≤ 2 * u * Z)
    {x : Contact K} (h0 : 0 ≤ x.hi) (h0' : 0 ≤ x.hj) (hf : x.hi / 2 - ε ≤ x.zi) (ht : x.zi + x.hi / 2 ≤ Z)
    (hf' : x.hj / 2 - ε ≤ x.zj) (ht' : x.zj + x.hj / 2 ≤ Z) {d : ℕ} (hd : d < 3) :
    ((contactBounds Z x)[d]? = some .pinf ∧ (contactBoundsR fl Z' x)[d]? = some .pinf) ∨
      ∃ b b', (contactBounds Z x)[d]? = some (.fin b) ∧ (contactBoundsR fl Z' x)[d]? = some (.fin b') ∧ fl b' = b' ∧
        |b' - b| ≤ 6 * u * Z := by
  interval_cases d
  · exact Or.inr ⟨_, _, rfl, rfl, hr.idem _, floor_err hr hu he hZ h0 hf ht⟩
  · by_cases e : x.i = x.j
    · exact Or.inl ⟨by simp [contactBounds, e], by simp [contactBoundsR, e]⟩
    · exact Or.inr ⟨x.zj - x.zi - (x.hi + x.hj) / 2, fl (fl (x.zj - x.zi) - fl (fl (x.hi + x.hj) / 2)), by simp [contactBounds, e],
        by simp [contactBoundsR, e], hr.idem _, pair_err hr hu he hZ h0 h0' hf ht hf' ht'⟩
  · exact Or.inr ⟨_, _, rfl, rfl, hr.idem _, roof_err hr hu he hZ h0' hf' ht' hZZ⟩

theorem constraintR_ok (hC : constraint mat mesh = .ok cs) (hr : Rounds fl u) (hu : u ≤ 1 / 1000) (hm : GoodMat mat) (he : 0 ≤ ε)
    (hZ : 20 * ε ≤ cs.Z) (hfl : OffFloor mat mesh.rows ε) :
    ∃ cs', constraintR fl mat mesh = .ok cs' ∧ cs'.C = cs.C ∧ cs'.dH = cs.dH ∧ fl cs'.Z = cs'.Z ∧ |cs'.Z - cs.Z| ≤ 2 * u * cs.Z ∧
      ∀ r, (cs.H.getD r (.fin 0) = .pinf ∧ cs'.H.getD r (.fin 0) = .pinf) ∨
        ∃ b b', cs.H.getD r (.fin 0) = .fin b ∧ cs'.H.getD r (.fin 0) = .fin b' ∧ fl b' = b' ∧ |b' - b| ≤ 6 * u * cs.Z := by
  obtain ⟨k1, k2, hs, l, Z, h3, h4, h5, rfl⟩ := constraint_eq hC
  simp only at hZ
  have top := (top_isTop h3 h5).2
  obtain ⟨hlen, -⟩ := nodeThickness_spec h3
  have hu0 := hr.u_nonneg
  have hZ0 : 0 ≤ Z := by linarith
  obtain ⟨Z', e5, hnear, p0, -, hp0⟩ := npMax_near (l := mesh.rows.zip hs) (g := fun p => fl (p.1.z + fl (p.2 / 2))) (e := 2 * u * Z) h5 (by
    intro p hp
    obtain ⟨i, hi⟩ := List.mem_iff_getElem?.1 hp
    rw [List.getElem?_zip_eq_some] at hi
    have hi' := (List.getElem?_eq_some_iff.1 hi.1).1
    have t := nodeThick_eq h3 hi'
    rw [hi.2] at t
    have t1 : p.2 = nodeThick mat mesh.rows i := Option.some.inj t
    have t2 : p.1.z = nodeHeight mesh.rows i := by simp [nodeHeight, hi.1]
    rw [t1, t2]
    exact top_err hr hu he hZ (nodeThick_pos hm h3 hi').le (hfl i hi') (top i hi'))
  refine ⟨{ C := { nrows := 3 * l.length, ncols := 2 * mesh.rows.length
                   entries := l.zipIdx.flatMap (fun p => contactEntries p.2 p.1.i p.1.j) }
            H := l.flatMap (contactBoundsR fl Z')
            dH := l.flatMap (fun _ => [0, 0, 1])
            Z := Z'
            mesh := { mesh with h := some hs } }, ?_, rfl, rfl, ?_, hnear, ?_⟩
  · unfold constraintR
    rw [k1, k2, h3]
    simp only [bind, Except.bind, h4, e5]
    rfl
  · rw [hp0]; exact hr.idem _
  · intro r
    obtain ⟨q, d, hd, rfl⟩ : ∃ q d, d < 3 ∧ r = 3 * q + d := ⟨r / 3, r % 3, by omega, by omega⟩
    simp only [List.getD_eq_getElem?_getD, flatMap3_getElem? (contactBounds Z) (fun _ => rfl) _ hd,
      flatMap3_getElem? (contactBoundsR fl Z') (fun _ => rfl) _ hd]
    cases hq : l[q]? with
    | none => exact Or.inr ⟨0, 0, rfl, rfl, hr.zero, by simpa using mul_nonneg (mul_nonneg (by norm_num) hu0) hZ0⟩
    | some x =>
      obtain ⟨c1, -, -⟩ := contacts_spec hlen h4
      obtain ⟨i1, i2, e1, e2, e3, e4⟩ := contact_data h3 (c1 x (List.mem_of_getElem? hq))
      have := bounds_near (x := x) hr hu he hZ hnear (by rw [e3]; exact (nodeThick_pos hm h3 i1).le)
        (by rw [e4]; exact (nodeThick_pos hm h3 i2).le) (by rw [e1, e3]; exact hfl _ i1) (by rw [e1, e3]; exact top _ i1)
        (by rw [e2, e4]; exact hfl _ i2) (by rw [e2, e4]; exact top _ i2) hd
      simp only [Option.bind_some]
      rcases this with ⟨a1, a2⟩ | ⟨b, b', a1, a2, a3, a4⟩
      · left; rw [a1, a2]; exact ⟨rfl, rfl⟩
      · right; rw [a1, a2]; exact ⟨b, b', rfl, rfl, a3, a4⟩

/-- The rounded system is the exact one, stored with an error of `6 u Z`. -/
theorem stored_of (hK : stiffness mat mesh lmin lmax coupling = .ok Km) (hC : constraint mat mesh = .ok cs)
    (hr : Rounds fl u) (hu : u ≤ 1 / 1000) (hm : GoodMat mat) (hp : PositiveLengths mesh.rows lmin lmax)
    (ho : OrderedLengths fl mesh.rows lmin lmax) (he : 0 ≤ ε) (hZ : 20 * ε ≤ cs.Z) (hfl : OffFloor mat mesh.rows ε) :
    ∃ Km' cs', stiffnessR fl mat mesh lmin lmax coupling = .ok Km' ∧ constraintR fl mat mesh = .ok cs' ∧
      |cs'.Z - cs.Z| ≤ 2 * u * cs.Z ∧ Stored fl (6 * u * cs.Z) (assemble Km cs) (assembleR fl Km' cs') := by
  obtain ⟨Km', e1, hn, hk⟩ := stiffnessR_ok hK hr (by linarith) hm hp ho
  obtain ⟨cs', e2, hCC, hdH, hfZ, hZZ, hH⟩ := constraintR_ok hC hr hu hm he hZ hfl
  have hu0 := hr.u_nonneg
  have uZ : 0 ≤ u * cs.Z := mul_nonneg hu0 (by linarith)
  refine ⟨Km', cs', e1, e2, hZZ, ?_⟩
  have hP : ∀ r c, ((assembleR fl Km' cs').P r c).kind = ((assemble Km cs).P r c).kind := by
    intro r c
    simp only [assembleR, assemble, hn, hCC]
    split_ifs
    · exact getR_kind hk r c
    all_goals rfl
  refine ⟨hn, by simp only [assembleR, assemble, hCC], ?_, ?_, ?_, ?_, ?_, ?_, hfZ, ?_⟩
  · intro r c m h
    rw [← Cell.kind_fin, hP, h]; rfl
  · intro r c h
    rw [← Cell.kind_pinf, hP, h]; rfl
  · intro r c h
    have h' : Km.nrows ≤ r ∨ Km.nrows ≤ c := h
    simp only [assembleR, assemble, hn, hCC]
    split_ifs with h1 h2
    · omega
    all_goals rfl
  · intro r
    simp only [assembleR, assemble, hn, hdH]
  · intro r h
    simp only [assembleR, assemble, hn] at h ⊢
    split_ifs at h ⊢ with h1
    rcases hH (r - Km.nrows) with ⟨-, a⟩ | ⟨b, b', a, -⟩
    · exact a
    · rw [h] at a; cases a
  · intro r b h
    simp only [assembleR, assemble, hn] at h ⊢
    split_ifs at h ⊢ with h1
    · cases h
      exact ⟨0, rfl, hr.zero, by simpa using by linarith⟩
    · rcases hH (r - Km.nrows) with ⟨a, -⟩ | ⟨b0, b', a, a2, a3, a4⟩
      · rw [h] at a; cases a
      · rw [h] at a; cases a
        exact ⟨b', a2, a3, a4⟩
  · refine hZZ.trans ?_
    linarith

theorem solveR_eq {perm : Option (List ℕ)} {S : Sys K} {recs : List (Rec K)} {stop : Stop}
    (hs : solveR A mat mesh lmin lmax coupling o perm = .ok (S, recs, stop)) :
    ∃ Km' cs', stiffnessR A.fl mat mesh lmin lmax coupling = .ok Km' ∧ constraintR A.fl mat mesh = .ok cs' ∧
      S = assembleR A.fl Km' cs' ∧ (recs, stop) = S.runR A { o with perm := perm.getD (List.range S.n) } := by
  unfold solveR at hs
  cases h1 : stiffnessR A.fl mat mesh lmin lmax coupling with
  | error e => rw [h1] at hs; cases hs
  | ok Km' =>
    cases h2 : constraintR A.fl mat mesh with
    | error e => rw [h1, h2] at hs; cases hs
    | ok cs' =>
      rw [h1, h2] at hs
      simp only [bind, Except.bind, pure, Except.pure, Except.ok.injEq, Prod.mk.injEq] at hs
      obtain ⟨rfl, e⟩ := hs
      exact ⟨Km', cs', rfl, rfl, rfl, e.symm⟩

/-- The exact assembly succeeds when the rounded one does. -/
theorem exact_of_rounded {Km' : Coo (Cell K)} {cs' : ConstraintSys K} (hK : stiffnessR fl mat mesh lmin lmax coupling = .ok Km')
    (hC : constraintR fl mat mesh = .ok cs') :
    (∃ Km, stiffness mat mesh lmin lmax coupling = .ok Km) ∧ ∃ cs, constraint mat mesh = .ok cs := by
  unfold stiffnessR at hK
  unfold constraintR at hC
  cases h1 : matCheck mat.frame with
  | error e => rw [h1] at hK; cases hK
  | ok _ =>
    cases h2 : meshCheck mesh.frame with
    | error e => rw [h1, h2] at hK; cases hK
    | ok _ =>
      rw [h1, h2] at hK hC
      constructor
      · cases h3 : beams mat mesh.rows with
        | error e => rw [h3] at hK; cases hK
        | ok bs =>
          rw [h3] at hK
          have hne : bs ≠ [] := by
            rintro rfl
            cases lmin <;> cases lmax <;> cases hK
          obtain ⟨out, e⟩ := rescale_ok lmin lmax (ls := bs.map (·.l)) (by simpa using hne)
          unfold stiffness
          rw [h1, h2, h3]
          simp only [bind, Except.bind, e]
          exact ⟨_, rfl⟩
      · cases h3 : nodeThickness mat mesh.rows with
        | error e => rw [h3] at hC; cases hC
        | ok hs =>
          rw [h3] at hC
          simp only [bind, Except.bind] at hC
          cases h4 : contacts mesh.rows hs with
          | error e => rw [h4] at hC; cases hC
          | ok l =>
            rw [h4] at hC
            have hne : mesh.rows.zip hs ≠ [] := by
              intro h0
              rw [h0] at hC
              cases hC
            obtain ⟨Z, h5⟩ := npMax_ok (l := (mesh.rows.zip hs).map (fun p => p.1.z + p.2 / 2)) (by simpa using hne)
            unfold constraint
            rw [h1, h2, h3]
            simp only [bind, Except.bind, h4, h5]
            exact ⟨_, rfl⟩

theorem isTop_unique {rows : List (MeshRow K)} {Z Z' : K} (h : IsTop mat rows Z) (h' : IsTop mat rows Z') : Z = Z' := by
  obtain ⟨⟨i, hi, rfl⟩, h2⟩ := h
  obtain ⟨⟨j, hj, rfl⟩, h4⟩ := h'
  exact le_antisymm (h4 i hi) (h2 j hj)

theorem clear_of_rests (hC : constraint mat mesh = .ok cs) (he : 0 ≤ ε) (h0 : RestsUpTo mat mesh.rows ε) :
    ClearUpTo mat mesh.rows ε cs.Z (fun _ => 0) := by
  obtain ⟨hs, l, hc⟩ := contacts_of hC
  obtain ⟨-, -, hs', l', Z, h3, h4, h5, rfl⟩ := constraint_eq hC
  have top := (top_isTop h3 h5).2
  intro i j hij
  obtain ⟨m, x, hx, rfl, rfl⟩ := hc.ofPair hij
  obtain ⟨i1, i2, -⟩ := contact_data hc.thick (hc.contact x (List.mem_of_getElem? hx))
  refine ⟨?_, h0.pair _ _ hij, ?_⟩
  · have := h0.floor _ i1
    simp only [floorGap, add_zero]
    linarith
  · have := top _ i2
    simp only [roofGap, add_zero]
    linarith

/-- C91: when the exact `stiffness` and `constraint` succeed, `solve` in rounded arithmetic raises no exception either; the rounded
height of the upper plate is a number of the format, close to the top of the mat. -/
theorem C91_runs {perm : Option (List ℕ)} (hK : stiffness mat mesh lmin lmax coupling = .ok Km) (hC : constraint mat mesh = .ok cs)
    (hr : Rounds A.fl u) (hu : u ≤ 1 / 1000) (hm : GoodMat mat) (hp : PositiveLengths mesh.rows lmin lmax)
    (ho : OrderedLengths A.fl mesh.rows lmin lmax) (he : 0 ≤ ε) {Z : K} (hT : IsTop mat mesh.rows Z) (hZ : 25 * ε ≤ Z)
    (h0 : OffFloor mat mesh.rows ε) :
    ∃ S recs stop, solveR A mat mesh lmin lmax coupling o perm = .ok (S, recs, stop) ∧ A.fl S.Z0 = S.Z0 ∧
      |S.Z0 - Z| ≤ 2 * u * Z := by
  have e : cs.Z = Z := by
    obtain ⟨-, -, hs', l', Z, h3, h4, h5, rfl⟩ := constraint_eq hC
    exact isTop_unique (top_isTop h3 h5) hT
  subst e
  obtain ⟨Km', cs', e1, e2, hZZ, hst⟩ := stored_of hK hC hr hu hm hp ho he (by linarith) h0
  have e : solveR A mat mesh lmin lmax coupling o perm = .ok (assembleR A.fl Km' cs', (assembleR A.fl Km' cs').runR A
      { o with perm := perm.getD (List.range (assembleR A.fl Km' cs').n) }) := by
    unfold solveR
    rw [e1, e2]
    rfl
  exact ⟨_, _, _, e, hst.top.1, hZZ⟩

/-- C91: the nodes of every recorded state overlap at most by the initial overlap and by multiples of the tolerance on the errors of
the linear solver and of the rounding. -/
theorem C91_gaps {perm : Option (List ℕ)} {S : Sys K} {recs : List (Rec K)} {stop : Stop}
    (hs : solveR A mat mesh lmin lmax coupling o perm = .ok (S, recs, stop))
    (hm : GoodMat mat) (hp : PositiveLengths mesh.rows lmin lmax) (ho : OrderedLengths A.fl mesh.rows lmin lmax)
    (he : 0 ≤ ε) (h0 : RestsUpTo mat mesh.rows ε) {Z : K} (hT : IsTop mat mesh.rows Z) (hZ : 25 * ε ≤ Z)
    (hr : Rounds A.fl u) (hu : u ≤ 1 / 1000) (hn : NormTest A.tooBig κ)
    (htol : 0 ≤ o.tol) (herr : 0 ≤ κ * o.errtol) (herr' : κ * o.errtol ≤ 1 / 100)
    {k : ℕ} (hk : 400 * (k : K) * u ≤ 1) {a : Rec K} (ha : recs[k]? = some a) :
    ClearUpTo mat mesh.rows (ε + (7 * (κ * o.errtol) + (400 * k + 18) * u) * Z) a.Z a.x := by
  obtain ⟨Km1, cs1, e1, e2, rfl, e3⟩ := solveR_eq hs
  obtain ⟨⟨Km, hK⟩, cs, hC⟩ := exact_of_rounded e1 e2
  have e : cs.Z = Z := by
    obtain ⟨-, -, hs', l', Z, h3, h4, h5, rfl⟩ := constraint_eq hC
    exact isTop_unique (top_isTop h3 h5) hT
  subst e
  obtain ⟨Km', cs', f1, f2, hZZ, hst⟩ := stored_of hK hC hr hu hm hp ho he (by linarith) h0.floor
  rw [e1] at f1; cases f1
  rw [e2] at f2; cases f2
  have uZ : u * cs.Z ≤ 1 / 1000 * cs.Z := mul_le_mul_of_nonneg_right hu (by linarith)
  rw [show recs = ((assembleR A.fl Km1 cs1).runR A { o with perm := perm.getD (List.range (assembleR A.fl Km1 cs1).n) }).1
    from congrArg Prod.fst e3] at ha
  have := gaps_from (o := { o with perm := perm.getD (List.range (assembleR A.fl Km1 cs1).n) }) hK hC hm hp he
    (clear_of_rests hC he h0) hst (by linarith) hr hu hn htol herr herr' hk ha
  simp only at this
  rw [show 3 * (6 * u * cs.Z) + ε + (7 * (κ * o.errtol) + 400 * k * u) * cs.Z =
    ε + (7 * (κ * o.errtol) + (400 * k + 18) * u) * cs.Z by ring] at this
  exact this

/-- C91: the upper plate never goes up. -/
theorem C91_plate {perm : Option (List ℕ)} {S : Sys K} {recs : List (Rec K)} {stop : Stop}
    (hs : solveR A mat mesh lmin lmax coupling o perm = .ok (S, recs, stop)) (hr : Rounds A.fl u) (h1 : A.fl 1 = 1) (htol : 0 ≤ o.tol)
    (hZ0 : 0 ≤ S.Z0) (k : ℕ) (a b : Rec K) (ha : recs[k]? = some a) (hb : recs[k + 1]? = some b) :
    b.Z ≤ a.Z ∧ (0 < b.Z → ∃ p q, a.rlambda = .fin p ∧ b.rlambda = .fin q ∧ p ≤ q) := by
  obtain ⟨Km1, cs1, e1, e2, rfl, e3⟩ := solveR_eq hs
  have hZ : A.fl cs1.Z = cs1.Z := by
    unfold constraintR at e2
    simp only [bind, Except.bind] at e2
    split at e2
    · cases e2
    split at e2
    · cases e2
    split at e2
    · cases e2
    split at e2
    · cases e2
    split at e2
    · cases e2
    next h5 =>
      simp only [pure, Except.pure, Except.ok.injEq] at e2
      subst e2
      obtain ⟨p, -, hp⟩ := List.mem_map.1 (npMax_ge h5).1
      simp only
      rw [← hp]
      exact hr.idem _
  rw [show recs = ((assembleR A.fl Km1 cs1).runR A { o with perm := perm.getD (List.range (assembleR A.fl Km1 cs1).n) }).1
    from congrArg Prod.fst e3] at ha hb
  exact C89_plate (o := { o with perm := perm.getD (List.range (assembleR A.fl Km1 cs1).n) }) hr h1 htol hZ hZ0 k a b ha hb

/-! ## Exact arithmetic -/

theorem getR_id (M : Coo (Cell K)) : M.getR id = M.get := by
  funext r c
  unfold Coo.getR Coo.get
  generalize (M.entries.filter (fun e => e.1 = r ∧ e.2.1 = c)).map (fun e => e.2.2) = l
  have : ∀ z : Cell K, l.foldl (fun acc e => (acc + e).round id) z = z + l.sum := by
    induction l with
    | nil => intro z; exact (add_zero z).symm
    | cons a l ih => intro z; rw [List.foldl_cons, ih, Cell.round_id, List.sum_cons, add_assoc]
  rw [this]
  exact zero_add _

/-- C91: without rounding errors, the rounded model is the exact one. -/
theorem C91_exact (mat : Mat K) (mesh : Mesh K) (lmin lmax : Option K) (coupling : K) (o : Opts K) (perm : Option (List ℕ)) :
    solveR Floats.exact mat mesh lmin lmax coupling o perm = solve mat mesh lmin lmax coupling o perm := by
  have e1 : stiffnessR id mat mesh lmin lmax coupling = stiffness mat mesh lmin lmax coupling := by
    have : interp2R (id : K → K) = interp2 := by funext; exact interp2R_id _ _ _ _ _
    have h2 : (coeffsR id : Fiber K → K → K → Coeffs K) = coeffs := by funext; exact coeffsR_id _ _ _
    have h3 : (rescaleR id : Option K → Option K → List K → Except Err (List K)) = rescale := by
      funext a b c
      unfold rescaleR rescale
      rw [this]
      rfl
    unfold stiffnessR stiffness
    rw [h2, h3]
    rfl
  have e2 : constraintR id mat mesh = constraint mat mesh := rfl
  have e3 : ∀ Km cs, assembleR (id : K → K) Km cs = assemble Km cs := by
    intro Km cs
    unfold assembleR
    rw [getR_id]
    rfl
  unfold solveR solve
  simp only [runR_exact]
  change (do
    let Km ← stiffnessR id mat mesh lmin lmax coupling
    let cs ← constraintR id mat mesh
    let S := assembleR id Km cs
    let o := { o with perm := perm.getD (List.range S.n) }
    return (S, S.run o)) = _
  rw [e1, e2]
  simp only [e3]

end

end Fibermat
