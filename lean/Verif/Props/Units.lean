import Verif.Spec.Units
import Verif.Lemmas.ScaleSolver
import Verif.Lemmas.ScaleAssembly
import Verif.Props.Regular

/-! # The solver in other units (C81) -/

set_option linter.unusedSectionVars false
set_option linter.unusedSimpArgs false

namespace Fibermat
variable {K : Type} [Field K] [LinearOrder K] [IsStrictOrderedRing K]
open Spec

/-! ### Assembled systems -/

/-- Weight of the rows: forces, moments, gaps. -/
def rowUnit (α μ : K) (N r : ℕ) : K := if r < N then (if r % 2 = 0 then μ * α ^ 2 else μ * α ^ 3) else α

/-- Weight of the unknowns: displacements, rotations, contact forces. -/
def colUnit (α μ : K) (N c : ℕ) : K := if c < N then (if c % 2 = 0 then α else 1) else μ * α ^ 2

/-- Rotations do not enter the gaps. -/
theorem gaps_odd {mat : Mat K} {rows : List (MeshRow K)} {cs : ConstraintSys K} {hs : List K} {l : List (Contact K)}
    (h : Contacts mat rows cs hs l) (j : ℕ) {c : ℕ} (hc : c % 2 ≠ 0) : cs.C.get j c = 0 := by
  unfold Coo.get
  rw [h.C]
  rw [List.filter_eq_nil_iff.2]
  · rfl
  · intro e he
    obtain ⟨p, -, hp⟩ := List.mem_flatMap.1 he
    simp only [contactEntries, List.mem_cons, List.not_mem_nil, or_false] at hp
    simp only [decide_eq_true_eq, not_and]
    rintro - rfl
    rcases hp with rfl | rfl | rfl | rfl <;> simp at hc

theorem assemble_scaled {α μ : K} (hα : 0 < α) (hμ : 0 < μ) {Km : Coo (Cell K)} {cs cs' : ConstraintSys K}
    (hodd : ∀ j c, c % 2 ≠ 0 → cs.C.get j c = 0) (hC : cs'.C = cs.C) (hH : cs'.H = cs.H.map (Cell.sc α)) (hdH : cs'.dH = cs.dH)
    (hZ : cs'.Z = α * cs.Z) :
    Scaled (assemble Km cs) (assemble (scaleCoo α μ Km) cs') α (μ * α ^ 3) (rowUnit α μ Km.nrows) (colUnit α μ Km.nrows) := by
  have hα0 := hα.ne'
  have hμ0 := hμ.ne'
  refine ⟨hα, by positivity, ?_, ?_, ?_, rfl, by simp only [assemble, hC], ?_, ?_, ?_, hZ, ?_⟩
  · intro c; unfold colUnit; split_ifs <;> positivity
  · intro c; unfold rowUnit; split_ifs <;> positivity
  · intro r; unfold rowUnit colUnit; split_ifs <;> ring
  · intro r c
    have hn : (scaleCoo α μ Km).nrows = Km.nrows := rfl
    simp only [assemble, hn, hC, scaleCoo_get]
    have hr := Nat.mod_two_eq_zero_or_one r
    have hc := Nat.mod_two_eq_zero_or_one c
    split_ifs with h1 h2 h3
    · congr 1
      unfold kWeight rowUnit colUnit
      rw [if_pos h1, if_pos h2]
      rcases hr with hr | hr <;> rcases hc with hc | hc <;> simp [hr, hc] <;> field_simp
    · rw [Cell.sc_fin]
      congr 1
      rcases hr with hr | hr
      · rw [rowUnit, colUnit, if_pos h1, if_neg h2, if_pos hr, div_self (by positivity), one_mul]
      · rw [hodd _ r (by omega), mul_zero]
    · rw [Cell.sc_fin]
      congr 1
      rcases hc with hc | hc
      · rw [rowUnit, colUnit, if_neg h1, if_pos h3, if_pos hc, div_self hα0, one_mul]
      · rw [hodd _ c (by omega), mul_zero]
    · rw [Cell.sc_fin, mul_zero]
  · intro r
    have hn : (scaleCoo α μ Km).nrows = Km.nrows := rfl
    simp only [assemble, hn, hH]
    split_ifs with h1
    · rw [Cell.sc_fin, mul_zero]
    · simp only [List.getD_eq_getElem?_getD, List.getElem?_map, rowUnit, if_neg h1]
      cases cs.H[r - Km.nrows]? with
      | none => simp
      | some a => rfl
  · intro r
    have hn : (scaleCoo α μ Km).nrows = Km.nrows := rfl
    simp only [assemble, hn, hdH]
    split_ifs with h1
    · rw [mul_zero]
    · rw [rowUnit, if_neg h1, div_self hα0, one_mul]
  · intro r hr
    have hr : Km.nrows ≤ r := hr
    unfold rowUnit
    rw [if_neg (not_lt.2 hr)]

theorem scaledRec_spec {α μ : K} {n : ℕ} {a a' : Rec K}
    (h : ScaledRec α (rowUnit α μ (2 * n)) (colUnit α μ (2 * n)) a a') : RecIn α μ n a a' := by
  refine ⟨?_, ?_, ?_, ?_, ?_, ?_, h.Z, h.lam, fun r => by rw [h.mask], h.err⟩
  · intro i hi
    rw [h.x, colUnit, if_pos (by omega), if_pos (by omega)]
  · intro i hi
    rw [h.x, colUnit, if_pos (by omega), if_neg (by omega), one_mul]
  · intro j
    rw [h.x, colUnit, if_neg (by omega)]
  · intro r hr e
    rw [h.q, e, Cell.sc_fin, mul_zero]
  · intro j b e
    rw [h.q, e, Cell.sc_fin, rowUnit, if_neg (by omega)]
  · intro j e
    rw [h.q, e]; rfl

/-! ### Valid mats and meshes -/

theorem goodMat_in {α μ : K} (hα : 0 < α) (hμ : 0 < μ) {m : Mat K} (h : GoodMat m) : GoodMat (matIn α μ m) := by
  obtain ⟨S, hS, hf⟩ := h.size
  refine ⟨by simp only [matIn, List.length_map]; exact h.n, α * S, by simp [matIn, hS], ?_⟩
  intro f' hf'
  obtain ⟨f, hfm, rfl⟩ := List.mem_map.1 hf'
  have g := hf f hfm
  refine ⟨mul_pos hα g.l, mul_pos hα g.b, mul_pos hα g.h, ?_, ?_, ?_, ?_, g.dir1, g.dir2, mul_pos hμ g.G, ?_⟩
  · have := mul_le_mul_of_nonneg_left g.x1 hα.le
    simp only [fiberIn]; linarith
  · have := mul_le_mul_of_nonneg_left g.x2 hα.le
    simp only [fiberIn]; linarith
  · have := mul_le_mul_of_nonneg_left g.y1 hα.le
    simp only [fiberIn]; linarith
  · have := mul_le_mul_of_nonneg_left g.y2 hα.le
    simp only [fiberIn]; linarith
  · have := g.E
    simp only [fiberIn]
    cases hE : f.E with
    | top => exact WithTop.coe_lt_top _
    | coe e =>
      rw [hE] at this
      exact WithTop.coe_lt_coe.2 (mul_pos hμ (WithTop.coe_lt_coe.1 this))

/-- Multiplication of all the coordinates. -/
def unitMap (α : K) : CoordMap K := ⟨fun a => α * a, fun a => α * a, fun a => α * a, fun a => α * a⟩

theorem unitMap_scales (α : K) : (unitMap α).Scales α := ⟨fun _ => rfl, fun _ => rfl⟩

theorem meshIn_rows (α : K) (m : Mesh K) : (meshIn α m).rows = m.rows.map (unitMap α).mesh := rfl

theorem first_map (φ : CoordMap K) (rows : List (MeshRow K)) (i : ℕ) : FirstOnFiber (rows.map φ.mesh) i ↔ FirstOnFiber rows i := by
  unfold FirstOnFiber
  simp only [List.getElem?_map, Option.map_eq_some_iff]
  constructor
  · rintro ⟨_, ⟨r, hr, rfl⟩, h⟩
    exact ⟨r, hr, fun j p hj hp => h j (φ.mesh p) hj ⟨p, hp, rfl⟩⟩
  · rintro ⟨r, hr, h⟩
    refine ⟨_, ⟨r, hr, rfl⟩, ?_⟩
    rintro j _ hj ⟨p, hp, rfl⟩
    exact h j p hj hp

theorem last_map (φ : CoordMap K) (rows : List (MeshRow K)) (i : ℕ) : LastOnFiber (rows.map φ.mesh) i ↔ LastOnFiber rows i := by
  unfold LastOnFiber
  simp only [List.getElem?_map, Option.map_eq_some_iff]
  constructor
  · rintro ⟨_, ⟨r, hr, rfl⟩, h⟩
    exact ⟨r, hr, fun j p hj hp => h j (φ.mesh p) hj ⟨p, hp, rfl⟩⟩
  · rintro ⟨r, hr, h⟩
    refine ⟨_, ⟨r, hr, rfl⟩, ?_⟩
    rintro j _ hj ⟨p, hp, rfl⟩
    exact h j p hj hp

theorem validMesh_in {α : K} (hα : 0 < α) {m : Mesh K} (h : ValidMesh m.frame) : ValidMesh (meshIn α m).frame := by
  have hsnd : ∀ m : Mesh K, m.frame.rows.map Prod.snd = m.rows := by
    intro m
    show (m.rows.zipIdx.map _).map Prod.snd = _
    rw [List.map_map]
    conv_rhs => rw [← List.zipIdx_map_fst 0 m.rows]
    rfl
  have hs := h.sorted
  have hb := h.beams
  have hc := h.constraints
  have he := h.ends
  rw [hsnd] at hs hb hc he
  refine ⟨h.columns, ?_, ?_, rfl, rfl, ?_, ?_, ?_, ?_, ?_⟩
  · obtain ⟨⟨n, hn⟩, ⟨S, hS⟩, p⟩ := h.attrs
    exact ⟨⟨n, hn⟩, ⟨α * S, by simp only [Mesh.frame, meshIn] at hS ⊢; rw [hS]; rfl⟩, p⟩
  · have := h.labels
    unfold LabelsInOrder at this ⊢
    simp only [Mesh.frame, meshIn_rows, List.length_map, List.map_map, List.zipIdx_map] at this ⊢
    intro i hi
    have := this i hi
    simp only [List.getElem_map, Function.comp, Prod.map, id] at this ⊢
    exact this
  · intro r hr n hn
    have h1 : r.2 ∈ (meshIn α m).rows := by
      rw [← hsnd]; exact List.mem_map_of_mem hr
    obtain ⟨p, hp, e⟩ := List.mem_map.1 h1
    rw [← hsnd] at hp
    obtain ⟨q, hq, rfl⟩ := List.mem_map.1 hp
    have := h.fiber q hq n hn
    rw [← e]
    exact this
  · rw [hsnd, meshIn_rows]
    unfold NodesSorted at hs ⊢
    rw [List.pairwise_map]
    refine hs.imp ?_
    intro p q hpq
    simp only [CoordMap.mesh, unitMap]
    rw [mul_le_mul_iff_right₀ hα]
    exact hpq
  · rw [hsnd, meshIn_rows]
    intro i r hr
    simp only [List.getElem?_map, Option.map_eq_some_iff] at hr
    obtain ⟨r, hr, rfl⟩ := hr
    obtain ⟨j, hj, r', p, h1, h2, h3, h4⟩ := hb i r hr
    refine ⟨j, hj, (unitMap α).mesh r', (unitMap α).mesh p, by rw [List.getElem?_map, h1]; rfl, by rw [List.getElem?_map, h2]; rfl, h3, ?_⟩
    rw [last_map, first_map]
    exact h4
  · rw [hsnd, meshIn_rows]
    intro i r hr
    simp only [List.getElem?_map, Option.map_eq_some_iff] at hr
    obtain ⟨r, hr, rfl⟩ := hr
    obtain ⟨j, p, h1, h2, h3⟩ := hc i r hr
    exact ⟨j, (unitMap α).mesh p, h1, by rw [List.getElem?_map, h2]; rfl, h3⟩
  · rw [hsnd, meshIn_rows]
    intro i r hr
    simp only [List.getElem?_map, Option.map_eq_some_iff] at hr
    obtain ⟨r, hr, rfl⟩ := hr
    rw [first_map, last_map]
    exact he i r hr

theorem fiberIn_same (α μ : K) (f : Fiber K) : SameIn α μ f (fiberIn α μ f) := ⟨rfl, rfl, rfl, rfl, rfl, rfl, rfl⟩

/-! ### The solver -/

variable {mat : Mat K} {mesh : Mesh K} {lmin lmax : Option K} {coupling : K} {o : Opts K} {perm : Option (List ℕ)}
  {S : Sys K} {recs : List (Rec K)} {stop : Stop}

/-- A state that does not float has a regular system, or one without solution. -/
theorem regular_or_none (h : solve mat mesh lmin lmax coupling o perm = .ok (S, recs, stop)) (hm : GoodMat mat)
    (hv : ValidMesh mesh.frame) (hp : PositiveLengths mesh.rows lmin lmax) (hcoup : |coupling| ≤ 1) {L : ℕ → K}
    (hL : BeamLengths mesh.rows lmin lmax L) (htol : 0 ≤ o.tol) (hlin : GoodLin o.lin) (hperm : PermOf S.n perm)
    (hfloat : ∀ a ∈ recs, Cell.lt a.rlambda o.packing = true → ¬ Floating mat mesh.rows coupling L o.tol a.Z a.x) :
    ∀ a ∈ recs, Cell.lt a.rlambda o.packing = true → RegularAt S o.tol a ∨ NoDirection S o.tol a := by
  have hreg := C72_regular h hm hv hp hcoup hL htol hlin.1 hperm
  obtain ⟨Km, cs, hK, hC, -, hrun⟩ := solve_run h
  obtain ⟨bl, hs, l, has, hpos, hc, rfl, hnK, hn, hnC, hZ, hsd, rfl⟩ := solve_sound h hm hp hK hC
  have hN : Km.nrows = 2 * mesh.rows.length := by rw [has.eq]
  intro b hb hlt
  obtain ⟨k, hk⟩ := List.mem_iff_getElem?.1 hb
  have hi := hsd.inv hk
  by_cases hr : RegularAt (assemble Km cs) o.tol b
  · exact Or.inl hr
  · right
    have hj : Jammed mat mesh.rows o.tol b.Z b.x := by
      by_contra hcon
      exact hr ((hreg k b hk).2 ⟨hcon, hfloat b hb hlt⟩)
    intro dx hoff hsol
    obtain ⟨i, j, hij, g0, g1, g2⟩ := hj
    obtain ⟨q, x, hq, rfl, rfl⟩ := hc.ofPair hij
    have hql := (List.getElem?_eq_some_iff.1 hq).1
    have key : ∀ d, d < 3 → (d = 1 → x.i ≠ x.j) → geoGap mat mesh.rows b.Z b.x x d ≤ o.tol →
        (if d = 0 then dx (2 * x.i) else if d = 1 then dx (2 * x.j) - dx (2 * x.i) else 1 - dx (2 * x.j)) = 0 := by
      intro d hd h1 h2
      have hact := (hc.active hN hsd hn hi hq hd o.tol).2 ⟨h1, h2⟩
      have hrn : 2 * mesh.rows.length + (3 * q + d) < (assemble Km cs).n := by omega
      have hex := hsol _ hrn hact
      rw [hsd.mulVec (hsd.active_num hi hrn hact).1] at hex
      have hex : apply _ _ dx _ = _ := Cell.fin.inj hex
      rw [← hc.rates (Km := Km) (T := table mesh.rows coupling bl) hN hn hq hd dx, hex, sub_self]
    have k0 := key 0 (by omega) (by omega) (by simpa [geoGap] using g0)
    have k2 := key 2 (by omega) (by omega) (by simpa [geoGap] using g2)
    simp at k0 k2
    by_cases e : x.i = x.j
    · rw [e] at k0; linarith
    · have k1 := key 1 (by omega) (fun _ => e) (by simpa [geoGap] using g1 e)
      simp at k1
      linarith

/-- Lengths in a unit `α` times smaller, moduli in a unit `μ` times smaller: the run of the solver is the same run, with lengths
multiplied by `α` and forces by `μ α²`, for every pair of correct linear solvers and permutations, provided no state floats. -/
theorem C81_solve (h : solve mat mesh lmin lmax coupling o perm = .ok (S, recs, stop)) (hm : GoodMat mat)
    (hv : ValidMesh mesh.frame) (hp : PositiveLengths mesh.rows lmin lmax) (hcoup : |coupling| ≤ 1) {L : ℕ → K}
    (hL : BeamLengths mesh.rows lmin lmax L) (htol : 0 ≤ o.tol) (hlin : GoodLin o.lin) (hperm : PermOf S.n perm)
    (hfloat : ∀ a ∈ recs, Cell.lt a.rlambda o.packing = true → ¬ Floating mat mesh.rows coupling L o.tol a.Z a.x)
    {lin' : LinSolver K} (hlin' : GoodLin lin') {perm' : Option (List ℕ)} (hperm' : PermOf S.n perm')
    {α μ : K} (hα : 0 < α) (hμ : 0 < μ) :
    ∃ S' recs', solve (matIn α μ mat) (meshIn α mesh) (lmin.map (fun x => α * x)) (lmax.map (fun x => α * x)) coupling
        { o with tol := α * o.tol, lin := lin' } perm' = .ok (S', recs', stop) ∧
      List.Forall₂ (RecIn α μ mesh.rows.length) recs recs' := by
  have hreg := regular_or_none h hm hv hp hcoup hL htol hlin hperm hfloat
  obtain ⟨Km, cs, hK, hC, -, hrun⟩ := solve_run h
  obtain ⟨bl, hs, l, has, hpos, hc, rfl, hnK, hn, hnC, hZ, hsd, hrecs⟩ := solve_sound h hm hp hK hC
  have hN : Km.nrows = 2 * mesh.rows.length := by rw [has.eq]
  have hck := (matCheck_frame_iff mat).2 (Or.inr hm)
  have hck' := (matCheck_frame_iff _).2 (Or.inr (goodMat_in hα hμ hm))
  have hmk := (C28_meshCheck_iff _).2 (Or.inr hv)
  have hmk' := (C28_meshCheck_iff _).2 (Or.inr (validMesh_in hα hv))
  have hK' : stiffness (matIn α μ mat) (meshIn α mesh) (lmin.map (fun x => α * x)) (lmax.map (fun x => α * x)) coupling =
      .ok (scaleCoo α μ Km) := by
    rw [stiffness_core hck' hmk']
    have := stiffnessCore_map hα hμ (unitMap_scales α) (fiberIn_same α μ) mat.fibers mesh.rows lmin lmax coupling
    rw [← stiffness_core hck hmk, hK] at this
    exact this
  have hC' : ∃ cs', constraint (matIn α μ mat) (meshIn α mesh) = .ok cs' ∧ cs'.C = cs.C ∧ cs'.H = cs.H.map (Cell.sc α) ∧
      cs'.dH = cs.dH ∧ cs'.Z = α * cs.Z := by
    have h1 := constraint_core hck' hmk'
    have h2 := constraintCore_map hα (unitMap_scales α) (ψ := fiberIn α μ) (fun f => rfl) mat.fibers mesh.rows
    rw [← constraint_core hck hmk, hC] at h2
    rw [show (matIn α μ mat).fibers = mat.fibers.map (fiberIn α μ) from rfl, meshIn_rows, h2] at h1
    cases hc' : constraint (matIn α μ mat) (meshIn α mesh) with
    | error e => rw [hc'] at h1; simp [Except.map] at h1
    | ok cs' =>
      rw [hc'] at h1
      simp only [Except.map, Except.ok.injEq, Prod.mk.injEq] at h1
      exact ⟨cs', rfl, h1.1, h1.2.1, h1.2.2.1, h1.2.2.2⟩
  obtain ⟨cs', hC', e1, e2, e3, e4⟩ := hC'
  have hsc := assemble_scaled hα hμ (Km := Km) (fun j c hodd => gaps_odd hc j hodd) e1 e2 e3 e4
  have hrun' := hsc.run (o := { o with perm := perm.getD (List.range (assemble Km cs).n) })
    (o' := { o with tol := α * o.tol, lin := lin', perm := perm'.getD (List.range (assemble (scaleCoo α μ Km) cs').n) }) hsd htol
    (permOf_getD hperm) (by rw [hsc.n]; exact permOf_getD hperm') rfl rfl rfl rfl hlin hlin' (by rw [hrun]; exact hreg)
  set o2 : Opts K := { o with tol := α * o.tol, lin := lin', perm := perm'.getD (List.range (assemble (scaleCoo α μ Km) cs').n) } with ho2
  refine ⟨assemble (scaleCoo α μ Km) cs', ((assemble (scaleCoo α μ Km) cs').run o2).1, ?_, ?_⟩
  · unfold solve
    rw [hK', hC']
    have hst := hrun'.2
    rw [hrun] at hst
    have hst : ((assemble (scaleCoo α μ Km) cs').run o2).2 = stop := hst
    change Except.ok (assemble (scaleCoo α μ Km) cs', (assemble (scaleCoo α μ Km) cs').run o2) = _
    rw [← hst]
  · rw [hrun] at hrun'
    refine hrun'.1.imp ?_
    intro a a' ha
    rw [hN] at ha
    exact scaledRec_spec ha

end Fibermat
