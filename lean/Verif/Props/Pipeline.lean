import Verif.Props.Monotone
import Verif.Props.Plate

/-! # The whole chain `solve(mat, Mesh(Stack(mat, Net(mat))))` (C77, C78) -/

set_option linter.unusedSectionVars false
set_option linter.unusedSimpArgs false

namespace Fibermat
variable {K : Type} [Field K] [LinearOrder K] [IsStrictOrderedRing K]
open Spec

/-! ## Supports last -/

section Kept

variable {mat : Mat K} {mesh : Mesh K} {lmin lmax : Option K} {coupling : K} {o : Opts K} {perm : Option (List ℕ)}
  {S : Sys K} {recs : List (Rec K)} {stop : Stop}

/-- A motion keeping the closed gaps of a later state keeps those of an earlier one. -/
theorem keeps_earlier (h : solve mat mesh lmin lmax coupling o perm = .ok (S, recs, stop)) (hm : GoodMat mat)
    (hp : PositiveLengths mesh.rows lmin lmax) (htol : 0 ≤ o.tol) (hlin : ExactLin o.lin) (hperm : PermOf S.n perm)
    {k m : ℕ} (hkm : k ≤ m) {a b : Rec K} (ha : recs[k]? = some a) (hb : recs[m]? = some b) {v : ℕ → K}
    (hv : KeepsContacts mat mesh.rows o.tol b.Z b.x v) : KeepsContacts mat mesh.rows o.tol a.Z a.x v := by
  intro i j hij
  obtain ⟨g0, g1, g2⟩ := C75_kept h hm hp htol hlin hperm k m hkm a b ha hb i j hij
  obtain ⟨v0, v1, v2⟩ := hv i j hij
  exact ⟨fun hg => v0 (by rw [g0 hg]; exact hg), fun hne hg => v1 hne (by rw [g1 hne hg]; exact hg),
    fun hg => v2 (by rw [g2 hg]; exact hg)⟩

/-- Fibers that are supported at some state of a run are supported at all the later ones. -/
theorem C77_supported (h : solve mat mesh lmin lmax coupling o perm = .ok (S, recs, stop)) (hm : GoodMat mat)
    (hp : PositiveLengths mesh.rows lmin lmax) (htol : 0 ≤ o.tol) (hlin : ExactLin o.lin) (hperm : PermOf S.n perm)
    (k m : ℕ) (hkm : k ≤ m) (a b : Rec K) (ha : recs[k]? = some a) (hb : recs[m]? = some b)
    (hs : ¬ Unsupported mat mesh.rows o.tol a.Z a.x) : ¬ Unsupported mat mesh.rows o.tol b.Z b.x :=
  fun ⟨v, h1, h2, h3⟩ => hs ⟨v, h1, h2, keeps_earlier h hm hp htol hlin hperm hkm ha hb h3⟩

/-- A mat that does not float at some state of a run does not float at any later one. -/
theorem C77_held (h : solve mat mesh lmin lmax coupling o perm = .ok (S, recs, stop)) (hm : GoodMat mat)
    (hp : PositiveLengths mesh.rows lmin lmax) (htol : 0 ≤ o.tol) (hlin : ExactLin o.lin) (hperm : PermOf S.n perm)
    (L : ℕ → K) (k m : ℕ) (hkm : k ≤ m) (a b : Rec K) (ha : recs[k]? = some a) (hb : recs[m]? = some b)
    (hs : ¬ Floating mat mesh.rows coupling L o.tol a.Z a.x) : ¬ Floating mat mesh.rows coupling L o.tol b.Z b.x :=
  fun ⟨v, h1, h2, h3, h4⟩ => hs ⟨v, h1, h2, h3, keeps_earlier h hm hp htol hlin hperm hkm ha hb h4⟩

end Kept

/-! ## The mesh of a stack -/

section Chain

variable {lp : Linprog K} {m m' : Mat K} {periodic : Bool} {net st : Net K} {threshold : Option K} {mesh : Mesh K}

theorem chain_facts (hlp : GoodLinprog lp) (h : GoodMat m) (hne : m.fibers ≠ []) (hn : netNew m periodic = .ok net)
    (hst : stackNew lp m net threshold = .ok (m', st)) (hmesh : meshNew st = .ok mesh) :
    ∃ net', netNew m' periodic = .ok net' ∧ st = keep threshold net' ∧ GoodMat m' ∧ SameExceptZ m m' ∧
      Ended st.rows (halfLength m') ∧ meshInit st = .ok mesh ∧ ValidMesh mesh.frame ∧ OverFibers m' mesh.rows ∧
      mesh.rows ≠ [] := by
  obtain ⟨hck, ho, hper⟩ := netNew_over h hn
  obtain ⟨hlen, -, hsame, hgood, hcase⟩ := stack_lowest hlp h hck ho hst
  obtain ⟨net', g1, rfl⟩ : ∃ net', netNew m' (net.attrs.periodic.getD true) = .ok net' ∧ st = keep threshold net' := by
    rcases hcase with ⟨he, -⟩ | hc
    · exact absurd he hne
    · exact hc
  rw [hper] at g1
  have g1 : netNew m' periodic = .ok net' := g1
  obtain ⟨p, e, hself⟩ := keep_rows threshold net'
  have hend : Ended (keep threshold net').rows (halfLength m') := by
    rw [e]; exact (netNew_ended hgood g1).filter p hself
  obtain ⟨mesh', e1, h3⟩ := meshNew_of_ended (netCheck_keep hgood g1 threshold) hend
  rw [hmesh] at e1; cases e1
  obtain ⟨place, hp⟩ := C26_constraints h3
  have hover : ∀ r ∈ (keep threshold net').rows, 0 ≤ r.A ∧ r.A ≤ r.B ∧ r.B < (m'.fibers.length : Int) := by
    intro r hr
    rw [e] at hr
    exact (netNew_over hgood g1).2.1 r (List.mem_filter.1 hr).1
  have hvalid : ValidMesh mesh.frame := by
    have hvn : ValidNet (keep threshold net').frame := by
      obtain ⟨net2, q1, -, q3, -⟩ := C06_netNew_ok hgood periodic
      rw [g1] at q1; cases q1
      have e' : keep threshold net' = ⟨net'.rows.filter p, net'.attrs⟩ := by
        rw [← e, ← keep_attrs threshold net']
      rw [e']
      exact valid_sublist List.filter_sublist q3
    have h3' := h3
    obtain ⟨-, rfl⟩ := meshInit_ok h3
    rw [meshRows_valid_iff hvn, placement_ends hp]
    intro k r hk i hik hfl
    by_contra hAB
    have hsort := (C24_mesh_sorted h3').2
    rcases hfl with ⟨a, ha, hfirst⟩ | ⟨a, ha, hlast⟩
    · obtain ⟨-, -, -, ⟨j, b, hb, hbf, hbs⟩, -, hlt⟩ := ended_nodes hend hp ha
      have hl := abs_lt.1 (hlt k r hk hik hAB)
      exact hfirst j b (sorted_lt hsort hb ha hbf (by rw [hbs]; exact hl.1)) hb hbf
    · obtain ⟨-, -, ⟨j, b, hb, hbf, hbs⟩, -, -, hlt⟩ := ended_nodes hend hp ha
      have hl := abs_lt.1 (hlt k r hk hik hAB)
      exact hlast j b (sorted_lt hsort ha hb hbf.symm (by rw [hbs]; exact hl.2)) hb hbf
  have hof : OverFibers m' mesh.rows := by
    intro a ha
    obtain ⟨i, ha⟩ := List.mem_iff_getElem?.1 ha
    obtain ⟨k, r, hk, ⟨-, ea, -⟩ | ⟨-, ea, -⟩⟩ := placement_cases hp ha <;>
      (obtain ⟨g1, g2, g3⟩ := hover r (List.mem_of_getElem? hk)
       rw [ea.fiber]; constructor <;> omega)
  have hner : mesh.rows ≠ [] := by
    intro h0
    have hc := hp.count
    rw [h0] at hc
    have h00 : (keep threshold net').rows = [] := by
      rw [← List.length_eq_zero_iff]; simp at hc; simpa using hc
    have hm0 : 0 < m'.fibers.length := by rw [hlen]; exact List.length_pos_iff.2 hne
    obtain ⟨k, r, hk, ha, hb, -⟩ := C07_end_row hgood g1 (List.getElem?_eq_getElem hm0)
    have hr := List.mem_of_getElem? hk
    have : r ∈ (keep threshold net').rows := by
      rw [e]; exact List.mem_filter.2 ⟨hr, hself r hr (by rw [ha, hb])⟩
    rw [h00] at this; simp at this
  exact ⟨net', g1, rfl, hgood, hsame, hend, h3, hvalid, hof, hner⟩

/-- The beams of each fiber of a stacked mat, threshold or not, add up to its length; no beam has a negative length. -/
theorem C78_beam_lengths (hlp : GoodLinprog lp) (h : GoodMat m) (hn : netNew m periodic = .ok net)
    (hst : stackNew lp m net threshold = .ok (m', st)) (hmesh : meshNew st = .ok mesh) {k : ℕ} {f : Fiber K}
    (hf : m.fibers[k]? = some f) :
    ∑ i ∈ beamsOf mesh.rows k, beamLength mesh.rows i = f.l ∧
      (beamsOf mesh.rows k).card + 1 = (nodesOf mesh.rows k).card ∧
      ∀ i ∈ beamsOf mesh.rows k, 0 ≤ beamLength mesh.rows i := by
  have hne : m.fibers ≠ [] := by rintro e; rw [e] at hf; simp at hf
  obtain ⟨net', g1, rfl, hgood, hsame, hend, h3, -⟩ := chain_facts hlp h hne hn hst hmesh
  have hf' : ∃ f', m'.fibers[k]? = some f' ∧ f'.l = f.l := by
    have e := congrArg (fun l : List (Fiber K) => (l[k]?).map (·.l)) hsame.2
    simp only [List.getElem?_map, Option.map_map, hf] at e
    cases hk : m'.fibers[k]? with
    | none => rw [hk] at e; simp at e
    | some f' => rw [hk] at e; exact ⟨f', rfl, by simpa using e.symm⟩
  obtain ⟨f', hf', hl⟩ := hf'
  obtain ⟨q, r, hr, hA, hB, -⟩ := C07_end_row hgood g1 hf'
  obtain ⟨p, e, hself⟩ := keep_rows threshold net'
  have hmem : r ∈ (keep threshold net').rows := by
    rw [e]; exact List.mem_filter.2 ⟨List.mem_of_getElem? hr, hself r (List.mem_of_getElem? hr) (by rw [hA, hB])⟩
  obtain ⟨q', hr'⟩ := List.mem_iff_getElem?.1 hmem
  obtain ⟨place, hp⟩ := C26_constraints h3
  obtain ⟨a, ha, ha1, -⟩ := hp.endA q' r hr'
  have := beams_of_ended hend h3 ha
  rw [ha1.fiber, hA] at this
  have e : 2 * halfLength m' (k : Int) = f.l := by simp [halfLength, hf', hl]; ring
  rw [e] at this
  exact this

theorem mem_beamsOf {rows : List (MeshRow K)} {k : Int} {i : ℕ} (h : i ∈ beamsOf rows k) : StartsBeam rows i := by
  unfold beamsOf at h
  obtain ⟨-, r, hr, hlt⟩ := Finset.mem_filter.1 h
  exact ⟨r, hr, hlt⟩

/-- With a positive `lmin` (and a positive `lmax`, if any), every stacked mat has beams of positive lengths: the conditions of the
theorems on `stiffness` and `solve` hold even where several fibers cross at the same point. -/
theorem C78_positive (hlp : GoodLinprog lp) (h : GoodMat m) (hne : m.fibers ≠ []) (hn : netNew m periodic = .ok net)
    (hst : stackNew lp m net threshold = .ok (m', st)) (hmesh : meshNew st = .ok mesh) {a : K} (ha : 0 < a) {lmax : Option K}
    (hmax : ∀ b, lmax = some b → 0 < b) : PositiveLengths mesh.rows (some a) lmax ∧ ∃ i, StartsBeam mesh.rows i := by
  have hlen : 0 < m.fibers.length := List.length_pos_iff.2 hne
  obtain ⟨hsum, -, -⟩ := C78_beam_lengths hlp h hn hst hmesh (List.getElem?_eq_getElem hlen)
  obtain ⟨S, hS, hf⟩ := h.size
  have hl := (hf _ (List.getElem_mem hlen)).l
  have : ∃ i, StartsBeam mesh.rows i ∧ 0 < beamLength mesh.rows i := by
    by_contra hno
    push Not at hno
    have := Finset.sum_nonpos (s := beamsOf mesh.rows ((0 : ℕ) : Int)) (fun i hi => hno i (mem_beamsOf hi))
    rw [hsum] at this
    exact absurd hl (not_lt.2 this)
  exact ⟨⟨by simpa using ha, hmax, by simp, fun _ _ => this⟩, this.imp fun _ h => h.1⟩

/-- The whole chain `mat → Net → Stack → Mesh → solve` never raises: for every valid mat with at least one fiber, every linear
solver, whatever the options. -/
theorem C78_runs (hlp : GoodLinprog lp) (h : GoodMat m) (hne : m.fibers ≠ []) (periodic : Bool) (threshold lmin lmax : Option K)
    (coupling : K) (o : Opts K) (perm : Option (List ℕ)) :
    ∃ net m' st mesh S recs stop, netNew m periodic = .ok net ∧ stackNew lp m net threshold = .ok (m', st) ∧
      meshNew st = .ok mesh ∧ solve m' mesh lmin lmax coupling o perm = .ok (S, recs, stop) := by
  obtain ⟨net, hn, -⟩ := C06_netNew_ok h periodic
  obtain ⟨m', st, mesh, hst, hmesh, -⟩ := C27_mesh_of_stack hlp h hn threshold
  obtain ⟨net', g1, rfl, hgood, hsame, hend, h3, hvalid, hof, hner⟩ := chain_facts hlp h hne hn hst hmesh
  obtain ⟨-, hb⟩ := C78_positive hlp h hne hn hst hmesh one_pos (lmax := none) (by simp)
  obtain ⟨Km, hK⟩ := C35_stiffness_total lmin lmax coupling hgood hvalid hof hb
  obtain ⟨cs, hC⟩ := C37_total hgood ((C28_meshCheck_iff _).2 (Or.inr hvalid)) (C26_reciprocal h3) hof hner
  refine ⟨net, m', _, mesh, assemble Km cs,
    ((assemble Km cs).run { o with perm := perm.getD (List.range (assemble Km cs).n) }).1,
    ((assemble Km cs).run { o with perm := perm.getD (List.range (assemble Km cs).n) }).2, hn, hst, hmesh, ?_⟩
  unfold solve
  rw [hK, hC]
  rfl

/-! ## Stacked mats are supported -/

theorem thick_nonneg (h : GoodMat m) (i : ℕ) : 0 ≤ thick m i := by
  obtain ⟨S, -, hf⟩ := h.size
  unfold thick
  cases hi : m.fibers[i]? with
  | none => simp
  | some f => simpa using (hf f (List.mem_of_getElem? hi)).h.le

/-- Before the compression, a planar stacked mat is supported: no fiber can be translated without changing the closed gaps. -/
theorem C78_supported (hlp : GoodLinprog lp) (h : GoodMat m) (hw : ∀ f ∈ m.fibers, f.w = 0)
    (hn : netNew m periodic = .ok net) (hst : stackNew lp m net threshold = .ok (m', st)) (hth : KeepsTouching m threshold)
    (hmesh : meshNew st = .ok mesh) {tol : K} (htol : 0 ≤ tol) (Z : K) :
    ¬ Unsupported m' mesh.rows tol Z (fun _ => 0) := by
  rintro ⟨v, ⟨i0, hi0, hv0⟩, hsf, hkeep⟩
  obtain ⟨hck, ho, hper⟩ := netNew_over h hn
  have hne : m.fibers ≠ [] := by
    intro he
    obtain ⟨-, -, -, -, ⟨-, h2, rfl⟩ | ⟨net', g1, rfl⟩⟩ := stack_lowest hlp h hck ho hst
    · obtain ⟨mesh', e1, h3⟩ := meshNew_of_ended hck (netNew_ended h hn)
      rw [hmesh] at e1; cases e1
      obtain ⟨place, hp⟩ := C26_constraints h3
      have := hp.count
      rw [h2, List.length_nil] at this
      omega
    · obtain ⟨e1, e2⟩ := stackNew_empty (lin := lp) h hck ho he threshold
      rw [hst] at e1
      have hk := (Prod.mk.inj (Except.ok.inj e1)).2
      rw [hk] at hmesh
      obtain ⟨mesh', e1, h3⟩ := meshNew_of_ended hck (netNew_ended h hn)
      rw [hmesh] at e1; cases e1
      obtain ⟨place, hp⟩ := C26_constraints h3
      have := hp.count
      rw [e2, List.length_nil] at this
      omega
  obtain ⟨hlen, hlow, hsame, hgood, -⟩ := stack_lowest hlp h hck ho hst
  obtain ⟨net', g1, rfl, -, -, hend, h3, hvalid, hof, hner⟩ := chain_facts hlp h hne hn hst hmesh
  obtain ⟨place, hp⟩ := C26_constraints h3
  have hplan := (C12_heights_irrelevant h hgood hw hsame hn g1).2
  have hw' := same_planar hsame hw
  -- the nodes of fiber `k`
  have hthick : ∀ (i : ℕ) (a : MeshRow K), mesh.rows[i]? = some a → nodeThick m' mesh.rows i = thick m' a.fiber.toNat := by
    intro i a ha; simp [nodeThick, thick, ha]
  have hheight : ∀ (i : ℕ) (a : MeshRow K), mesh.rows[i]? = some a → nodeHeight mesh.rows i = a.z := by
    intro i a ha; simp [nodeHeight, ha]
  have hmem' : ∀ r ∈ (keep threshold net').rows, r ∈ net'.rows := by
    intro r hr
    obtain ⟨p, e, -⟩ := keep_rows threshold net'
    rw [e] at hr
    exact (List.mem_filter.1 hr).1
  have hthm : ∀ i, i < m.fibers.length → ∀ t, threshold = some t → thick m i ≤ t := by
    intro i hi t ht
    have := hth t ht _ (List.getElem_mem hi)
    simpa [thick, List.getElem?_eq_getElem hi] using this
  have hkept : ∀ r ∈ net'.rows, r.A = r.B ∨ (∀ t, threshold = some t → |r.zB - r.zA| ≤ t) → r ∈ (keep threshold net').rows := by
    intro r hr hor
    cases threshold with
    | none => exact hr
    | some t =>
      simp only [keep, thresholdRows, List.mem_filter, decide_eq_true_eq]
      exact ⟨hr, hor.elim Or.inr (fun h => Or.inl (h t rfl))⟩
  have main : ∀ k : ℕ, k < m.fibers.length → ∀ (i : ℕ) (a : MeshRow K), mesh.rows[i]? = some a → a.fiber = (k : Int) →
      v (2 * i) = 0 := by
    intro k
    induction k using Nat.strong_induction_on with
    | _ k ih =>
      intro hk i a ha haf
      rcases C20_supported hlp h hck ho hst k hk with hfloor | ⟨r, hr, hAB, hB, hz⟩
      · -- on the floor
        have hcons := C26_reciprocal h3
        -- the end row of fiber `k` gives a node constrained to itself
        have hk' : k < m'.fibers.length := by omega
        obtain ⟨q, e, he, hA, hB, -⟩ := C07_end_row hgood g1 (List.getElem?_eq_getElem hk')
        have hek := hkept e (List.mem_of_getElem? he) (Or.inl (by rw [hA, hB]))
        obtain ⟨q', hq'⟩ := List.mem_iff_getElem?.1 hek
        obtain ⟨b, hb, eb, hbc⟩ := hp.endA q' e hq'
        rw [if_pos (by rw [hA, hB])] at hbc
        have hpair : IsPair mesh.rows (place (2 * q')) (place (2 * q')) := ⟨le_rfl, b, hb, hbc⟩
        have hgap : floorGap m' mesh.rows (fun _ => 0) (place (2 * q')) = 0 := by
          have hzz := (row_heights hgood hw' g1 (hmem' e hek)).1
          simp only [floorGap, hthick _ _ hb, hheight _ _ hb, eb.z, eb.fiber, hzz, hA, Int.toNat_natCast, same_thick hsame]
          rw [hfloor]; ring
        have := (hkeep _ _ hpair).1 (by rw [hgap]; exact htol)
        rw [hsf i (place (2 * q')) ⟨a, b, ha, hb, by rw [haf, eb.fiber, hA]⟩]
        exact this
      · obtain ⟨r', hr', eA, eB⟩ := plan_mem (show planColumns net.rows = planColumns net'.rows from hplan) hr
        obtain ⟨o1, o2, o3⟩ := ho r hr
        obtain ⟨z1, z2⟩ := row_heights hgood hw' g1 hr'
        have hBn : r.B.toNat = k := by omega
        have hdist : r'.zB - r'.zA = (thick m r.A.toNat + thick m k) / 2 := by
          rw [z1, z2, eA, eB, hBn, hz, hBn]; ring
        have hrk := hkept r' hr' (Or.inr (fun t ht => by
          have t1 := hthm r.A.toNat (by omega) t ht
          have t2 := hthm k hk t ht
          have p1 : 0 ≤ thick m r.A.toNat := thick_nonneg h _
          have p2 : 0 ≤ thick m k := thick_nonneg h _
          rw [hdist, abs_of_nonneg (by linarith)]
          linarith))
        obtain ⟨q', hq'⟩ := List.mem_iff_getElem?.1 hrk
        obtain ⟨b, hb, eb, hbc⟩ := hp.endA q' r' hq'
        obtain ⟨c, hc, ec, hcc⟩ := hp.endB q' r' hq'
        have hneAB : r'.A ≠ r'.B := by rw [eA, eB]; omega
        rw [if_neg hneAB] at hbc hcc
        have hlt : place (2 * q') < place (2 * q' + 1) := by
          have hsort := (C24_mesh_sorted h3).2
          obtain ⟨i1, x1⟩ := List.getElem?_eq_some_iff.1 hb
          obtain ⟨i2, x2⟩ := List.getElem?_eq_some_iff.1 hc
          by_contra hge
          rcases Nat.lt_or_ge (place (2 * q' + 1)) (place (2 * q')) with hl | hl
          · have := List.pairwise_iff_getElem.1 hsort _ _ i2 i1 hl
            rw [x1, x2, eb.fiber, ec.fiber, eA, eB] at this
            omega
          · have e : place (2 * q') = place (2 * q' + 1) := by omega
            have hq2 := (List.getElem?_eq_some_iff.1 hq').1
            have := hp.inj _ _ (by omega) (by omega) e
            omega
        have hpair : IsPair mesh.rows (place (2 * q')) (place (2 * q' + 1)) := ⟨hlt.le, b, hb, hbc⟩
        have hgap : pairGap m' mesh.rows (fun _ => 0) (place (2 * q')) (place (2 * q' + 1)) = 0 := by
          simp only [pairGap, hthick _ _ hb, hthick _ _ hc, hheight _ _ hb, hheight _ _ hc, eb.z, eb.fiber, ec.z, ec.fiber, eA, eB,
            hBn, same_thick hsame, add_zero]
          rw [hdist]; ring
        have hvv := (hkeep _ _ hpair).2.1 hlt.ne (by rw [hgap]; exact htol)
        have hlow := ih r.A.toNat (by omega) (by omega) _ b hb (by rw [eb.fiber, eA]; omega)
        rw [hsf i (place (2 * q' + 1)) ⟨a, c, ha, hc, by rw [haf, ec.fiber, eB, hB]⟩, ← hvv]
        exact hlow
  have ha := List.getElem?_eq_getElem hi0
  obtain ⟨f1, f2⟩ := hof _ (List.getElem_mem hi0)
  exact hv0 (main (mesh.rows[i0]).fiber.toNat (by omega) i0 _ ha (by omega))

/-! ## Compression of a stacked mat -/

variable {lmin lmax : Option K} {coupling : K} {o : Opts K} {perm : Option (List ℕ)} {S : Sys K} {recs : List (Rec K)} {stop : Stop}

theorem same_tensile (hsame : SameExceptZ m m') (h : ∀ f ∈ m.fibers, f.E = ⊤) : ∀ f ∈ m'.fibers, f.E = ⊤ := by
  intro f hf
  have := List.mem_map_of_mem (f := fun f : Fiber K => { f with z := 0 }) hf
  rw [← hsame.2] at this
  obtain ⟨g, hg, e⟩ := List.mem_map.1 this
  have e2 := congrArg Fiber.E e
  exact e2.symm.trans (h g hg)

theorem chain_nonempty (hlp : GoodLinprog lp) (h : GoodMat m) (hn : netNew m periodic = .ok net)
    (hst : stackNew lp m net threshold = .ok (m', st)) (hmesh : meshNew st = .ok mesh)
    (hs : solve m' mesh lmin lmax coupling o perm = .ok (S, recs, stop)) : m.fibers ≠ [] := by
  intro he
  obtain ⟨hck, ho, hper⟩ := netNew_over h hn
  obtain ⟨e1, e2⟩ := stackNew_empty (lin := lp) h hck ho he threshold
  rw [hst] at e1
  obtain ⟨e3, e4⟩ := Prod.mk.inj (Except.ok.inj e1)
  subst e3 e4
  obtain ⟨mesh', q1, h3⟩ := meshNew_of_ended hck (netNew_ended h hn)
  rw [hmesh] at q1; cases q1
  obtain ⟨place, hp⟩ := C26_constraints h3
  have hc := hp.count
  rw [e2, List.length_nil] at hc
  obtain ⟨Km, cs, -, hC, -⟩ := solve_run hs
  obtain ⟨⟨i, hi, -⟩, -⟩ := (C37_geometric hC h (C26_reciprocal h3)).1
  omega

/-- At every state of the compression of a planar stacked mat the fibers are supported. -/
theorem chain_supported (hlp : GoodLinprog lp) (h : GoodMat m) (hw : ∀ f ∈ m.fibers, f.w = 0)
    (hn : netNew m periodic = .ok net) (hst : stackNew lp m net threshold = .ok (m', st)) (hth : KeepsTouching m threshold)
    (hmesh : meshNew st = .ok mesh) (hs : solve m' mesh lmin lmax coupling o perm = .ok (S, recs, stop))
    (hp : PositiveLengths mesh.rows lmin lmax) (htol : 0 ≤ o.tol) (hlin : ExactLin o.lin) (hperm : PermOf S.n perm)
    {k : ℕ} {a : Rec K} (ha : recs[k]? = some a) : ¬ Unsupported m' mesh.rows o.tol a.Z a.x := by
  have hne := chain_nonempty hlp h hn hst hmesh hs
  obtain ⟨net', g1, rfl, hgood, -⟩ := chain_facts hlp h hne hn hst hmesh
  obtain ⟨-, a0, ha0, hx0, -, hZ0, -⟩ := C40_itermax hs
  refine C77_supported hs hgood hp htol hlin hperm 0 k (by omega) a0 a ha0 ha ?_
  have e : a0.x = fun _ => 0 := funext hx0
  rw [e]
  exact C78_supported hlp h hw hn hst hth hmesh htol _

/-- The compression of a planar stacked mat never lets the nodes penetrate each other or the plates, and the plate rests on the
highest node. -/
theorem C78_nonPenetrating (hlp : GoodLinprog lp) (h : GoodMat m) (hw : ∀ f ∈ m.fibers, f.w = 0)
    (hn : netNew m periodic = .ok net) (hst : stackNew lp m net threshold = .ok (m', st))
    (hmesh : meshNew st = .ok mesh) (hs : solve m' mesh lmin lmax coupling o perm = .ok (S, recs, stop))
    (hp : PositiveLengths mesh.rows lmin lmax) (htol : 0 ≤ o.tol) (hlin : ExactLin o.lin) (hperm : PermOf S.n perm)
    (k : ℕ) (a : Rec K) (ha : recs[k]? = some a) :
    NonPenetrating m' mesh.rows a.Z a.x ∧ IsTop m' (mesh.deform a.x).rows a.Z := by
  have hne := chain_nonempty hlp h hn hst hmesh hs
  obtain ⟨net', g1, rfl, hgood, hsame, hend, h3, hvalid, hof, hner⟩ := chain_facts hlp h hne hn hst hmesh
  obtain ⟨Km, cs, hK, hC, -⟩ := solve_run hs
  have hadm := (C38_stacked hlp h hw hn hst h3 hC).1
  exact ⟨C46_nonPenetrating hs hgood hp htol hlin hperm hC hadm (C26_reciprocal h3) k a ha,
    C75_touches hs hgood hp htol hlin hperm hC hadm (C26_reciprocal h3) k a ha⟩

/-- The compression of a planar stacked mat, with a coupling below one (or infinite tensile moduli) and enough iterations, goes on
until the target packing is reached or the material is squeezed solid between the plates. -/
theorem C78_end (hlp : GoodLinprog lp) (h : GoodMat m) (hw : ∀ f ∈ m.fibers, f.w = 0)
    (hn : netNew m periodic = .ok net) (hst : stackNew lp m net threshold = .ok (m', st)) (hth : KeepsTouching m threshold)
    (hmesh : meshNew st = .ok mesh) (hs : solve m' mesh lmin lmax coupling o perm = .ok (S, recs, stop))
    (hp : PositiveLengths mesh.rows lmin lmax) (hcoup : |coupling| ≤ 1) (hor : |coupling| < 1 ∨ ∀ f ∈ m.fibers, f.E = ⊤)
    (htol : 0 ≤ o.tol) (herr : 0 ≤ o.errtol) (hlin : GoodLin o.lin) (hperm : PermOf S.n perm)
    (hiter : 3 * mesh.rows.length < o.itermax) :
    ∃ a, recs.getLast? = some a ∧ (Cell.lt a.rlambda o.packing = false ∨ Jammed m' mesh.rows o.tol a.Z a.x) := by
  have hne := chain_nonempty hlp h hn hst hmesh hs
  obtain ⟨net', g1, rfl, hgood, hsame, hend, h3, hvalid, hof, hner⟩ := chain_facts hlp h hne hn hst hmesh
  obtain ⟨Km, cs, hK, hC, -⟩ := solve_run hs
  obtain ⟨-, ⟨L, hL⟩, -⟩ := C65_lengths hK
  obtain ⟨a, ha, h1 | h1 | h1⟩ := C73_completion hs hgood hvalid hp hcoup hL htol herr hlin hperm hner hiter
  · exact ⟨a, ha, Or.inl h1⟩
  · exact ⟨a, ha, Or.inr h1⟩
  · exfalso
    rw [C73_translation hK hgood hvalid hp hcoup hL (hor.imp_right (same_tensile hsame))] at h1
    exact chain_supported hlp h hw hn hst hth hmesh hs hp htol hlin.1 hperm (getLast_getElem ha) h1

/-- Its result does not depend on the linear solver nor on the permutation of the unknowns. -/
theorem C78_determined (hlp : GoodLinprog lp) (h : GoodMat m) (hw : ∀ f ∈ m.fibers, f.w = 0)
    (hn : netNew m periodic = .ok net) (hst : stackNew lp m net threshold = .ok (m', st)) (hth : KeepsTouching m threshold)
    (hmesh : meshNew st = .ok mesh) (hs : solve m' mesh lmin lmax coupling o perm = .ok (S, recs, stop))
    (hp : PositiveLengths mesh.rows lmin lmax) (hcoup : |coupling| ≤ 1) (hor : |coupling| < 1 ∨ ∀ f ∈ m.fibers, f.E = ⊤)
    (htol : 0 ≤ o.tol) (hlin : GoodLin o.lin) (hperm : PermOf S.n perm) {lin' : LinSolver K} (hlin' : GoodLin lin')
    {perm' : Option (List ℕ)} (hperm' : PermOf S.n perm') :
    solve m' mesh lmin lmax coupling { o with lin := lin' } perm' = .ok (S, recs, stop) := by
  have hne := chain_nonempty hlp h hn hst hmesh hs
  obtain ⟨net', g1, rfl, hgood, hsame, hend, h3, hvalid, hof, hner⟩ := chain_facts hlp h hne hn hst hmesh
  obtain ⟨Km, cs, hK, hC, -⟩ := solve_run hs
  obtain ⟨-, ⟨L, hL⟩, -⟩ := C65_lengths hK
  refine C74_determined hs hgood hvalid hp hcoup hL htol hlin hperm ?_ hlin' hperm'
  intro a ha _ hf
  rw [C73_translation hK hgood hvalid hp hcoup hL (hor.imp_right (same_tensile hsame))] at hf
  obtain ⟨k, hk⟩ := List.mem_iff_getElem?.1 ha
  exact chain_supported hlp h hw hn hst hth hmesh hs hp htol hlin.1 hperm hk hf

/-- Without coupling (`coupling = 0`, or infinite tensile moduli), its nodes only move down, and not more than the plate: the
documented condition `u ≤ 0` (`solver.py:21-25`). -/
theorem C78_downward (hlp : GoodLinprog lp) (h : GoodMat m) (hw : ∀ f ∈ m.fibers, f.w = 0)
    (hn : netNew m periodic = .ok net) (hst : stackNew lp m net threshold = .ok (m', st)) (hth : KeepsTouching m threshold)
    (hmesh : meshNew st = .ok mesh) (hs : solve m' mesh lmin lmax coupling o perm = .ok (S, recs, stop))
    (hp : PositiveLengths mesh.rows lmin lmax) (hor : coupling = 0 ∨ ∀ f ∈ m.fibers, f.E = ⊤)
    (htol : 0 ≤ o.tol) (hlin : ExactLin o.lin) (hperm : PermOf S.n perm) (k : ℕ) (a : Rec K) (ha : recs[k]? = some a)
    (i : ℕ) (hi : i < mesh.rows.length) : a.Z - S.Z0 ≤ a.x (2 * i) ∧ a.x (2 * i) ≤ 0 := by
  have hne := chain_nonempty hlp h hn hst hmesh hs
  obtain ⟨net', g1, rfl, hgood, hsame, hend, h3, hvalid, hof, hner⟩ := chain_facts hlp h hne hn hst hmesh
  exact C76_downward hs hgood hvalid hp (hor.imp_right (same_tensile hsame)) htol hlin hperm k a ha
    (fun j b _ hb => chain_supported hlp h hw hn hst hth hmesh hs hp htol hlin hperm hb) i hi

end Chain

end Fibermat
