import Verif.Spec.Dropped
import Verif.Props.Limit

/-! # Connections dropped by the threshold of a stack (C116) -/

set_option linter.unusedSectionVars false
set_option linter.unusedSimpArgs false

namespace Fibermat
open Spec

section General

variable {K : Type} [Field K] [LinearOrder K] [IsStrictOrderedRing K]
variable {lp : Linprog K} {m m' : Mat K} {periodic : Bool} {net st full : Net K} {mesh : Mesh K}
  {lmin lmax : Option K} {coupling : K} {o : Opts K} {perm : Option (List ℕ)} {S : Sys K} {recs : List (Rec K)} {stop : Stop} {t : K}

/-- Each node of the mesh of a planar stack is at the height of its fiber. -/
theorem chain_height {threshold : Option K} (hlp : GoodLinprog lp) (h : GoodMat m) (hne : m.fibers ≠ [])
    (hw : ∀ f ∈ m.fibers, f.w = 0) (hn : netNew m periodic = .ok net) (hst : stackNew lp m net threshold = .ok (m', st))
    (hmesh : meshNew st = .ok mesh) {i : ℕ} {a : MeshRow K} (ha : mesh.rows[i]? = some a) :
    nodeHeight mesh.rows i = heightOf m' a.fiber.toNat := by
  obtain ⟨net', g1, rfl, hgood, hsame, -, h3, -⟩ := chain_facts hlp h hne hn hst hmesh
  obtain ⟨place, hp⟩ := C26_constraints h3
  have hrows : ∀ r ∈ (keep threshold net').rows, r.zA = heightOf m' r.A.toNat ∧ r.zB = heightOf m' r.B.toNat := by
    intro r hr
    obtain ⟨p, e, -⟩ := keep_rows threshold net'
    rw [e] at hr
    exact row_heights hgood (same_planar hsame hw) g1 (List.mem_filter.1 hr).1
  have e : nodeHeight mesh.rows i = a.z := by simp [nodeHeight, ha]
  obtain ⟨k, r, hk, ⟨-, ea, -⟩ | ⟨-, ea, -⟩⟩ := placement_cases hp ha
  · rw [e, ea.z, ea.fiber]; exact (hrows r (List.mem_of_getElem? hk)).1
  · rw [e, ea.z, ea.fiber]; exact (hrows r (List.mem_of_getElem? hk)).2

/-- The fibers of a dropped connection are further apart than the threshold. -/
theorem C116_dropped (hlp : GoodLinprog lp) (h : GoodMat m) (hw : ∀ f ∈ m.fibers, f.w = 0)
    (hn : netNew m periodic = .ok net) (hfull : stackNew lp m net none = .ok (m', full))
    (hst : stackNew lp m net (some t) = .ok (m', st)) {r : NetRow K} (hr : r ∈ full.rows) (hdrop : r ∉ st.rows) :
    r.A < r.B ∧ t < heightOf m' r.B.toNat - heightOf m' r.A.toNat := by
  obtain ⟨hck, ho, -⟩ := netNew_over h hn
  obtain ⟨st', e, -, -, hiff, -⟩ := C19_threshold h hck ho t hfull
  rw [hst] at e; cases e
  have hno : ¬ (r.A = r.B ∨ |r.zB - r.zA| ≤ t) := fun hc => hdrop ((hiff r hr).2 hc)
  push Not at hno
  obtain ⟨-, -, hcol, hz⟩ := C18_vertical hlp h hw hn hfull
  have hAB : r.A < r.B := by
    obtain ⟨q, hq, e1, e2⟩ : ∃ q ∈ net.rows, q.A = r.A ∧ q.B = r.B := by
      have : (r.A, r.B, r.sA, r.sB, r.xA, r.yA, r.xB, r.yB) ∈ planColumns full.rows := List.mem_map.2 ⟨r, hr, rfl⟩
      rw [hcol] at this
      obtain ⟨q, hq, e⟩ := List.mem_map.1 this
      simp only [Prod.mk.injEq] at e
      exact ⟨q, hq, e.1, e.2.1⟩
    have := (ho q hq).2.1
    have h1 := hno.1
    omega
  refine ⟨hAB, ?_⟩
  have hov := (C17_no_overlap hlp h hw hn hfull).2 r hr hAB
  obtain ⟨z1, z2⟩ := hz r hr
  obtain ⟨hlen, -, -, hgood, -⟩ := stack_lowest hlp h hck ho hfull
  have hth : ∀ k, 0 ≤ thick m' k := by
    intro k
    unfold thick
    rcases hk : m'.fibers[k]? with _ | f
    · simp
    · obtain ⟨Sz, -, hf⟩ := hgood.size
      simpa using (hf f (List.mem_of_getElem? hk)).h.le
  have h1 := hth r.A.toNat
  have h2 := hth r.B.toNat
  have h3 := hno.2
  rw [abs_of_nonneg (by linarith)] at h3
  rwa [← z1, ← z2]

/-- During the compression of a planar stacked mat (without coupling), the nodes of two fibers whose connection was dropped stay
apart, up to the travel of the plate. -/
theorem C116_clearance (hlp : GoodLinprog lp) (h : GoodMat m) (hw : ∀ f ∈ m.fibers, f.w = 0)
    (hn : netNew m periodic = .ok net) (hfull : stackNew lp m net none = .ok (m', full))
    (hst : stackNew lp m net (some t) = .ok (m', st)) (hth : KeepsTouching m (some t)) (hmesh : meshNew st = .ok mesh)
    (hs : solve m' mesh lmin lmax coupling o perm = .ok (S, recs, stop)) (hp : PositiveLengths mesh.rows lmin lmax)
    (hor : coupling = 0 ∨ ∀ f ∈ m.fibers, f.E = ⊤) (htol : 0 ≤ o.tol) (hlin : ExactLin o.lin) (hperm : PermOf S.n perm)
    {r : NetRow K} (hr : r ∈ full.rows) (hdrop : r ∉ st.rows) (k : ℕ) (a : Rec K) (ha : recs[k]? = some a)
    (i j : ℕ) (p q : MeshRow K) (hi : mesh.rows[i]? = some p) (hj : mesh.rows[j]? = some q) (hA : p.fiber = r.A)
    (hB : q.fiber = r.B) :
    t - (S.Z0 - a.Z) < (nodeHeight mesh.rows j + a.x (2 * j)) - (nodeHeight mesh.rows i + a.x (2 * i)) := by
  have hne := chain_nonempty hlp h hn hst hmesh hs
  obtain ⟨-, hlt⟩ := C116_dropped hlp h hw hn hfull hst hr hdrop
  rw [chain_height hlp h hne hw hn hst hmesh hi, chain_height hlp h hne hw hn hst hmesh hj, hA, hB]
  have h1 := C78_downward hlp h hw hn hst hth hmesh hs hp hor htol hlin hperm k a ha i (List.getElem?_eq_some_iff.1 hi).1
  have h2 := C78_downward hlp h hw hn hst hth hmesh hs hp hor htol hlin hperm k a ha j (List.getElem?_eq_some_iff.1 hj).1
  linarith [h1.2, h2.1]

/-- So do the points in between (linear interpolation along the beams). -/
theorem C116_between (hlp : GoodLinprog lp) (h : GoodMat m) (hw : ∀ f ∈ m.fibers, f.w = 0)
    (hn : netNew m periodic = .ok net) (hfull : stackNew lp m net none = .ok (m', full))
    (hst : stackNew lp m net (some t) = .ok (m', st)) (hth : KeepsTouching m (some t)) (hmesh : meshNew st = .ok mesh)
    (hs : solve m' mesh lmin lmax coupling o perm = .ok (S, recs, stop)) (hp : PositiveLengths mesh.rows lmin lmax)
    (hor : coupling = 0 ∨ ∀ f ∈ m.fibers, f.E = ⊤) (htol : 0 ≤ o.tol) (hlin : ExactLin o.lin) (hperm : PermOf S.n perm)
    {r : NetRow K} (hr : r ∈ full.rows) (hdrop : r ∉ st.rows) (k : ℕ) (a : Rec K) (ha : recs[k]? = some a)
    (i i' j j' : ℕ) (hi : OnFiber mesh.rows r.A i) (hi' : OnFiber mesh.rows r.A i') (hj : OnFiber mesh.rows r.B j)
    (hj' : OnFiber mesh.rows r.B j') (c d : K) (hc : 0 ≤ c ∧ c ≤ 1) (hd : 0 ≤ d ∧ d ≤ 1) :
    t - (S.Z0 - a.Z) < between (fun n => nodeHeight mesh.rows n + a.x (2 * n)) j j' d -
      between (fun n => nodeHeight mesh.rows n + a.x (2 * n)) i i' c := by
  obtain ⟨p, hp1, hp2⟩ := hi
  obtain ⟨p', hp1', hp2'⟩ := hi'
  obtain ⟨q, hq1, hq2⟩ := hj
  obtain ⟨q', hq1', hq2'⟩ := hj'
  have key := C116_clearance hlp h hw hn hfull hst hth hmesh hs hp hor htol hlin hperm hr hdrop k a ha
  have h1 := key i j p q hp1 hq1 hp2 hq2
  have h2 := key i j' p q' hp1 hq1' hp2 hq2'
  have h3 := key i' j p' q hp1' hq1 hp2' hq2
  have h4 := key i' j' p' q' hp1' hq1' hp2' hq2'
  unfold between
  simp only
  generalize nodeHeight mesh.rows i + a.x (2 * i) = yi at *
  generalize nodeHeight mesh.rows i' + a.x (2 * i') = yi' at *
  generalize nodeHeight mesh.rows j + a.x (2 * j) = yj at *
  generalize nodeHeight mesh.rows j' + a.x (2 * j') = yj' at *
  obtain ⟨c0, c1⟩ := hc
  obtain ⟨d0, d1⟩ := hd
  have e1 : t - (S.Z0 - a.Z) < (1 - d) * yj + d * yj' - yi := by
    rcases d0.eq_or_lt with rfl | d0
    · linarith
    · nlinarith [mul_nonneg (sub_nonneg.2 d1) (sub_nonneg.2 h1.le), mul_pos d0 (sub_pos.2 h2)]
  have e2 : t - (S.Z0 - a.Z) < (1 - d) * yj + d * yj' - yi' := by
    rcases d0.eq_or_lt with rfl | d0
    · linarith
    · nlinarith [mul_nonneg (sub_nonneg.2 d1) (sub_nonneg.2 h3.le), mul_pos d0 (sub_pos.2 h4)]
  rcases c0.eq_or_lt with rfl | c0
  · linarith
  · nlinarith [mul_nonneg (sub_nonneg.2 c1) (sub_nonneg.2 e1.le), mul_pos c0 (sub_pos.2 e2)]

/-- As long as the plate has moved by no more than the threshold minus the distance of the axes at contact, the dropped connections
stay open. -/
theorem C116_open (hlp : GoodLinprog lp) (h : GoodMat m) (hw : ∀ f ∈ m.fibers, f.w = 0)
    (hn : netNew m periodic = .ok net) (hfull : stackNew lp m net none = .ok (m', full))
    (hst : stackNew lp m net (some t) = .ok (m', st)) (hth : KeepsTouching m (some t)) (hmesh : meshNew st = .ok mesh)
    (hs : solve m' mesh lmin lmax coupling o perm = .ok (S, recs, stop)) (hp : PositiveLengths mesh.rows lmin lmax)
    (hor : coupling = 0 ∨ ∀ f ∈ m.fibers, f.E = ⊤) (htol : 0 ≤ o.tol) (hlin : ExactLin o.lin) (hperm : PermOf S.n perm)
    {r : NetRow K} (hr : r ∈ full.rows) (hdrop : r ∉ st.rows) (k : ℕ) (a : Rec K) (ha : recs[k]? = some a)
    (htravel : S.Z0 - a.Z ≤ t - (thick m r.A.toNat + thick m r.B.toNat) / 2)
    (i j : ℕ) (hi : OnFiber mesh.rows r.A i) (hj : OnFiber mesh.rows r.B j) : 0 < pairGap m' mesh.rows a.x i j := by
  obtain ⟨p, hp1, hp2⟩ := hi
  obtain ⟨q, hq1, hq2⟩ := hj
  have key := C116_clearance hlp h hw hn hfull hst hth hmesh hs hp hor htol hlin hperm hr hdrop k a ha i j p q hp1 hq1 hp2 hq2
  have hne := chain_nonempty hlp h hn hst hmesh hs
  obtain ⟨-, -, -, -, hsame, -⟩ := chain_facts hlp h hne hn hst hmesh
  have tp : nodeThick m' mesh.rows i = thick m r.A.toNat := by
    rw [← same_thick hsame, ← hp2]; simp [nodeThick, thick, hp1]
  have tq : nodeThick m' mesh.rows j = thick m r.B.toNat := by
    rw [← same_thick hsame, ← hq2]; simp [nodeThick, thick, hq1]
  unfold pairGap
  rw [tp, tq]
  linarith

end General

end Fibermat
