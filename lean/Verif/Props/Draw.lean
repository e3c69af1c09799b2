import Verif.Lemmas.Draw
import Verif.Props.Main
import Verif.Props.NetMesh
import Verif.Props.Vtk
import Verif.Props.Limit
import Verif.Lemmas.Deform

/-! # C97: the drawings of a mesh -/

set_option linter.unusedSectionVars false

namespace Fibermat
open Spec
variable {K : Type} [Field K] [LinearOrder K] [IsStrictOrderedRing K]

/-- What is drawn for nodes in order, joined in cycles along the fibers and in pairs by the connections. -/
theorem draw_eq {net : List (NetRow K)} {m : Mesh K} {place : ℕ → ℕ} (hb : BeamsCyclic m.rows) (hs : NodesSorted m.rows)
    (hp : Placement net m.rows place) :
    ∃ P, drawMesh m = .ok P ∧
      P.beams = (m.rows.zip m.rows.tail).filterMap
        (fun p => if p.1.fiber = p.2.fiber ∧ p.1.s < p.2.s then some (p.1.pos, p.2.pos, p.1.fiber % 10) else none) ∧
      P.contacts.Perm (net.flatMap upward) ∧
      P.ends.Perm (net.flatMap (fun r => if r.A = r.B then [(ptA r, ptA r), (ptB r, ptB r)] else [])) := by
  set nb : MeshRow K → MeshRow K := fun r => m.rows.getD r.beam.toNat r with hnb
  set nc : MeshRow K → MeshRow K := fun r => m.rows.getD r.constraint.toNat r with hnc
  have hrec := placement_reciprocal hp
  have hfold := draw_fold m.rows nb nc m.rows ⟨[], [], []⟩ (by
    intro r hr
    obtain ⟨i, hi⟩ := List.mem_iff_getElem?.1 hr
    obtain ⟨j, e, r', p, h1, h2, -⟩ := hb i r hi
    obtain ⟨j', p', e', h2', -⟩ := hrec i r hi
    refine ⟨ilocAt_ok (by omega) ?_, ilocAt_ok (by omega) ?_⟩
    · simp only [hnb, e, Int.toNat_natCast, List.getD_eq_getElem?_getD, h2, Option.getD_some]
    · simp only [hnc, e', Int.toNat_natCast, List.getD_eq_getElem?_getD, h2', Option.getD_some])
  refine ⟨_, hfold, ?_, ?_, ?_⟩
  · simp only [List.nil_append]
    rw [zip_tail, filterMap_range]
    apply List.filterMap_congr
    intro i hi
    have hi' := List.mem_range.1 hi
    have hr : m.rows[i]? = some m.rows[i] := List.getElem?_eq_getElem hi'
    obtain ⟨j, e, r, p, h1, h2, hf, hc⟩ := hb i _ hr
    rw [hr] at h1
    cases h1
    have enb : nb m.rows[i] = p := by simp only [hnb, e, Int.toNat_natCast, List.getD_eq_getElem?_getD, h2, Option.getD_some]
    rw [hr]
    simp only [Option.bind_some, enb]
    rcases hc with ⟨-, rfl⟩ | ⟨hlast, hfirst⟩
    · rw [h2]
      simp only [Option.bind_some, hf, true_and]
    · have hns : ¬ m.rows[i].s < p.s := by
        intro hlt
        rcases Nat.lt_or_ge i j with hij | hij
        · obtain ⟨r', hr', hall⟩ := hlast
          rw [hr] at hr'
          cases hr'
          exact hall j p hij h2 hf
        · rcases Nat.eq_or_lt_of_le hij with rfl | hji
          · rw [hr] at h2; cases h2; exact lt_irrefl _ hlt
          · have hjl : j < m.rows.length := by omega
            have := List.pairwise_iff_getElem.1 hs j i hjl hi' hji
            have ep : m.rows[j] = p := by rw [List.getElem?_eq_getElem hjl] at h2; exact Option.some.inj h2
            rw [ep] at this
            rcases this with h | h
            · omega
            · exact absurd hlt (not_lt.2 h.2)
      rw [if_neg hns]
      cases h3 : m.rows[i + 1]? with
      | none => rfl
      | some q =>
        simp only [Option.bind_some]
        rw [if_neg]
        rintro ⟨h4, -⟩
        obtain ⟨r', hr', hall⟩ := hlast
        rw [hr] at hr'
        cases hr'
        exact hall (i + 1) q (by omega) h3 h4.symm
  · simp only [List.nil_append]
    apply placement_filterMap hp
    intro k r a b hk ha hbb
    obtain ⟨a', ha', hA, hcA⟩ := hp.endA k r hk
    obtain ⟨b', hb', hB, hcB⟩ := hp.endB k r hk
    rw [ha] at ha'; cases ha'
    rw [hbb] at hb'; cases hb'
    have pa : a.pos = ptA r := by simp [MeshRow.pos, ptA, hA.x, hA.y, hA.z]
    have pb : b.pos = ptB r := by simp [MeshRow.pos, ptB, hB.x, hB.y, hB.z]
    unfold upward
    by_cases hAB : r.A = r.B
    · rw [if_pos hAB] at hcA hcB ⊢
      have e1 : nc a = a := by simp [hnc, hcA, List.getD_eq_getElem?_getD, ha]
      have e2 : nc b = b := by simp [hnc, hcB, List.getD_eq_getElem?_getD, hbb]
      rw [e1, e2]
      simp
    · rw [if_neg hAB] at hcA hcB ⊢
      have e1 : nc a = b := by simp [hnc, hcA, List.getD_eq_getElem?_getD, hbb]
      have e2 : nc b = a := by simp [hnc, hcB, List.getD_eq_getElem?_getD, ha]
      rw [e1, e2, pa, pb, hA.z, hB.z]
      rcases lt_trichotomy r.zA r.zB with h | h | h
      · simp [h, not_lt.2 h.le]
      · simp [h]
      · simp [h, not_lt.2 h.le]
  · simp only [List.nil_append]
    apply placement_filterMap hp
    intro k r a b hk ha hbb
    obtain ⟨a', ha', hA, hcA⟩ := hp.endA k r hk
    obtain ⟨b', hb', hB, hcB⟩ := hp.endB k r hk
    rw [ha] at ha'; cases ha'
    rw [hbb] at hb'; cases hb'
    have pa : a.pos = ptA r := by simp [MeshRow.pos, ptA, hA.x, hA.y, hA.z]
    have pb : b.pos = ptB r := by simp [MeshRow.pos, ptB, hB.x, hB.y, hB.z]
    by_cases hAB : r.A = r.B
    · rw [if_pos hAB] at hcA hcB ⊢
      have e1 : nc a = a := by simp [hnc, hcA, List.getD_eq_getElem?_getD, ha]
      have e2 : nc b = b := by simp [hnc, hcB, List.getD_eq_getElem?_getD, hbb]
      rw [e1, e2, pa, pb]
      simp
    · rw [if_neg hAB] at hcA hcB ⊢
      have e1 : nc a = b := by simp [hnc, hcA, List.getD_eq_getElem?_getD, hbb]
      have e2 : nc b = a := by simp [hnc, hcB, List.getD_eq_getElem?_getD, ha]
      rw [e1, e2, hA.fiber, hB.fiber]
      simp [hAB, Ne.symm hAB]

/-- C97: the drawing of the mesh of any network completes; it consists of the pieces of fiber between consecutive nodes (those of
positive length), of the connections between two fibers, each once and upwards (unless horizontal), and of crosses at the two ends given by
the connections of a fiber to itself. -/
theorem C97_drawing {net : Net K} {mesh : Mesh K} (h : meshInit net = .ok mesh) :
    ∃ P, drawMesh mesh = .ok P ∧
      P.beams = (mesh.rows.zip mesh.rows.tail).filterMap
        (fun p => if p.1.fiber = p.2.fiber ∧ p.1.s < p.2.s then some (p.1.pos, p.2.pos, p.1.fiber % 10) else none) ∧
      P.contacts.Perm (net.rows.flatMap upward) ∧
      P.ends.Perm (net.rows.flatMap (fun r => if r.A = r.B then [(ptA r, ptA r), (ptB r, ptB r)] else [])) := by
  obtain ⟨place, hp⟩ := C26_constraints h
  exact draw_eq (C25_beams_cyclic h) (C24_mesh_sorted h).2 hp

/-- Between two nodes of a fiber every abscissa is in one interval between consecutive nodes. -/
theorem unique_piece {rows : List (MeshRow K)} (hs : NodesSorted rows) {a b : MeshRow K} (ha : a ∈ rows) (hb : b ∈ rows)
    (hf : a.fiber = b.fiber) {t : K} (h1 : a.s ≤ t) (h2 : t < b.s) :
    ∃! i : ℕ, ∃ p q, rows[i]? = some p ∧ rows[i + 1]? = some q ∧ p.fiber = a.fiber ∧ q.fiber = a.fiber ∧ p.s ≤ t ∧ t < q.s := by
  classical
  obtain ⟨ia, hia⟩ := List.mem_iff_getElem?.1 ha
  obtain ⟨ib, hib⟩ := List.mem_iff_getElem?.1 hb
  have sorted : ∀ (i j : ℕ) (p q : MeshRow K), i < j → rows[i]? = some p → rows[j]? = some q →
      p.fiber < q.fiber ∨ (p.fiber = q.fiber ∧ p.s ≤ q.s) := by
    intro i j p q hij hp hq
    obtain ⟨hi, ei⟩ := List.getElem?_eq_some_iff.1 hp
    obtain ⟨hj, ej⟩ := List.getElem?_eq_some_iff.1 hq
    have := List.pairwise_iff_getElem.1 hs i j hi hj hij
    rwa [ei, ej] at this
  have hab : ia < ib := by
    by_contra hn
    rcases Nat.eq_or_lt_of_le (not_lt.1 hn) with e | e
    · rw [e] at hib; rw [hia] at hib; cases hib; exact absurd (lt_of_le_of_lt h1 h2) (lt_irrefl _)
    · rcases sorted ib ia b a e hib hia with h | h
      · omega
      · exact absurd (lt_of_le_of_lt (h.2.trans h1) h2) (lt_irrefl _)
  let Q : ℕ → Prop := fun i => ∃ p, rows[i]? = some p ∧ p.fiber = a.fiber ∧ p.s ≤ t
  have hQ : Q ia := ⟨a, hia, rfl, h1⟩
  set i := Nat.findGreatest Q ib with hidef
  have hQi : Q i := Nat.findGreatest_spec hab.le hQ
  have hile : i ≤ ib := Nat.findGreatest_le ib
  obtain ⟨p, hp, hpf, hps⟩ := hQi
  have hne : i ≠ ib := by
    intro e
    rw [e, hib] at hp
    cases hp
    exact absurd (lt_of_le_of_lt hps h2) (lt_irrefl _)
  have hlt : i + 1 < rows.length := by
    have := (List.getElem?_eq_some_iff.1 hib).1
    omega
  have hq : rows[i + 1]? = some rows[i + 1] := List.getElem?_eq_getElem hlt
  have hqf : rows[i + 1].fiber = a.fiber := by
    have c1 := sorted i (i + 1) p _ (by omega) hp hq
    rcases Nat.eq_or_lt_of_le (show i + 1 ≤ ib by omega) with e | e
    · have : rows[i + 1]? = some b := by rw [e]; exact hib
      rw [hq] at this
      rw [Option.some.inj this, hf]
    · have c2 := sorted (i + 1) ib _ b e hq hib
      rw [← hf] at c2
      rcases c1 with c1 | c1 <;> rcases c2 with c2 | c2 <;> omega
  have hqs : t < rows[i + 1].s := by
    by_contra hle
    have : i + 1 ≤ i := by
      have : Q (i + 1) := ⟨_, hq, hqf, not_lt.1 hle⟩
      exact Nat.le_findGreatest (by omega) this
    omega
  refine ⟨i, ⟨p, _, hp, hq, hpf, hqf, hps, hqs⟩, ?_⟩
  rintro j ⟨p', q', hp', hq', hpf', hqf', hps', hqs'⟩
  have excl : ∀ (i j : ℕ) (q p' : MeshRow K), i < j → rows[i + 1]? = some q → rows[j]? = some p' → q.fiber = a.fiber → p'.fiber = a.fiber →
      t < q.s → p'.s ≤ t → False := by
    intro i j q p' hij hq hp' hqf hpf' hqs hps'
    rcases Nat.eq_or_lt_of_le (show i + 1 ≤ j by omega) with e | e
    · rw [e, hp'] at hq; cases hq; exact absurd (lt_of_le_of_lt hps' hqs) (lt_irrefl _)
    · rcases sorted _ _ _ _ e hq hp' with h | h
      · omega
      · exact absurd (lt_of_le_of_lt (h.2.trans hps') hqs) (lt_irrefl _)
  rcases lt_trichotomy i j with h | h | h
  · exact (excl i j _ _ h hq hp' hqf hpf' hqs hps').elim
  · exact h.symm
  · exact (excl j i _ _ h hq' hp hqf' hpf hqs' hps).elim

section
variable {m : Mat K} (h : GoodMat m) {periodic : Bool} {net : Net K} (hn : netNew m periodic = .ok net) {threshold : Option K}
  {mesh : Mesh K} (hmesh : meshInit (keep threshold net) = .ok mesh)
include h hn hmesh

/-- The nodes of the mesh of a network are on their fibers. -/
theorem node_on_fiber {a : MeshRow K} (ha : a ∈ mesh.rows) :
    ∃ (k : ℕ) (f : Fiber K), a.fiber = (k : Int) ∧ m.fibers[k]? = some f ∧ a.pos = pointAt f a.s := by
  obtain ⟨place, hp⟩ := C26_constraints hmesh
  obtain ⟨i, hi⟩ := List.mem_iff_getElem?.1 ha
  obtain ⟨p, e, -⟩ := keep_rows threshold net
  obtain ⟨k, r, hk, hc⟩ := placement_cases hp hi
  have hr : r ∈ net.rows := by
    have := List.mem_of_getElem? hk
    rw [e] at this
    exact (List.mem_filter.1 this).1
  obtain ⟨f, g, ⟨x, y, hA, hB, hf, hg⟩, e1, e2, -⟩ := C08_nodes_on_fibers h hn hr
  rcases hc with ⟨-, he, -⟩ | ⟨-, he, -⟩
  · exact ⟨x, f, by rw [he.fiber, hA], hf, by rw [MeshRow.pos, he.x, he.y, he.z, he.s, e1]⟩
  · exact ⟨y, g, by rw [he.fiber, hB], hg, by rw [MeshRow.pos, he.x, he.y, he.z, he.s, e2]⟩

/-- C97: every point of a fiber is on exactly one of the pieces drawn for it, whose two ends are on the fiber. -/
theorem C97_fibers_covered {k : ℕ} {f : Fiber K} (hf : m.fibers[k]? = some f) {t : K} (h1 : -(f.l / 2) ≤ t) (h2 : t < f.l / 2) :
    ∃! i : ℕ, ∃ p q, mesh.rows[i]? = some p ∧ mesh.rows[i + 1]? = some q ∧ p.fiber = (k : Int) ∧ q.fiber = (k : Int) ∧
      p.s ≤ t ∧ t < q.s ∧ p.pos = pointAt f p.s ∧ q.pos = pointAt f q.s := by
  obtain ⟨p, e, hself⟩ := keep_rows threshold net
  have hend : Ended (keep threshold net).rows (halfLength m) := by
    rw [e]; exact (netNew_ended h hn).filter p hself
  obtain ⟨⟨a, ha, haf, has⟩, ⟨b, hb, hbf, hbs⟩⟩ := spans_of_ended hend (by
    intro i f hf
    obtain ⟨k, r, hk, hA, hB, -⟩ := C07_end_row h hn hf
    have hr := List.mem_of_getElem? hk
    exact ⟨r, by rw [e]; exact List.mem_filter.2 ⟨hr, hself r hr (by omega)⟩, hA, hB⟩) hmesh k f hf
  have pos : ∀ a ∈ mesh.rows, a.fiber = (k : Int) → a.pos = pointAt f a.s := by
    intro a ha hk
    obtain ⟨k', f', e1, e2, e3⟩ := node_on_fiber h hn hmesh ha
    have : k' = k := by omega
    subst this
    rw [hf] at e2
    cases e2
    exact e3
  obtain ⟨i, ⟨p, q, g1, g2, g3, g4, g5, g6⟩, huniq⟩ := unique_piece (C24_mesh_sorted hmesh).2 ha hb (by rw [haf, hbf])
    (t := t) (by rw [has]; exact h1) (by rw [hbs]; exact h2)
  rw [haf] at g3 g4
  refine ⟨i, ⟨p, q, g1, g2, g3, g4, g5, g6, pos p (List.mem_of_getElem? g1) g3, pos q (List.mem_of_getElem? g2) g4⟩, ?_⟩
  rintro j ⟨p', q', k1, k2, k3, k4, k5, k6, -⟩
  exact huniq j ⟨p', q', k1, k2, by rw [k3, haf], by rw [k4, haf], k5, k6⟩

/-- C97: the crosses are at the two ends of every fiber, each once. -/
theorem C97_ends :
    ∃ P, drawMesh mesh = .ok P ∧ P.ends.Perm (m.fibers.flatMap (fun f =>
      [(pointAt f (f.l / 2), pointAt f (f.l / 2)), (pointAt f (-(f.l / 2)), pointAt f (-(f.l / 2)))])) := by
  obtain ⟨P, hP, -, -, he⟩ := C97_drawing hmesh
  refine ⟨P, hP, he.trans ?_⟩
  obtain ⟨p, e, hself⟩ := keep_rows threshold net
  have hinc : IncreasingAB (keep threshold net).rows := by
    rw [e]; exact List.Pairwise.filter _ (C06_increasing h hn)
  set L := (keep threshold net).rows.filter (fun r => r.A = r.B) with hL
  have hLmem : ∀ r ∈ L, r ∈ net.rows ∧ r.A = r.B := by
    intro r hr
    obtain ⟨h1, h2⟩ := List.mem_filter.1 hr
    rw [e] at h1
    exact ⟨(List.mem_filter.1 h1).1, by simpa using h2⟩
  have hlab : (L.map (fun r => r.A.toNat)).Perm (List.range m.fibers.length) := by
    apply (List.perm_ext_iff_of_nodup ?_ List.nodup_range).2
    · intro i
      rw [List.mem_range, List.mem_map]
      constructor
      · rintro ⟨r, hr, rfl⟩
        have := C06_labels h hn r (hLmem r hr).1
        omega
      · intro hi
        obtain ⟨k, r, hk, hA, hB, -⟩ := C07_end_row h hn (List.getElem?_eq_getElem hi)
        have hr := List.mem_of_getElem? hk
        exact ⟨r, List.mem_filter.2 ⟨by rw [e]; exact List.mem_filter.2 ⟨hr, hself r hr (by omega)⟩, by simp [hA, hB]⟩, by omega⟩
    · rw [List.Nodup, List.pairwise_map]
      have h1 : L.Pairwise (fun r q => r.A < q.A ∨ (r.A = q.A ∧ r.B < q.B)) := List.Pairwise.filter _ hinc
      refine h1.imp_of_mem ?_
      intro r q hr hq hrq heq
      have g1 := hLmem r hr
      have g2 := hLmem q hq
      have g3 := C06_labels h hn r g1.1
      have g4 := C06_labels h hn q g2.1
      omega
  have e1 : (keep threshold net).rows.flatMap (fun r => if r.A = r.B then [(ptA r, ptA r), (ptB r, ptB r)] else []) =
      L.flatMap (fun r => [(ptA r, ptA r), (ptB r, ptB r)]) := by
    rw [hL]
    generalize (keep threshold net).rows = l
    induction l with
    | nil => rfl
    | cons r t ih =>
      rw [List.flatMap_cons, ih, List.filter_cons]
      by_cases hr : r.A = r.B
      · simp [hr]
      · simp [hr]
  have e2 : L.flatMap (fun r => [(ptA r, ptA r), (ptB r, ptB r)]) = (L.map (fun r => r.A.toNat)).flatMap (fun i =>
      ((m.fibers[i]?).map (fun f => [(pointAt f (f.l / 2), pointAt f (f.l / 2)), (pointAt f (-(f.l / 2)), pointAt f (-(f.l / 2)))])).getD []) := by
    rw [List.flatMap_map]
    apply List.flatMap_congr
    intro r hr
    obtain ⟨g1, g2⟩ := hLmem r hr
    have g3 := C06_labels h hn r g1
    have hi : r.A.toNat < m.fibers.length := by omega
    obtain ⟨k, r', hk, hA, hB, -, -, k1, k2, huniq⟩ := C07_end_row h hn (List.getElem?_eq_getElem hi)
    obtain ⟨k', hk'⟩ := List.mem_iff_getElem?.1 g1
    have := huniq k' r hk' (by omega) (by omega)
    subst this
    rw [hk] at hk'
    cases hk'
    rw [List.getElem?_eq_getElem hi]
    simp only [Option.map_some, Option.getD_some, ptA, ptB, k1, k2]
  rw [e1, e2, flatMap_range m.fibers]
  exact hlab.flatMap_right _

end

theorem upward_inner {rows : List (NetRow K)} (hle : ∀ r ∈ rows, r.A ≤ r.B) (hz : ∀ r ∈ rows, r.A < r.B → r.zA < r.zB) :
    rows.flatMap upward = (innerRows rows).map (fun r => (ptA r, ptB r)) := by
  unfold innerRows
  induction rows with
  | nil => rfl
  | cons r t ih =>
    rw [List.flatMap_cons, ih (fun q hq => hle q (by simp [hq])) (fun q hq => hz q (by simp [hq])), List.filter_cons]
    have h1 := hle r (by simp)
    by_cases hr : r.A = r.B
    · simp [upward, hr]
    · have : r.A < r.B := by omega
      simp [upward, hr, this, hz r (by simp) this]

theorem placement_deform {net : List (NetRow K)} {mesh : Mesh K} {place : ℕ → ℕ} (hp : Placement net mesh.rows place) (u : ℕ → K) :
    Placement (displaced net place u) (mesh.deform u).rows place := by
  have hlen : (displaced net place u).length = net.length := by simp [displaced]
  refine ⟨by rw [deform_length, hlen]; exact hp.count, by rw [deform_length, hlen]; exact hp.inRange, by rw [hlen]; exact hp.inj, ?_, ?_⟩
  · intro k r hk
    simp only [displaced, List.getElem?_mapIdx, Option.map_eq_some_iff] at hk
    obtain ⟨r0, h0, rfl⟩ := hk
    obtain ⟨a, ha, he, hc⟩ := hp.endA k r0 h0
    refine ⟨{ a with z := a.z + u (2 * place (2 * k)) }, by rw [deform_getElem?, ha]; rfl, ⟨he.fiber, he.s, he.x, he.y, ?_⟩, hc⟩
    show a.z + _ = r0.zA + _
    rw [he.z]
  · intro k r hk
    simp only [displaced, List.getElem?_mapIdx, Option.map_eq_some_iff] at hk
    obtain ⟨r0, h0, rfl⟩ := hk
    obtain ⟨a, ha, he, hc⟩ := hp.endB k r0 h0
    refine ⟨{ a with z := a.z + u (2 * place (2 * k + 1)) }, by rw [deform_getElem?, ha]; rfl, ⟨he.fiber, he.s, he.x, he.y, ?_⟩, hc⟩
    show a.z + _ = r0.zB + _
    rw [he.z]

/-- C97: in the drawing of stacked fibers every connection between two fibers is drawn, once, upwards from `A` to `B`. -/
theorem C97_stacked {lin : Linprog K} (hlin : GoodLinprog lin) {m : Mat K} (h : GoodMat m)
    (hw : ∀ f ∈ m.fibers, f.w = 0) {periodic : Bool} {net : Net K} (hn : netNew m periodic = .ok net)
    {threshold : Option K} {m' : Mat K} {st : Net K} (hst : stackNew lin m net threshold = .ok (m', st))
    {mesh : Mesh K} (hmesh : meshInit st = .ok mesh) :
    ∃ P, drawMesh mesh = .ok P ∧ P.contacts.Perm ((innerRows st.rows).map (fun r => (ptA r, ptB r))) := by
  obtain ⟨P, hP, -, hc, -⟩ := C97_drawing hmesh
  refine ⟨P, hP, ?_⟩
  obtain ⟨hck, ho, hper⟩ := netNew_over h hn
  obtain ⟨hlen, -, hsame, hgood, hcase⟩ := stack_lowest hlin h hck ho hst
  obtain ⟨-, hgap⟩ := C17_no_overlap hlin h hw hn hst
  have hlab : ∀ r ∈ st.rows, 0 ≤ r.A ∧ r.A ≤ r.B ∧ r.B < (m'.fibers.length : Int) := by
    rcases hcase with ⟨-, e, rfl⟩ | ⟨net', g1, rfl⟩
    · rw [e]; simp
    · obtain ⟨p, e, -⟩ := keep_rows threshold net'
      intro r hr
      rw [e] at hr
      exact C06_labels hgood g1 r (List.mem_filter.1 hr).1
  have hth : ∀ i, i < m'.fibers.length → 0 < thick m' i := by
    intro i hi
    obtain ⟨S, -, hg⟩ := hgood.size
    simp only [thick, List.getElem?_eq_getElem hi, Option.map_some, Option.getD_some]
    exact (hg _ (List.getElem_mem hi)).h
  rwa [upward_inner (fun r hr => (hlab r hr).2.1) (fun r hr hlt => by
    have h1 := hgap r hr hlt
    have h2 := hlab r hr
    have h3 := hth r.A.toNat (by omega)
    have h4 := hth r.B.toNat (by omega)
    linarith)] at hc

/-- C97: after any displacement that keeps fibers apart, the connections are still drawn, each once and upwards from `A` to `B`. -/
theorem C97_displaced {m : Mat K} (h : GoodMat m) {st : Net K} (hlab : ∀ r ∈ st.rows, 0 ≤ r.A ∧ r.A ≤ r.B ∧ r.B < (m.fibers.length : Int))
    {mesh : Mesh K} (hmesh : meshInit st = .ok mesh) {Z : K} {u : ℕ → K} (hnp : NonPenetrating m mesh.rows Z u) :
    ∃ P place, Placement st.rows mesh.rows place ∧ drawMesh (mesh.deform u) = .ok P ∧
      P.contacts.Perm ((innerRows (displaced st.rows place u)).map (fun r => (ptA r, ptB r))) ∧
      (∀ r ∈ innerRows (displaced st.rows place u), (thick m r.A.toNat + thick m r.B.toNat) / 2 ≤ r.zB - r.zA) ∧
      P.beams = ((mesh.deform u).rows.zip (mesh.deform u).rows.tail).filterMap
        (fun p => if p.1.fiber = p.2.fiber ∧ p.1.s < p.2.s then some (p.1.pos, p.2.pos, p.1.fiber % 10) else none) := by
  obtain ⟨place, hp⟩ := C26_constraints hmesh
  obtain ⟨P, hP, hbeam, hc, -⟩ := draw_eq (deform_beams.2 (C25_beams_cyclic hmesh)) (deform_sorted.2 (C24_mesh_sorted hmesh).2)
    (placement_deform hp u)
  have hth : ∀ i, i < m.fibers.length → 0 < thick m i := by
    intro i hi
    obtain ⟨S, -, hg⟩ := h.size
    simp only [thick, List.getElem?_eq_getElem hi, Option.map_some, Option.getD_some]
    exact (hg _ (List.getElem_mem hi)).h
  have hs := (C24_mesh_sorted hmesh).2
  have key : ∀ r ∈ displaced st.rows place u, (0 ≤ r.A ∧ r.A ≤ r.B ∧ r.B < (m.fibers.length : Int)) ∧
      (r.A < r.B → (thick m r.A.toNat + thick m r.B.toNat) / 2 ≤ r.zB - r.zA) := by
    intro r hr
    obtain ⟨k, hk⟩ := List.mem_iff_getElem?.1 hr
    simp only [displaced, List.getElem?_mapIdx, Option.map_eq_some_iff] at hk
    obtain ⟨r0, h0, rfl⟩ := hk
    refine ⟨hlab r0 (List.mem_of_getElem? h0), fun hlt => ?_⟩
    simp only at hlt ⊢
    obtain ⟨a, ha, hA, hcA⟩ := hp.endA k r0 h0
    obtain ⟨b, hb, hB, -⟩ := hp.endB k r0 h0
    rw [if_neg (by omega)] at hcA
    have hij : place (2 * k) < place (2 * k + 1) := by
      obtain ⟨hi, ei⟩ := List.getElem?_eq_some_iff.1 ha
      obtain ⟨hj, ej⟩ := List.getElem?_eq_some_iff.1 hb
      by_contra hn
      rcases Nat.eq_or_lt_of_le (not_lt.1 hn) with e | e
      · rw [e, ha] at hb
        cases hb
        have := hA.fiber
        have := hB.fiber
        omega
      · have := List.pairwise_iff_getElem.1 hs _ _ hj hi e
        rw [ei, ej, hA.fiber, hB.fiber] at this
        omega
    have := hnp.pair _ _ a ha hcA hij
    simp only [nodeThick, nodeHeight, ha, hb, Option.bind_some, Option.map_some, Option.getD_some, hA.fiber, hB.fiber, hA.z, hB.z] at this
    exact this
  refine ⟨P, place, hp, hP, ?_, ?_, hbeam⟩
  · rwa [upward_inner (fun r hr => (key r hr).1.2.1) (fun r hr hlt => by
      have h1 := (key r hr).2 hlt
      have h2 := (key r hr).1
      have h3 := hth r.A.toNat (by omega)
      have h4 := hth r.B.toNat (by omega)
      linarith)] at hc
  · intro r hr
    obtain ⟨h1, h2⟩ := List.mem_filter.1 hr
    exact (key r h1).2 (by simpa using h2)

/-- C97: the drawing of the packed fibers, at any recorded state. -/
theorem C97_packed {lp : Linprog K} (hlp : GoodLinprog lp) {m : Mat K} (h : GoodMat m) (hw : ∀ f ∈ m.fibers, f.w = 0) {periodic : Bool}
    {net : Net K} (hn : netNew m periodic = .ok net) {threshold : Option K} {m' : Mat K} {st : Net K}
    (hst : stackNew lp m net threshold = .ok (m', st)) {mesh : Mesh K} (hmesh : meshNew st = .ok mesh) {lmin lmax : Option K} {coupling : K}
    {o : Opts K} {perm : Option (List ℕ)} {S : Sys K} {recs : List (Rec K)} {stop : Stop}
    (hs : solve m' mesh lmin lmax coupling o perm = .ok (S, recs, stop))
    (hp : PositiveLengths mesh.rows lmin lmax) (htol : 0 ≤ o.tol) (hlin : ExactLin o.lin) (hperm : PermOf S.n perm)
    {a : Rec K} (ha : a ∈ recs) :
    ∃ P place, Placement st.rows mesh.rows place ∧ drawMesh (mesh.deform a.x) = .ok P ∧
      P.contacts.Perm ((innerRows (displaced st.rows place a.x)).map (fun r => (ptA r, ptB r))) ∧
      (∀ r ∈ innerRows (displaced st.rows place a.x), (thick m' r.A.toNat + thick m' r.B.toNat) / 2 ≤ r.zB - r.zA) := by
  obtain ⟨k, hk⟩ := List.mem_iff_getElem?.1 ha
  have hnp := (C78_nonPenetrating hlp h hw hn hst hmesh hs hp htol hlin hperm k a hk).1
  have hne := chain_nonempty hlp h hn hst hmesh hs
  obtain ⟨net', g1, rfl, hgood, hsame, hend, h3, hvalid, hof, hner⟩ := chain_facts hlp h hne hn hst hmesh
  obtain ⟨p, e, -⟩ := keep_rows threshold net'
  obtain ⟨P, place, a1, a2, a3, a4, -⟩ := C97_displaced hgood (fun r hr => by
    rw [e] at hr
    exact C06_labels hgood g1 r (List.mem_filter.1 hr).1) h3 hnp
  exact ⟨P, place, a1, a2, a3, a4⟩

end Fibermat
