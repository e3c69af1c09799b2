import Verif.Props.Kept
import Verif.Props.SelfSymmetricExamples

/-! # Concrete cases of fibers added or removed (C112) -/

set_option linter.unusedSectionVars false
set_option linter.unusedSimpArgs false

namespace Fibermat
open Spec

/-- The rake without its second fiber. -/
def rakeKept : Mat ℚ :=
  { fibers := [⟨4, 1, 1, 0, 0, 0, 1, 0, 0, 1, ⊤⟩, ⟨4, 1, 1, -1, -1, 0, 0, 1, 0, 1, 2⟩, ⟨6, 1, 2, 0, 0, 0, 0, 1, 0, 1, 3⟩]
    attrs := { n := some 3, size := some 10 } }

/-- The rake without the fiber below. -/
def rakeTeeth : Mat ℚ :=
  { fibers := [⟨4, 1, 1, 1, 1, 0, 0, 1, 0, 1, 2⟩, ⟨4, 1, 1, -1, -1, 0, 0, 1, 0, 1, 2⟩, ⟨6, 1, 2, 0, 0, 0, 0, 1, 0, 1, 3⟩]
    attrs := { n := some 3, size := some 10 } }

/-- The rake with thicker fibers. -/
def rakeThick : Mat ℚ :=
  { fibers := [⟨4, 1, 2, 0, 0, 0, 1, 0, 0, 1, ⊤⟩, ⟨4, 3, 1, 1, 1, 0, 0, 1, 0, 1, 2⟩, ⟨4, 1, 1, -1, -1, 0, 0, 1, 0, 5, 2⟩,
      ⟨6, 1, 4, 0, 0, 0, 0, 1, 0, 1, 4⟩]
    attrs := { n := some 4, size := some 10 } }

theorem rakeTeeth_good : GoodMat rakeTeeth := by
  have h : matCheck rakeTeeth.frame = .ok () := by decide +kernel
  exact ((matCheck_frame_iff _).1 h).resolve_left (by simp [Skipped, rakeTeeth])

theorem rakeThick_good : GoodMat rakeThick := by
  have h : matCheck rakeThick.frame = .ok () := by decide +kernel
  exact ((matCheck_frame_iff _).1 h).resolve_left (by simp [Skipped, rakeThick])

/-- Heights of a stack are those of a greedy pass. -/
theorem heights_computed {m : Mat ℚ} (hm : GoodMat m) {periodic : Bool} {l : List ℚ}
    (he : ((netNew m periodic).toOption.map (fun n => (List.range m.fibers.length).map (greedy m n.rows (fun i => thick m i / 2)))) = some l)
    {lp : Linprog ℚ} (hlp : GoodLinprog lp) {net st : Net ℚ} {m' : Mat ℚ} (hn : netNew m periodic = .ok net)
    {threshold : Option ℚ} (hst : stackNew lp m net threshold = .ok (m', st)) {i : ℕ} (hi : i < m.fibers.length) :
    heightOf m' i = l.getD i 0 := by
  obtain ⟨hck, ho, -⟩ := netNew_over hm hn
  obtain ⟨-, hlow, -⟩ := stack_lowest hlp hm hck ho hst
  have hg := lowest_unique hlow (greedy_lowest ho ((C06_increasing hm hn).imp (by intro a b hab; omega)))
  rw [hn] at he
  simp only [Except.toOption, Option.map_some, Option.some.injEq] at he
  rw [hg i hi, ← he]
  simp [hi]

theorem rakeKept_kept : KeptMat (fun i => if i = 0 then 0 else i + 1) rakeMat rakeKept where
  attrs := rfl
  mono := by
    intro i j hij _
    split_ifs <;> omega
  fiber := by
    intro i hi
    simp only [rakeKept, List.length_cons, List.length_nil] at hi
    interval_cases i <;> exact ⟨_, rfl, rfl⟩

theorem rakeTeeth_kept : KeptMat (fun i => i + 1) rakeMat rakeTeeth where
  attrs := rfl
  mono := by
    intro i j hij _
    omega
  fiber := by
    intro i hi
    simp only [rakeTeeth, List.length_cons, List.length_nil] at hi
    interval_cases i <;> exact ⟨_, rfl, rfl⟩

/-- C112: the rake in a periodic box without its second fiber: its connections are those of the rake and no height changes. -/
example {lp lp' : Linprog ℚ} (hlp : GoodLinprog lp) (hlp' : GoodLinprog lp') : ∃ net net' m1 m1' st st',
    netNew rakeMat true = .ok net ∧ netNew rakeKept true = .ok net' ∧ net.rows.length = 7 ∧ net'.rows.length = 5 ∧
    net'.rows.map (relabelRow (fun i => if i = 0 then 0 else i + 1)) = keptRows (fun i => if i = 0 then 0 else i + 1) 3 net.rows ∧
    stackNew lp rakeMat net (some 2) = .ok (m1, st) ∧ stackNew lp' rakeKept net' (some 2) = .ok (m1', st') ∧
    KeptMat (fun i => if i = 0 then 0 else i + 1) m1 m1' ∧
    st'.rows.map (relabelRow (fun i => if i = 0 then 0 else i + 1)) = keptRows (fun i => if i = 0 then 0 else i + 1) 3 st.rows ∧
    heightOf m1' 2 = 2 := by
  obtain ⟨net, hn, -⟩ := C06_netNew_ok rakeMat_good true
  obtain ⟨net', hn', hrows⟩ := C112_net rakeKept_kept rakeMat_good hn
  have hm' := rakeKept_kept.good rakeMat_good
  obtain ⟨hck, ho, -⟩ := netNew_over rakeMat_good hn
  obtain ⟨hck', ho', -⟩ := netNew_over hm' hn'
  obtain ⟨⟨m1, st⟩, hst⟩ := C15_stack_ok hlp rakeMat_good hck ho (some 2)
  obtain ⟨⟨m1', st'⟩, hst'⟩ := C15_stack_ok hlp' hm' hck' ho' (some 2)
  have e1 : (netNew rakeMat true).toOption.map (fun n => (n.rows.length, n.rows.all (fun r => decide (r.A < r.B →
      isKept (fun i => if i = 0 then 0 else i + 1) 3 r.B = true → isKept (fun i => if i = 0 then 0 else i + 1) 3 r.A = true)))) =
      some (7, true) := by decide +kernel
  have e2 : (netNew rakeKept true).toOption.map (fun n => n.rows.length) = some 5 := by decide +kernel
  rw [hn] at e1
  rw [hn'] at e2
  simp only [Except.toOption, Option.map_some, Option.some.injEq, Prod.mk.injEq, List.all_eq_true, decide_eq_true_eq] at e1 e2
  obtain ⟨h1, h2⟩ := C112_stack rakeKept_kept rakeMat_good hlp hlp' hn hn' e1.2 (by simp [rakeKept]) hst hst'
  refine ⟨net, net', m1, m1', st, st', hn, hn', e1.1, e2, hrows, hst, hst', h1, h2, ?_⟩
  rw [C112_heights rakeKept_kept rakeMat_good hlp hlp' hn hn' e1.2 hst hst' (i := 2) (by decide)]
  exact heights_computed rakeMat_good (l := [1 / 2, 3 / 2, 3 / 2, 2]) (by decide +kernel) hlp hn hst (i := 3) (by decide)

/-- C112: without the fiber below them, the other fibers of the rake lie lower: the fibers below must be kept. -/
theorem C112_below {lp lp' : Linprog ℚ} (hlp : GoodLinprog lp) (hlp' : GoodLinprog lp') : ∃ net net' m1 m1' st st',
    KeptMat (fun i => i + 1) rakeMat rakeTeeth ∧ netNew rakeMat true = .ok net ∧ netNew rakeTeeth true = .ok net' ∧
    stackNew lp rakeMat net none = .ok (m1, st) ∧ stackNew lp' rakeTeeth net' none = .ok (m1', st') ∧
    heightOf m1' 0 = 1 / 2 ∧ heightOf m1 1 = 3 / 2 := by
  obtain ⟨net, hn, -⟩ := C06_netNew_ok rakeMat_good true
  obtain ⟨net', hn', -⟩ := C06_netNew_ok rakeTeeth_good true
  obtain ⟨hck, ho, -⟩ := netNew_over rakeMat_good hn
  obtain ⟨hck', ho', -⟩ := netNew_over rakeTeeth_good hn'
  obtain ⟨⟨m1, st⟩, hst⟩ := C15_stack_ok hlp rakeMat_good hck ho none
  obtain ⟨⟨m1', st'⟩, hst'⟩ := C15_stack_ok hlp' rakeTeeth_good hck' ho' none
  refine ⟨net, net', m1, m1', st, st', rakeTeeth_kept, hn, hn', hst, hst', ?_, ?_⟩
  · exact heights_computed rakeTeeth_good (l := [1 / 2, 1 / 2, 1]) (by decide +kernel) hlp' hn' hst' (i := 0) (by decide)
  · exact heights_computed rakeMat_good (l := [1 / 2, 3 / 2, 3 / 2, 2]) (by decide +kernel) hlp hn hst (i := 1) (by decide)

/-- C112: the longest and thickest fiber of the rake, listed last, changes nothing for the three others. -/
example {lp lp' : Linprog ℚ} (hlp : GoodLinprog lp) (hlp' : GoodLinprog lp') {net st : Net ℚ} {m1 : Mat ℚ}
    (hn : netNew rakeMat true = .ok net) (hst : stackNew lp rakeMat net none = .ok (m1, st)) :
    ∃ net' m1' st', netNew ⟨rakeMat.fibers.take 3, { n := some 3, size := some 10 }⟩ true = .ok net' ∧
      net'.rows = net.rows.filter (fun r => decide (r.B < 3)) ∧
      stackNew lp' ⟨rakeMat.fibers.take 3, { n := some 3, size := some 10 }⟩ net' none = .ok (m1', st') ∧
      ∀ i, i < 3 → heightOf m1' i = heightOf m1 i := by
  obtain ⟨-, net', m1', st', h1, h2, h3, h4⟩ := C112_top (fs := rakeMat.fibers.take 3) (gs := rakeMat.fibers.drop 3)
    (attrs := rakeMat.attrs) rakeMat_good hn hlp hlp' (threshold' := none) hst
  exact ⟨net', m1', st', h1, h2, h3, h4⟩

/-- C112: thicker fibers of the rake: both bounds are met, by the first fiber and by the last. -/
example {lp lp' : Linprog ℚ} (hlp : GoodLinprog lp) (hlp' : GoodLinprog lp') {net st st' : Net ℚ} {m1 m1' : Mat ℚ}
    (hn : netNew rakeMat true = .ok net) (hst : stackNew lp rakeMat net none = .ok (m1, st))
    (hst' : stackNew lp' rakeThick net none = .ok (m1', st')) :
    (∀ i, i < 4 → heightOf m1 i + (thick rakeThick i - thick rakeMat i) / 2 ≤ heightOf m1' i ∧ heightOf m1' i ≤
      heightOf m1 i + ∑ k ∈ Finset.range i, (thick rakeThick k - thick rakeMat k) + (thick rakeThick i - thick rakeMat i) / 2) ∧
    heightOf m1 0 = 1 / 2 ∧ heightOf m1' 0 = 1 ∧ heightOf m1 3 = 2 ∧ heightOf m1' 3 = 4 := by
  have hs : SameAxes rakeMat rakeThick := ⟨rfl, rfl⟩
  refine ⟨fun i hi => C112_thickness rakeMat_good rakeThick_good hs ?_ hlp hlp' hn hst hst' hi, ?_, ?_, ?_, ?_⟩
  · intro k
    rcases lt_or_ge k 4 with hk | hk
    · interval_cases k <;> norm_num [thick, rakeMat, rakeThick]
    · rw [thick, thick, List.getElem?_eq_none (by simpa [rakeMat] using hk), List.getElem?_eq_none (by simpa [rakeThick] using hk)]
  · exact heights_computed rakeMat_good (l := [1 / 2, 3 / 2, 3 / 2, 2]) (by decide +kernel) hlp hn hst (i := 0) (by decide)
  · exact heights_computed rakeThick_good (l := [1, 5 / 2, 5 / 2, 4]) (by decide +kernel) hlp'
      (C112_axes rakeMat_good rakeThick_good hs hn) hst' (i := 0) (by decide)
  · exact heights_computed rakeMat_good (l := [1 / 2, 3 / 2, 3 / 2, 2]) (by decide +kernel) hlp hn hst (i := 3) (by decide)
  · exact heights_computed rakeThick_good (l := [1, 5 / 2, 5 / 2, 4]) (by decide +kernel) hlp'
      (C112_axes rakeMat_good rakeThick_good hs hn) hst' (i := 3) (by decide)

end Fibermat
