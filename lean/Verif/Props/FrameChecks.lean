import Verif.Lemmas.Checks
import Verif.Props.MatCheck

/-! # C14, C28: `Net.check` and `Mesh.check` -/

namespace Fibermat
open Spec
set_option linter.unusedSectionVars false
variable {K : Type} [LinearOrder K]

theorem skip_false {a : Attrs K} (h : ¬ Skipped a) : a.skip = false := by
  rw [← Bool.not_eq_true]; exact fun h' => h ((skip_iff _).1 h')

theorem columns_not_iff (cols present : List String) :
    (!cols.all (· ∈ present)) = true ↔ ¬ HasColumns cols present :=
  all_not_iff (by simp)

/-- Two index tests of the checks, together. -/
theorem index_not_iff {α : Type} (rows : List (Int × α)) :
    rows.map Prod.fst ≠ arange rows.length ↔ ¬ LabelsInOrder rows := by
  rw [not_iff_not]; exact labels_iff rows

/-- `Net.check` runs through the documented conditions in order. -/
theorem C14_netCheck_decides (f : NetFrame K) (hs : ¬ Skipped f.attrs) :
    Decides (netConditions f) (netCheck f) := by
  unfold netCheck netConditions
  rw [if_neg (by simp [skip_false hs])]
  refine decides_ite (columns_not_iff _ _) fun _ => ?_
  rcases hn : f.attrs.n with _ | n
  · exact .fails (by rintro ⟨⟨v, hv⟩, -, -⟩; simp [hn] at hv)
  rcases hS : f.attrs.size with _ | S
  · exact .fails (by rintro ⟨-, ⟨v, hv⟩, -⟩; simp [hS] at hv)
  rcases hp : f.attrs.periodic with _ | p
  · exact .fails (by rintro ⟨-, -, ⟨v, hv⟩⟩; simp [hp] at hv)
  refine .holds ⟨⟨n, hn⟩, ⟨S, hS⟩, ⟨p, hp⟩⟩ ?_
  by_cases hl : LabelsInOrder f.rows
  swap
  · have h1 := (index_not_iff f.rows).2 hl
    have : ∀ r : Except Err Unit, Decides ((LabelsInOrder f.rows, Err.indexError) ::
        [(f.intAB = true, .typeError), (FiberLabels f.attrs f.rows, .valueError),
         (NoRepeat f.rows, .valueError), (∀ r ∈ f.rows, r.2.A ≤ r.2.B, .valueError)])
        (if npUnique (f.rows.map Prod.fst) ≠ arange f.rows.length then .error .indexError
         else if f.rows.map Prod.fst ≠ arange f.rows.length then .error .indexError else r) := by
      intro r
      rw [if_pos h1, ite_self]
      exact .fails hl
    exact this _
  have h1 := (labels_iff f.rows).2 hl
  simp only
  rw [if_neg (by rw [h1, npUnique_arange]; simp), if_neg (by simp [h1])]
  refine .holds hl ?_
  refine decides_ite (by simp) fun _ => ?_
  refine decides_ite ?_ fun _ => ?_
  · rw [all_not_iff (P := fun r => 0 ≤ r.A ∧ r.A < n ∧ 0 ≤ r.B ∧ r.B < n)]
    · rw [List.forall_mem_map]; simp only [FiberLabels, hn, Option.some.injEq, forall_eq']
    · intro r _; simp; tauto
  refine decides_ite' ?_ fun _ => ?_
  · rw [ne_eq, not_iff_not, noRepeat_iff]
  rw [show (if !(f.rows.map Prod.snd).all (fun r => decide (r.A ≤ r.B)) then Except.error Err.valueError
    else Except.ok ()) = _ from rfl]
  refine decides_ite ?_ fun _ => .done
  rw [all_not_iff (P := fun r => r.A ≤ r.B)]
  · rw [List.forall_mem_map]
  · simp

/-- `Net.check` accepts a frame iff the check is skipped or the frame is valid. -/
theorem C14_netCheck_iff (f : NetFrame K) :
    netCheck f = .ok () ↔ Skipped f.attrs ∨ ValidNet f := by
  by_cases hs : Skipped f.attrs
  · simp [netCheck, (skip_iff _).2 hs, hs]
  · rw [decides_ok_iff (C14_netCheck_decides f hs)]
    simp only [netConditions, List.mem_cons, List.not_mem_nil, or_false, forall_eq_or_imp, forall_eq, hs, false_or]
    constructor
    · rintro ⟨a, b, c, d, e, f, g⟩; exact ⟨a, b, c, d, e, f, g⟩
    · rintro ⟨a, b, c, d, e, f, g⟩; exact ⟨a, b, c, d, e, f, g⟩

/-- A set `skip_check` flag makes `Net.check` accept anything. -/
theorem C14_skip (f : NetFrame K) (h : Skipped f.attrs) : netCheck f = .ok () :=
  (C14_netCheck_iff f).2 (Or.inl h)

/-! ## Examples for C14 -/

/-- A net of two crossing fibers. -/
def goodNet : NetFrame ℚ :=
  { columns := "extra" :: netColumns, intAB := true
    rows := [(0, ⟨0, 0, 1, -1, 1, 0, 0, -1, 0, 0⟩), (1, ⟨0, 1, 0, 0, 0, 0, 0, 0, 0, 1⟩),
             (2, ⟨1, 1, 1, -1, 0, 1, 1, 0, -1, 1⟩)]
    attrs := { n := some 2, size := some 50, periodic := some true, skipCheck := some false } }

example : ¬ Skipped goodNet.attrs := by simp [Skipped, goodNet]
example : netCheck goodNet = .ok () := by decide +kernel
example : ValidNet goodNet := ((C14_netCheck_iff _).1 (by decide +kernel)).resolve_left (by simp [Skipped, goodNet])
/-- The same connection twice, with the same abscissae, is rejected; with others it is accepted. -/
example : netCheck { goodNet with rows := goodNet.rows ++ [(3, ⟨0, 1, 0, 0, 0, 0, 0, 0, 0, 1⟩)] } = .error .valueError := by
  decide +kernel
example : netCheck { goodNet with rows := goodNet.rows ++ [(3, ⟨0, 1, 1, 0, 0, 0, 0, 0, 0, 1⟩)] } = .ok () := by
  decide +kernel
example : netCheck { goodNet with rows := goodNet.rows ++ [(3, ⟨1, 0, 1, 0, 0, 0, 0, 0, 0, 1⟩)] } = .error .valueError := by
  decide +kernel
example : netCheck { goodNet with intAB := false } = .error .typeError := by decide +kernel
example : netCheck { goodNet with attrs := { n := some 2, size := some 50 } } = .error .attributeError := by decide +kernel

/-! ## C28 -/

instance fsTotal {α : Type} (g : α → Int × K) : Std.Total (fun a b : α => fsLe (g a) (g b)) :=
  ⟨fun a b => by
    unfold fsLe
    rcases lt_trichotomy (g a).1 (g b).1 with h | h | h
    · exact Or.inl (Or.inl h)
    · rcases le_total (g a).2 (g b).2 with h' | h'
      · exact Or.inl (Or.inr ⟨h, h'⟩)
      · exact Or.inr (Or.inr ⟨h.symm, h'⟩)
    · exact Or.inr (Or.inl h)⟩

instance fsTrans {α : Type} (g : α → Int × K) : IsTrans α (fun a b : α => fsLe (g a) (g b)) :=
  ⟨fun a b c => by
    unfold fsLe
    rintro (h | ⟨h, h'⟩) (k | ⟨k, k'⟩)
    · exact Or.inl (h.trans k)
    · exact Or.inl (k ▸ h)
    · exact Or.inl (h ▸ k)
    · exact Or.inr ⟨h.trans k, h'.trans k'⟩⟩

theorem labels_nodup {α : Type} {rows : List (Int × α)} (h : LabelsInOrder rows) : (rows.map Prod.fst).Nodup := by
  rw [(labels_iff rows).2 h]
  exact (arange_pairwise_lt _).imp (fun h => ne_of_lt h)

theorem nodesSorted_fsorted {rows : List (MeshRow K)} (h : NodesSorted rows) : FSorted rows :=
  h.imp (by rintro a b (h | h); exacts [le_of_lt h, le_of_eq h.1])

/-- The two sorting tests of `Mesh.check` (`mesh.py:305-309`) together say that nodes are sorted. -/
theorem sorted_iff (rows : List (Int × MeshRow K)) (hl : LabelsInOrder rows) :
    (rows.insertionSort (fun a b => fsLe (a.2.fiber, a.2.s) (b.2.fiber, b.2.s))).map Prod.fst = rows.map Prod.fst ↔
      NodesSorted (rows.map Prod.snd) := by
  rw [sort_labels_iff _ Prod.fst rows (labels_nodup hl), NodesSorted, List.pairwise_map]
  rfl

theorem fiberSort_iff (rows : List (MeshRow K)) :
    (rows.map (·.fiber)).insertionSort (· ≤ ·) = rows.map (·.fiber) ↔ FSorted rows := by
  constructor
  · intro h
    have := List.pairwise_insertionSort (· ≤ ·) (rows.map (·.fiber))
    rw [h, List.pairwise_map] at this
    exact this
  · intro h
    apply List.Pairwise.insertionSort_eq
    rw [List.pairwise_map]; exact h

theorem label_getElem? {α : Type} {rows : List (Int × α)} (hl : LabelsInOrder rows) (i : Nat) (h : i < rows.length) :
    (rows[i]?).map Prod.fst = some (i : Int) := by
  simp [h, hl i h]

theorem beams_iff (rows : List (Int × MeshRow K)) (hl : LabelsInOrder rows) (hs : NodesSorted (rows.map Prod.snd)) :
    (rows.map Prod.snd).map (·.beam) = rolled (fun r : Int × MeshRow K => r.2.fiber) Prod.fst rows ↔
      BeamsCyclic (rows.map Prod.snd) := by
  have hf := nodesSorted_fsorted hs
  have hf' : rows.Pairwise (fun a b => a.2.fiber ≤ b.2.fiber) := by
    rw [FSorted, List.pairwise_map] at hf; exact hf
  have hlen : (rolled (fun r : Int × MeshRow K => r.2.fiber) Prod.fst rows).length = rows.length :=
    rolled_length _ _ _ hf'
  have hrolled : ∀ i, i < rows.length → (rolled (fun r : Int × MeshRow K => r.2.fiber) Prod.fst rows)[i]? =
      some ((nextIdx (·.fiber) (rows.map Prod.snd) i : Nat) : Int) := by
    intro i hi
    rw [rolled_getElem? _ _ _ hf' i hi, nextIdx_map Prod.snd]
    have := nextIdx_lt (rows := rows.map Prod.snd) (i := i) (by simpa using hi)
    rw [List.length_map] at this
    exact label_getElem? hl _ this
  constructor
  · intro h i r hr
    have hi : i < rows.length := by
      obtain ⟨h', -⟩ := List.getElem?_eq_some_iff.1 hr; simpa using h'
    refine ⟨nextIdx (·.fiber) (rows.map Prod.snd) i, ?_, (cyclicNext_iff hf (by simpa using hi)).2 rfl⟩
    have h2 := congrArg (fun t => t[i]?) h
    simp only [List.getElem?_map, hrolled i hi] at h2
    rw [List.getElem?_map] at hr
    rw [hr] at h2
    simpa using h2
  · intro h
    apply List.ext_getElem?
    intro i
    by_cases hi : i < rows.length
    · rw [hrolled i hi]
      obtain ⟨j, hj, hc⟩ := h i _ (List.getElem?_eq_getElem (by simpa using hi))
      rw [cyclicNext_iff hf (by simpa using hi)] at hc
      rw [← hc, ← hj]
      simp [hi]
    · rw [List.getElem?_eq_none_iff.2 (by simpa using Nat.le_of_not_lt hi),
        List.getElem?_eq_none_iff.2 (by rw [hlen]; omega)]

theorem reciprocal_iff (rows : List (Int × MeshRow K)) (hl : LabelsInOrder rows) :
    (rows.map Prod.snd).map (fun r => lookupInt ((rows.map Prod.snd).map (·.constraint)) r.constraint) =
        (rows.map Prod.fst).map some ↔ ConstraintsReciprocal (rows.map Prod.snd) := by
  have hlook : ∀ (c : Int) (i : Int), lookupInt ((rows.map Prod.snd).map (·.constraint)) c = some i ↔
      ∃ (j : Nat) (p : MeshRow K), c = (j : Int) ∧ (rows.map Prod.snd)[j]? = some p ∧ p.constraint = i := by
    intro c i
    unfold lookupInt
    constructor
    · intro h
      split at h
      · rename_i hc
        rw [List.getElem?_map] at h
        rcases h2 : (rows.map Prod.snd)[c.toNat]? with _ | p
        · simp [h2] at h
        · rw [h2] at h
          exact ⟨c.toNat, p, by omega, h2, by simpa using h⟩
      · simp at h
    · rintro ⟨j, p, rfl, h2, h3⟩
      rw [if_pos (by omega), List.getElem?_map, Int.toNat_natCast, h2, Option.map_some, h3]
  constructor
  · intro h i r hr
    have hi : i < rows.length := by
      obtain ⟨h', -⟩ := List.getElem?_eq_some_iff.1 hr; simpa using h'
    rw [← hlook]
    have h2 := congrArg (fun t => t[i]?) h
    simp only [List.getElem?_map (l := List.map _ _)] at h2
    rw [hr] at h2
    simp only [List.getElem?_map, label_getElem? hl i hi] at h2
    simpa using h2
  · intro h
    apply List.ext_getElem?
    intro i
    by_cases hi : i < rows.length
    · have h2 := (hlook _ _).2 (h i _ (List.getElem?_eq_getElem (by simpa using hi)))
      simp only [List.getElem?_map (l := List.map _ _)]
      rw [List.getElem?_eq_getElem (by simpa using hi), Option.map_some, h2, List.getElem?_map, label_getElem? hl i hi]
      rfl
    · rw [List.getElem?_eq_none_iff.2 (by simpa using Nat.le_of_not_lt hi),
        List.getElem?_eq_none_iff.2 (by simpa using Nat.le_of_not_lt hi)]

theorem ends_iff (rows : List (Int × MeshRow K)) (hl : LabelsInOrder rows) (hs : NodesSorted (rows.map Prod.snd)) :
    ((groupBy (fun r : Int × MeshRow K => r.2.fiber) rows).all
            (fun g => g.head?.all (fun r => decide (r.2.constraint = r.1)))
          && (groupBy (fun r : Int × MeshRow K => r.2.fiber) rows).all
            (fun g => g.getLast?.all (fun r => decide (r.2.constraint = r.1)))) = true ↔
      EndsFree (rows.map Prod.snd) := by
  have hf := nodesSorted_fsorted hs
  have hf' : rows.Pairwise (fun a b => a.2.fiber ≤ b.2.fiber) := by
    rw [FSorted, List.pairwise_map] at hf; exact hf
  rw [Bool.and_eq_true, groupBy_heads _ _ _ hf', groupBy_lasts _ _ _ hf']
  have hget : ∀ i (hi : i < rows.length), (rows.map Prod.snd)[i]? = some (rows[i]).2 := by
    intro i hi; simp [hi]
  have hmap : ∀ i : Nat, ((rows.map Prod.snd)[i]?).map (·.fiber) = (rows[i]?).map (fun r => r.2.fiber) := by
    intro i; simp [Function.comp_def]
  constructor
  · rintro ⟨h1, h2⟩ i r hr hor
    have hi : i < rows.length := by
      obtain ⟨h', -⟩ := List.getElem?_eq_some_iff.1 hr; simpa using h'
    have hr' := hr
    rw [hget i hi, Option.some.injEq] at hr'
    subst hr'
    rw [first_iff hf hr, last_iff hf hr, hmap, hmap] at hor
    have : decide ((rows[i]).2.constraint = (rows[i]).1) = true := by
      rcases hor with h | h
      · exact h1 i hi h
      · exact h2 i hi h
    rw [decide_eq_true_eq, hl i hi] at this
    exact this
  · intro h
    constructor
    · intro i hi hf1
      have := h i _ (hget i hi) (Or.inl ((first_iff hf (hget i hi)).2 (by rw [hmap]; exact hf1)))
      rw [decide_eq_true_eq, hl i hi]; exact this
    · intro i hi hf1
      have := h i _ (hget i hi) (Or.inr ((last_iff hf (hget i hi)).2 (by rw [hmap]; exact hf1)))
      rw [decide_eq_true_eq, hl i hi]; exact this

theorem decides_mono {l : List (Prop × Err)} {e : Err} {p q : Prop} {r : Except Err Unit}
    (h : Decides ((p, e) :: (q, e) :: l) r) (hpq : q → p) : Decides ((q, e) :: l) r := by
  cases h with
  | fails hp => exact .fails (fun hq => hp (hpq hq))
  | holds hp h =>
    cases h with
    | fails hq => exact .fails hq
    | holds hq h => exact .holds hq h

/-- `Mesh.check` runs through the documented conditions in order. -/
theorem C28_meshCheck_decides (f : MeshFrame K) (hs : ¬ Skipped f.attrs) :
    Decides (meshConditions f) (meshCheck f) := by
  unfold meshCheck meshConditions
  rw [if_neg (by simp [skip_false hs])]
  refine decides_ite (columns_not_iff _ _) fun _ => ?_
  rcases hn : f.attrs.n with _ | n
  · exact .fails (by rintro ⟨⟨v, hv⟩, -, -⟩; simp [hn] at hv)
  rcases hS : f.attrs.size with _ | S
  · exact .fails (by rintro ⟨-, ⟨v, hv⟩, -⟩; simp [hS] at hv)
  rcases hp : f.attrs.periodic with _ | p
  · exact .fails (by rintro ⟨-, -, ⟨v, hv⟩⟩; simp [hp] at hv)
  refine .holds ⟨⟨n, hn⟩, ⟨S, hS⟩, ⟨p, hp⟩⟩ ?_
  simp only
  by_cases hl : LabelsInOrder f.rows
  swap
  · rw [if_pos ((index_not_iff f.rows).2 hl), ite_self]
    exact .fails hl
  have h1 := (labels_iff f.rows).2 hl
  rw [if_neg (by rw [h1, npUnique_arange]; simp), if_neg (by simp [h1])]
  refine .holds hl ?_
  by_cases hi : f.intFiber = true
  swap
  · rw [if_pos (by simpa using hi)]
    exact .fails (fun h => hi h.1)
  rw [if_neg (by simp [hi])]
  refine decides_ite (by simp [hi]) fun _ => ?_
  by_cases h0 : f.rows.length = 0
  · rw [if_pos h0]
    have hnil : f.rows = [] := List.length_eq_zero_iff.1 h0
    rw [hnil]
    simp only [List.map_nil]
    refine .holds (by simp) (.holds (by simp) (.holds (by simp) (.holds ?_ (.holds ?_ (.holds ?_ (.holds ?_ .done))))))
    · simp [NodesSorted]
    · simp [BeamsCyclic]
    · simp [ConstraintsReciprocal]
    · simp [EndsFree]
  rw [if_neg h0]
  refine decides_ite ?_ fun _ => ?_
  · rw [all_not_iff (P := fun r => 0 ≤ r.fiber ∧ r.fiber < n)]
    · simp only [Option.some.injEq, forall_eq']
    · intro r _; simp
  refine decides_ite ?_ fun _ => ?_
  · rw [all_not_iff (P := fun r => 0 ≤ r.beam ∧ r.beam < ((f.rows.map Prod.snd).length : Int))]
    intro r _; simp
  refine decides_ite ?_ fun _ => ?_
  · rw [all_not_iff (P := fun r => 0 ≤ r.constraint ∧ r.constraint < ((f.rows.map Prod.snd).length : Int))]
    intro r _; simp
  refine decides_mono (p := FSorted (f.rows.map Prod.snd)) ?_ nodesSorted_fsorted
  refine decides_ite' ?_ fun _ => ?_
  · rw [ne_eq, not_iff_not, fiberSort_iff]
  refine decides_ite' ?_ fun hsort => ?_
  · rw [ne_eq, not_iff_not, sorted_iff _ hl]
  refine decides_ite' ?_ fun _ => ?_
  · rw [ne_eq, not_iff_not, beams_iff _ hl hsort]
  refine decides_ite' ?_ fun _ => ?_
  · rw [ne_eq, not_iff_not, reciprocal_iff _ hl]
  refine decides_ite ?_ fun _ => .done
  rw [Bool.not_eq_true', ← Bool.not_eq_true, not_iff_not]
  exact ends_iff _ hl hsort

/-- `Mesh.check` accepts a frame iff the check is skipped or the frame is valid. -/
theorem C28_meshCheck_iff (f : MeshFrame K) :
    meshCheck f = .ok () ↔ Skipped f.attrs ∨ ValidMesh f := by
  by_cases hs : Skipped f.attrs
  · simp [meshCheck, (skip_iff _).2 hs, hs]
  · rw [decides_ok_iff (C28_meshCheck_decides f hs)]
    simp only [meshConditions, List.mem_cons, List.not_mem_nil, or_false, forall_eq_or_imp, forall_eq, hs, false_or]
    constructor
    · rintro ⟨a, b, c, d, e, -, -, g, h, i, j⟩
      exact ⟨a, b, c, d.1, d.2, fun r hr => e r.2 (List.mem_map_of_mem hr), g, h, i, j⟩
    · rintro ⟨a, b, c, d, d', e, g, h, i, j⟩
      refine ⟨a, b, c, ⟨d, d'⟩, ?_, ?_, ?_, g, h, i, j⟩
      · intro r hr
        obtain ⟨p, hp, rfl⟩ := List.mem_map.1 hr
        exact e p hp
      · intro r hr
        obtain ⟨k, hk⟩ := List.mem_iff_getElem?.1 hr
        obtain ⟨m, hm, r', p, -, hp, -⟩ := h k r hk
        obtain ⟨hlt, -⟩ := List.getElem?_eq_some_iff.1 hp
        omega
      · intro r hr
        obtain ⟨k, hk⟩ := List.mem_iff_getElem?.1 hr
        obtain ⟨m, p, hm, hp, -⟩ := i k r hk
        obtain ⟨hlt, -⟩ := List.getElem?_eq_some_iff.1 hp
        omega

/-- A set `skip_check` flag makes `Mesh.check` accept anything. -/
theorem C28_skip (f : MeshFrame K) (h : Skipped f.attrs) : meshCheck f = .ok () :=
  (C28_meshCheck_iff f).2 (Or.inl h)

/-! ## Examples for C28 -/

/-- The mesh of two crossing fibers. -/
def goodMesh : MeshFrame ℚ :=
  { columns := "h" :: meshColumns, intFiber := true, intNodes := true
    rows := [(0, ⟨0, -1, -1, 0, 0, 1, 0⟩), (1, ⟨0, 0, 0, 0, 0, 2, 4⟩), (2, ⟨0, 1, 1, 0, 0, 0, 2⟩),
             (3, ⟨1, -1, 0, -1, 1, 4, 3⟩), (4, ⟨1, 0, 0, 0, 1, 5, 1⟩), (5, ⟨1, 1, 0, 1, 1, 3, 5⟩)]
    attrs := { n := some 2, size := some 50, periodic := some true } }

example : ¬ Skipped goodMesh.attrs := by simp [Skipped, goodMesh]
example : meshCheck goodMesh = .ok () := by decide +kernel
example : ValidMesh goodMesh := ((C28_meshCheck_iff _).1 (by decide +kernel)).resolve_left (by simp [Skipped, goodMesh])
example : meshCheck { goodMesh with rows := goodMesh.rows.map (fun p => (p.1, { p.2 with beam := p.1 })) } =
    .error .valueError := by decide +kernel
example : meshCheck { goodMesh with rows := goodMesh.rows.map (fun p => (p.1, { p.2 with constraint := 5 - p.1 })) } =
    .error .valueError := by decide +kernel
example : meshCheck { goodMesh with rows := goodMesh.rows.map (fun p => (-p.1, p.2)) } = .error .indexError := by
  decide +kernel
example : meshCheck { goodMesh with intNodes := false } = .error .typeError := by decide +kernel

end Fibermat
