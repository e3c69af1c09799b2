import Verif.Lemmas.MeshInit

/-! # C23-C27: `Mesh.init` and `Mesh` -/

namespace Fibermat
open Spec
set_option linter.unusedSectionVars false
variable {K : Type} [LinearOrder K]

theorem meshInit_ok {net : Net K} {mesh : Mesh K} (h : meshInit net = .ok mesh) :
    netCheck net.frame = .ok () ∧ mesh = { rows := meshRows net.rows, attrs := net.attrs } := by
  unfold meshInit at h
  cases hc : netCheck net.frame with
  | error e => simp [hc, Bind.bind, Except.bind] at h
  | ok u =>
    simp only [hc, Bind.bind, Except.bind, pure, Except.pure, Except.ok.injEq] at h
    exact ⟨rfl, h.symm⟩

theorem meshInit_of_check {net : Net K} (h : netCheck net.frame = .ok ()) :
    meshInit net = .ok { rows := meshRows net.rows, attrs := net.attrs } := by
  simp [meshInit, h, Bind.bind, Except.bind, pure, Except.pure]

theorem meshNew_eq {net : Net K} (h : netCheck net.frame = .ok ()) :
    meshNew net = (meshCheck (Mesh.frame { rows := meshRows net.rows, attrs := net.attrs })).map
      (fun _ => { rows := meshRows net.rows, attrs := net.attrs }) := by
  unfold meshNew
  rw [meshInit_of_check h]
  simp only [Bind.bind, Except.bind, pure, Except.pure]
  cases meshCheck (Mesh.frame { rows := meshRows net.rows, attrs := net.attrs }) <;> rfl

/-- The data of a row of the mesh, except its elements. -/
theorem meshRows_get (net : List (NetRow K)) {i : Nat} {a : MeshRow K} (h : (meshRows net)[i]? = some a) :
    ∃ r p, (sortNodes (rawNodes net))[i]? = some r ∧
      (sortNodes (rawNodes net))[position net r.constraint]? = some p ∧ p.label = r.constraint ∧
      p.constraint = r.label ∧ position net r.label = i ∧ (rawNodes net)[r.label]? = some r ∧
      a = { fiber := r.node.fiber, s := r.node.s, x := r.node.x, y := r.node.y, z := r.node.z
            beam := (nextIdx (fun r : RawNode K => r.node.fiber) (sortNodes (rawNodes net)) i : Nat)
            constraint := ((if r.node.fiber = p.node.fiber then i else position net r.constraint : Nat) : Int) } := by
  obtain ⟨hi, -⟩ := List.getElem?_eq_some_iff.1 h
  rw [meshRows_length, ← sortNodes_length] at hi
  have hr := List.getElem?_eq_getElem hi
  obtain ⟨p, hp, h1, h2, h3⟩ := partner_exists net hr
  refine ⟨_, p, hr, hp, h1, h2, position_label net hr, h3, ?_⟩
  have := meshRows_getElem? net hr hp
  rw [h] at this
  simpa using this

theorem meshRows_map_node {β : Type} (net : List (NetRow K)) (f : Int → K → K → K → K → β) :
    (meshRows net).map (fun a => f a.fiber a.s a.x a.y a.z) =
      (sortNodes (rawNodes net)).map (fun r => f r.node.fiber r.node.s r.node.x r.node.y r.node.z) := by
  apply List.ext_getElem?
  intro i
  by_cases hi : i < (meshRows net).length
  · obtain ⟨r, p, hr, -, -, -, -, -, ha⟩ := meshRows_get net (List.getElem?_eq_getElem hi)
    rw [List.getElem?_map, List.getElem?_map, List.getElem?_eq_getElem hi, hr, ha]
    rfl
  · rw [List.getElem?_eq_none_iff.2 (by simpa using Nat.le_of_not_lt hi), List.getElem?_eq_none_iff.2]
    rw [List.length_map, sortNodes_length, ← meshRows_length]; omega

theorem flatMap_pair_perm {α β : Type} (f g : α → β) (l : List α) :
    (l.flatMap (fun r => [f r, g r])).Perm (l.map f ++ l.map g) := by
  induction l with
  | nil => simp
  | cons a t ih =>
    simp only [List.flatMap_cons, List.map_cons, List.cons_append, List.nil_append]
    refine List.Perm.cons _ ?_
    refine (List.Perm.cons _ ih).trans ?_
    exact (List.perm_middle).symm

theorem rawNodes_map_node (net : List (NetRow K)) : (rawNodes net).map (·.node) = meshNodes net := by
  unfold rawNodes
  rw [List.map_map]
  have h1 : ((fun x : RawNode K => x.node) ∘ fun p : (Node K × Nat) × Nat => (⟨p.1.2, p.2, p.1.1⟩ : RawNode K)) =
      Prod.fst ∘ Prod.fst := rfl
  rw [h1, ← List.map_map, List.map_fst_zip, zipIdx_map_fst']
  rw [List.length_zipIdx, swapLabels_length, meshNodes_eq, flatMap_pair_length]

/-- C23: `Mesh.init` keeps the nodes: two per row of the net, the ends A and B of the rows. -/
theorem C23_mesh_nodes {net : Net K} {mesh : Mesh K} (h : meshInit net = .ok mesh) :
    mesh.rows.length = 2 * net.rows.length ∧
    (mesh.rows.map (fun a => (a.fiber, a.s, a.x, a.y, a.z))).Perm
      (net.rows.map (fun r => (r.A, r.sA, r.xA, r.yA, r.zA)) ++
        net.rows.map (fun r => (r.B, r.sB, r.xB, r.yB, r.zB))) := by
  obtain ⟨-, rfl⟩ := meshInit_ok h
  refine ⟨meshRows_length _, ?_⟩
  simp only
  rw [meshRows_map_node net.rows (fun a b c d e => (a, b, c, d, e))]
  refine ((sortNodes_perm net.rows).map _).trans ?_
  have : (rawNodes net.rows).map (fun r => (r.node.fiber, r.node.s, r.node.x, r.node.y, r.node.z)) =
      (meshNodes net.rows).map (fun n => (n.fiber, n.s, n.x, n.y, n.z)) := by
    rw [← rawNodes_map_node, List.map_map]; rfl
  rw [this, meshNodes, List.map_flatMap]
  exact flatMap_pair_perm (fun r : NetRow K => (r.A, r.sA, r.xA, r.yA, r.zA))
    (fun r : NetRow K => (r.B, r.sB, r.xB, r.yB, r.zB)) net.rows

theorem labels_meshFrame (m : Mesh K) : LabelsInOrder m.frame.rows := by
  intro i h
  simp [Mesh.frame]

theorem rows_meshFrame (m : Mesh K) : m.frame.rows.map Prod.snd = m.rows := by
  simp only [Mesh.frame, List.map_map]
  exact zipIdx_map_fst' m.rows 0

theorem meshRows_sorted (net : List (NetRow K)) : NodesSorted (meshRows net) := by
  have h := sortNodes_sorted net
  have h2 : ((meshRows net).map (fun a => (a.fiber, a.s))).Pairwise fsLe := by
    rw [meshRows_map_node net (fun a b _ _ _ => (a, b)), List.pairwise_map]
    exact h
  rw [List.pairwise_map] at h2
  exact h2

/-- C24: node labels are `0, 1, 2, …` and nodes are sorted by fiber, then abscissa. -/
theorem C24_mesh_sorted {net : Net K} {mesh : Mesh K} (h : meshInit net = .ok mesh) :
    LabelsInOrder mesh.frame.rows ∧ NodesSorted mesh.rows := by
  obtain ⟨-, rfl⟩ := meshInit_ok h
  exact ⟨labels_meshFrame _, meshRows_sorted _⟩

theorem nextIdx_meshRows (net : List (NetRow K)) (i : Nat) :
    nextIdx (fun r : RawNode K => r.node.fiber) (sortNodes (rawNodes net)) i =
      nextIdx (fun r : MeshRow K => r.fiber) (meshRows net) i := by
  have e := meshRows_map_node net (fun a _ _ _ _ => a)
  have h1 : nextIdx id ((meshRows net).map (fun a => a.fiber)) i =
      nextIdx (fun r : MeshRow K => r.fiber) (meshRows net) i := by
    simp [nextIdx, List.findIdx_map, Function.comp_def]
  have h2 : nextIdx id ((sortNodes (rawNodes net)).map (fun r => r.node.fiber)) i =
      nextIdx (fun r : RawNode K => r.node.fiber) (sortNodes (rawNodes net)) i := by
    simp [nextIdx, List.findIdx_map, Function.comp_def]
  rw [← h1, ← h2, e]

theorem meshRows_beams (net : List (NetRow K)) : BeamsCyclic (meshRows net) := by
  intro i a ha
  obtain ⟨r, p, -, -, -, -, -, -, h⟩ := meshRows_get net ha
  obtain ⟨hi, -⟩ := List.getElem?_eq_some_iff.1 ha
  refine ⟨nextIdx (·.fiber) (meshRows net) i, ?_, (cyclicNext_iff (nodesSorted_fsorted (meshRows_sorted net)) hi).2 rfl⟩
  rw [← nextIdx_meshRows, h]

/-- Two nodes with the same cyclic successor are equal. -/
theorem cyclicNext_inj {rows : List (MeshRow K)} {i i' j : Nat} (h : CyclicNext rows i j)
    (h' : CyclicNext rows i' j) : i = i' := by
  obtain ⟨r, p, hr, hp, e, hc⟩ := h
  obtain ⟨r', p', hr', hp', e', hc'⟩ := h'
  rw [hp] at hp'; cases hp'
  have hfalse : ∀ {i i' : Nat} {r r' : MeshRow K}, rows[i]? = some r → rows[i']? = some r' → p.fiber = r.fiber →
      j = i + 1 → FirstOnFiber rows j → False := by
    intro i i' r r' hr _ e hj ⟨q, hq, hfirst⟩
    rw [hp] at hq; cases hq
    exact hfirst i r (by omega) hr e.symm
  rcases hc with ⟨-, hc⟩ | ⟨hc1, hc2⟩ <;> rcases hc' with ⟨-, hc'⟩ | ⟨hc1', hc2'⟩
  · omega
  · exact (hfalse hr hr' e hc hc2').elim
  · exact (hfalse hr' hr e' hc' hc2).elim
  · obtain ⟨q, hq, hl⟩ := hc1
    obtain ⟨q', hq', hl'⟩ := hc1'
    rw [hr] at hq; cases hq
    rw [hr'] at hq'; cases hq'
    rcases Nat.lt_trichotomy i i' with h | h | h
    · exact absurd (e'.symm.trans e) (hl i' r' h hr')
    · exact h
    · exact absurd (e.symm.trans e') (hl' i r h hr)

theorem perm_arange_of_nodup {l : List Int} (hn : l.Nodup) (hr : ∀ a ∈ l, 0 ≤ a ∧ a < (l.length : Int)) :
    l.Perm (arange l.length) := by
  have h2 : (arange l.length).Nodup := (arange_pairwise_lt _).imp (fun h => ne_of_lt h)
  refine List.Subperm.perm_of_length_le (List.subperm_of_subset hn ?_) (by rw [arange_length])
  intro a ha
  obtain ⟨h0, h1⟩ := hr a ha
  have hlt : a.toNat < (arange l.length).length := by rw [arange_length]; omega
  have := List.getElem_mem hlt
  rw [arange_getElem] at this
  rwa [Int.toNat_of_nonneg h0] at this

/-- C25: in `Mesh.init`, `beam` is the cyclic successor along the fiber. -/
theorem C25_beams_cyclic {net : Net K} {mesh : Mesh K} (h : meshInit net = .ok mesh) : BeamsCyclic mesh.rows := by
  obtain ⟨-, rfl⟩ := meshInit_ok h
  exact meshRows_beams _

/-- C25: `beam` is a permutation of the labels. -/
theorem C25_beams_permutation {net : Net K} {mesh : Mesh K} (h : meshInit net = .ok mesh) :
    (mesh.rows.map (·.beam)).Perm ((List.range mesh.rows.length).map (fun i : Nat => (i : Int))) := by
  have hb := C25_beams_cyclic h
  have : (mesh.rows.map (·.beam)).Perm (arange (mesh.rows.map (·.beam)).length) := by
    apply perm_arange_of_nodup
    · rw [List.nodup_iff_injective_getElem]
      rintro ⟨i, hi⟩ ⟨i', hi'⟩ he
      rw [List.length_map] at hi hi'
      simp only [List.getElem_map] at he
      obtain ⟨j, hj, hc⟩ := hb i _ (List.getElem?_eq_getElem hi)
      obtain ⟨j', hj', hc'⟩ := hb i' _ (List.getElem?_eq_getElem hi')
      have : j = j' := by omega
      subst this
      simpa using cyclicNext_inj hc hc'
    · intro a ha
      obtain ⟨r, hr, rfl⟩ := List.mem_map.1 ha
      obtain ⟨i, hi⟩ := List.mem_iff_getElem?.1 hr
      obtain ⟨j, hj, r', p, -, hp, -⟩ := hb i r hi
      obtain ⟨hlt, -⟩ := List.getElem?_eq_some_iff.1 hp
      rw [List.length_map]; omega
  rw [List.length_map] at this
  exact this

/-- C25: a beam joins nodes of the same fiber. -/
theorem C25_beam_same_fiber {net : Net K} {mesh : Mesh K} (h : meshInit net = .ok mesh) {i : Nat} {r : MeshRow K}
    (hr : mesh.rows[i]? = some r) :
    ∃ p, mesh.rows[r.beam.toNat]? = some p ∧ 0 ≤ r.beam ∧ p.fiber = r.fiber := by
  obtain ⟨j, hj, r', p, hr', hp, he, -⟩ := C25_beams_cyclic h i r hr
  rw [hr] at hr'; cases hr'
  exact ⟨p, by rw [hj]; exact hp, by omega, he⟩

theorem meshRows_at (net : List (NetRow K)) {q : Nat} {r : RawNode K} (h : (rawNodes net)[q]? = some r) :
    ∃ a p, (meshRows net)[position net q]? = some a ∧ (sortNodes (rawNodes net))[position net r.constraint]? = some p ∧
      a.fiber = r.node.fiber ∧ a.s = r.node.s ∧ a.x = r.node.x ∧ a.y = r.node.y ∧ a.z = r.node.z ∧
      a.constraint = ((if r.node.fiber = p.node.fiber then position net q else position net r.constraint : Nat) : Int) := by
  obtain ⟨hl, hs⟩ := position_raw net h
  obtain ⟨p, hp, -⟩ := partner_exists net hs
  exact ⟨_, p, meshRows_getElem? net hs hp, hp, rfl, rfl, rfl, rfl, rfl, rfl⟩

theorem meshRows_placement (net : List (NetRow K)) : Placement net (meshRows net) (position net) := by
  have hraw : ∀ q, q < 2 * net.length → ∃ r, (rawNodes net)[q]? = some r := by
    intro q hq
    exact ⟨_, List.getElem?_eq_getElem (by rw [rawNodes_length]; exact hq)⟩
  refine ⟨meshRows_length net, ?_, ?_, ?_, ?_⟩
  · intro q hq
    obtain ⟨r, hr⟩ := hraw q hq
    obtain ⟨a, p, ha, -⟩ := meshRows_at net hr
    exact (List.getElem?_eq_some_iff.1 ha).1
  · intro p q hp hq h
    obtain ⟨r, hr⟩ := hraw p hp
    obtain ⟨r', hr'⟩ := hraw q hq
    obtain ⟨h1, h2⟩ := position_raw net hr
    obtain ⟨h1', h2'⟩ := position_raw net hr'
    rw [h, h2'] at h2
    cases h2
    omega
  · intro k r hk
    have he := rawNodes_even net k
    have ho := rawNodes_odd net k
    rw [hk, Option.map_some] at he ho
    obtain ⟨a, p, ha, hp, h1, h2, h3, h4, h5, h6⟩ := meshRows_at net he
    refine ⟨a, ha, ⟨h1, h2, h3, h4, h5⟩, ?_⟩
    rw [(position_raw net ho).2, Option.some.injEq] at hp
    subst hp
    exact h6
  · intro k r hk
    have he := rawNodes_even net k
    have ho := rawNodes_odd net k
    rw [hk, Option.map_some] at he ho
    obtain ⟨a, p, ha, hp, h1, h2, h3, h4, h5, h6⟩ := meshRows_at net ho
    refine ⟨a, ha, ⟨h1, h2, h3, h4, h5⟩, ?_⟩
    rw [(position_raw net he).2, Option.some.injEq] at hp
    subst hp
    rw [h6]
    simp only [nodeA, nodeB, eq_comm]

/-- C26: the ends of each row of the net are found in the mesh, constrained to each other (to themselves when the
row has `A = B`). -/
theorem C26_constraints {net : Net K} {mesh : Mesh K} (h : meshInit net = .ok mesh) :
    ∃ place, Placement net.rows mesh.rows place := by
  obtain ⟨-, rfl⟩ := meshInit_ok h
  exact ⟨_, meshRows_placement _⟩

/-- Every node is the end of a row. -/
theorem placement_surj {net : List (NetRow K)} {rows : List (MeshRow K)} {place : Nat → Nat}
    (h : Placement net rows place) {i : Nat} (hi : i < rows.length) : ∃ q, q < 2 * net.length ∧ place q = i := by
  have h1 : ((List.range (2 * net.length)).map place).Nodup := by
    rw [List.nodup_map_iff_inj_on List.nodup_range]
    intro a ha b hb
    exact h.inj a b (by simpa using ha) (by simpa using hb)
  have h2 : ((List.range (2 * net.length)).map place) ⊆ List.range rows.length := by
    intro a ha
    obtain ⟨q, hq, rfl⟩ := List.mem_map.1 ha
    simpa using h.inRange q (by simpa using hq)
  have h3 := (List.subperm_of_subset h1 h2).perm_of_length_le (by simp [h.count])
  have := h3.symm.subset (List.mem_range.2 hi)
  obtain ⟨q, hq, e⟩ := List.mem_map.1 this
  exact ⟨q, by simpa using hq, e⟩

/-- Each node is end A or end B of a row. -/
theorem placement_cases {net : List (NetRow K)} {rows : List (MeshRow K)} {place : Nat → Nat}
    (h : Placement net rows place) {i : Nat} {a : MeshRow K} (ha : rows[i]? = some a) :
    ∃ k r, net[k]? = some r ∧
      ((i = place (2 * k) ∧ IsEndA r a ∧
          a.constraint = ((if r.A = r.B then place (2 * k) else place (2 * k + 1) : Nat) : Int)) ∨
       (i = place (2 * k + 1) ∧ IsEndB r a ∧
          a.constraint = ((if r.A = r.B then place (2 * k + 1) else place (2 * k) : Nat) : Int))) := by
  obtain ⟨hi, -⟩ := List.getElem?_eq_some_iff.1 ha
  obtain ⟨q, hq, rfl⟩ := placement_surj h hi
  obtain ⟨k, rfl | rfl⟩ := Nat.even_or_odd' q
  · have hk : k < net.length := by omega
    obtain ⟨b, hb, h1, h2⟩ := h.endA k _ (List.getElem?_eq_getElem hk)
    rw [ha] at hb; cases hb
    exact ⟨k, _, List.getElem?_eq_getElem hk, Or.inl ⟨rfl, h1, h2⟩⟩
  · have hk : k < net.length := by omega
    obtain ⟨b, hb, h1, h2⟩ := h.endB k _ (List.getElem?_eq_getElem hk)
    rw [ha] at hb; cases hb
    exact ⟨k, _, List.getElem?_eq_getElem hk, Or.inr ⟨rfl, h1, h2⟩⟩

theorem placement_reciprocal {net : List (NetRow K)} {rows : List (MeshRow K)} {place : Nat → Nat}
    (h : Placement net rows place) : ConstraintsReciprocal rows := by
  intro i a ha
  obtain ⟨k, r, hk, ⟨hi, -, hc⟩ | ⟨hi, -, hc⟩⟩ := placement_cases h ha
  · by_cases hAB : r.A = r.B
    · rw [if_pos hAB] at hc
      exact ⟨i, a, by rw [hi]; exact hc, ha, by rw [hi]; exact hc⟩
    · obtain ⟨b, hb, -, hcb⟩ := h.endB k r hk
      rw [if_neg hAB] at hc hcb
      exact ⟨_, b, hc, hb, by rw [hi]; exact hcb⟩
  · by_cases hAB : r.A = r.B
    · rw [if_pos hAB] at hc
      exact ⟨i, a, by rw [hi]; exact hc, ha, by rw [hi]; exact hc⟩
    · obtain ⟨b, hb, -, hcb⟩ := h.endA k r hk
      rw [if_neg hAB] at hc hcb
      exact ⟨_, b, hc, hb, by rw [hi]; exact hcb⟩

/-- C26: `constraint` is an involution. -/
theorem C26_reciprocal {net : Net K} {mesh : Mesh K} (h : meshInit net = .ok mesh) :
    ConstraintsReciprocal mesh.rows := by
  obtain ⟨place, hp⟩ := C26_constraints h
  exact placement_reciprocal hp

theorem placement_ends {net : List (NetRow K)} {rows : List (MeshRow K)} {place : Nat → Nat}
    (h : Placement net rows place) : EndsFree rows ↔
      ∀ k r, net[k]? = some r → ∀ i, (i = place (2 * k) ∨ i = place (2 * k + 1)) →
        FirstOnFiber rows i ∨ LastOnFiber rows i → r.A = r.B := by
  constructor
  · intro hE k r hk i hi hfl
    have hlt : k < net.length := (List.getElem?_eq_some_iff.1 hk).1
    by_contra hAB
    rcases hi with rfl | rfl
    · obtain ⟨a, ha, -, hc⟩ := h.endA k r hk
      rw [if_neg hAB] at hc
      have h2 := hE _ a ha hfl
      rw [hc] at h2
      have := h.inj (2 * k + 1) (2 * k) (by omega) (by omega) (by exact_mod_cast h2)
      omega
    · obtain ⟨a, ha, -, hc⟩ := h.endB k r hk
      rw [if_neg hAB] at hc
      have h2 := hE _ a ha hfl
      rw [hc] at h2
      have := h.inj (2 * k) (2 * k + 1) (by omega) (by omega) (by exact_mod_cast h2)
      omega
  · intro hE i a ha hfl
    obtain ⟨k, r, hk, ⟨hi, -, hc⟩ | ⟨hi, -, hc⟩⟩ := placement_cases h ha
    · rw [hc, if_pos (hE k r hk i (Or.inl hi) hfl), hi]
    · rw [hc, if_pos (hE k r hk i (Or.inr hi) hfl), hi]

theorem rows_netFrame (m : Net K) : m.frame.rows.map Prod.snd = m.rows := by
  simp only [Net.frame, List.map_map]
  exact zipIdx_map_fst' m.rows 0

theorem mem_netFrame {m : Net K} {r : NetRow K} (h : r ∈ m.rows) : ∃ p ∈ m.frame.rows, p.2 = r := by
  rw [← rows_netFrame] at h
  obtain ⟨p, hp, e⟩ := List.mem_map.1 h
  exact ⟨p, hp, e⟩

theorem decides_error {l : List (Prop × Err)} {r : Except Err Unit} (h : Decides l r) {e : Err}
    (he : ∀ c ∈ l, ¬ c.1 → c.2 = e) (hr : r ≠ .ok ()) : r = .error e := by
  induction h with
  | done => exact absurd rfl hr
  | fails hp => exact congrArg _ (he _ (List.mem_cons_self ..) hp)
  | holds hp _ ih => exact ih (fun c hc => he c (by simp [hc])) hr

/-- Everything but the ends is right in the mesh of a valid net. -/
theorem meshRows_valid_iff {net : Net K} (h : ValidNet net.frame) :
    ValidMesh (Mesh.frame { rows := meshRows net.rows, attrs := net.attrs }) ↔ EndsFree (meshRows net.rows) := by
  constructor
  · intro hv
    have := hv.ends
    rwa [rows_meshFrame] at this
  · intro hE
    refine ⟨by simp [HasColumns, Mesh.frame, meshColumns, meshCols], h.attrs, labels_meshFrame _, rfl, rfl, ?_,
      ?_, ?_, ?_, ?_⟩
    · intro r hr n hn
      have hr2 : r.2 ∈ meshRows net.rows := by
        have := List.mem_map_of_mem (f := Prod.snd) hr; rwa [rows_meshFrame] at this
      obtain ⟨i, hi⟩ := List.mem_iff_getElem?.1 hr2
      obtain ⟨k, q, hk, ⟨-, hq, -⟩ | ⟨-, hq, -⟩⟩ := placement_cases (meshRows_placement net.rows) hi
      · obtain ⟨p, hp, rfl⟩ := mem_netFrame (List.mem_of_getElem? hk)
        have := h.range p hp n hn
        rw [hq.fiber]; omega
      · obtain ⟨p, hp, rfl⟩ := mem_netFrame (List.mem_of_getElem? hk)
        have := h.range p hp n hn
        rw [hq.fiber]; omega
    · rw [rows_meshFrame]; exact meshRows_sorted _
    · rw [rows_meshFrame]; exact meshRows_beams _
    · rw [rows_meshFrame]; exact placement_reciprocal (meshRows_placement _)
    · rw [rows_meshFrame]; exact hE

/-- C27: for a valid net, `Mesh(net)` succeeds exactly when the first and last node of each fiber come from rows
with `A = B`; otherwise it raises ValueError. -/
theorem C27_meshNew_iff {net : Net K} {mesh : Mesh K} (hs : ¬ Skipped net.attrs) (hi : meshInit net = .ok mesh)
    {place : Nat → Nat} (hp : Placement net.rows mesh.rows place) :
    ((∀ k r, net.rows[k]? = some r → ∀ i, (i = place (2 * k) ∨ i = place (2 * k + 1)) →
        FirstOnFiber mesh.rows i ∨ LastOnFiber mesh.rows i → r.A = r.B) → meshNew net = .ok mesh) ∧
    (¬ (∀ k r, net.rows[k]? = some r → ∀ i, (i = place (2 * k) ∨ i = place (2 * k + 1)) →
        FirstOnFiber mesh.rows i ∨ LastOnFiber mesh.rows i → r.A = r.B) → meshNew net = .error .valueError) := by
  obtain ⟨hc, rfl⟩ := meshInit_ok hi
  have hv : ValidNet net.frame := ((C14_netCheck_iff _).1 hc).resolve_left hs
  rw [meshNew_eq hc, ← placement_ends hp]
  simp only
  rw [← meshRows_valid_iff hv]
  have hiff := C28_meshCheck_iff (Mesh.frame { rows := meshRows net.rows, attrs := net.attrs })
  constructor
  · intro h
    rw [hiff.2 (Or.inr h)]; rfl
  · intro h
    have hne : meshCheck (Mesh.frame { rows := meshRows net.rows, attrs := net.attrs }) ≠ .ok () := by
      intro hcon
      rcases hiff.1 hcon with h' | h'
      · exact hs h'
      · exact h h'
    have hd := C28_meshCheck_decides (Mesh.frame { rows := meshRows net.rows, attrs := net.attrs }) hs
    rw [decides_error hd (e := .valueError) ?_ hne]
    · rfl
    · intro c hcm hnc
      simp only [meshConditions, List.mem_cons, List.not_mem_nil, or_false] at hcm
      rcases hcm with rfl | rfl | rfl | rfl | rfl | rfl | rfl | rfl | rfl | rfl | rfl <;> try rfl
      · exact absurd (by simp [HasColumns, Mesh.frame, meshColumns, meshCols]) hnc
      · exact absurd hv.attrs hnc
      · exact absurd (labels_meshFrame _) hnc
      · exact absurd ⟨rfl, rfl⟩ hnc

/-- C27: any net accepted by the check gives a mesh or ValueError, nothing else. -/
theorem C27_meshNew_outcomes (net : Net K) (h : netCheck net.frame = .ok ()) :
    (∃ mesh, meshNew net = .ok mesh) ∨ meshNew net = .error .valueError := by
  by_cases hs : Skipped net.attrs
  · left
    rw [meshNew_eq h, C28_skip _ (by exact hs)]
    exact ⟨_, rfl⟩
  · obtain ⟨place, hp⟩ := C26_constraints (meshInit_of_check h)
    obtain ⟨h1, h2⟩ := C27_meshNew_iff hs (meshInit_of_check h) hp
    by_cases hc : (∀ k r, net.rows[k]? = some r → ∀ i, (i = place (2 * k) ∨ i = place (2 * k + 1)) →
        FirstOnFiber (meshRows net.rows) i ∨ LastOnFiber (meshRows net.rows) i → r.A = r.B)
    · exact Or.inl ⟨_, h1 hc⟩
    · exact Or.inr (h2 hc)

/-! ## Examples -/

/-- Two crossing fibers. -/
def crossNet : Net ℚ :=
  { rows := [⟨0, 0, 1, -1, 1, 0, 0, -1, 0, 0⟩, ⟨0, 1, 0, 0, 0, 0, 0, 0, 0, 1⟩, ⟨1, 1, 1, -1, 0, 1, 1, 0, -1, 1⟩]
    attrs := { n := some 2, size := some 50, periodic := some true } }

/-- A net without end rows. -/
def noEndNet : Net ℚ := { crossNet with rows := [⟨0, 1, 0, 0, 0, 0, 0, 0, 0, 1⟩] }

example : ∃ mesh, meshInit crossNet = .ok mesh ∧ mesh.rows.length = 6 ∧ mesh.rows.map (·.beam) = [1, 2, 0, 4, 5, 3] ∧
    mesh.rows.map (·.constraint) = [0, 4, 2, 3, 1, 5] := by
  refine ⟨_, meshInit_of_check (by decide +kernel), ?_⟩
  decide +kernel
example : (meshNew crossNet).toOption.isSome = true := by decide +kernel
example : ¬ Skipped crossNet.attrs := by simp [Skipped, crossNet]
/-- A net without end rows passes `Net.check` but its mesh raises. -/
example : netCheck noEndNet.frame = .ok () ∧ (∃ mesh, meshInit noEndNet = .ok mesh) ∧
    (match meshNew noEndNet with | .error .valueError => true | _ => false) = true :=
  ⟨by decide +kernel, ⟨_, meshInit_of_check (by decide +kernel)⟩, by decide +kernel⟩

end Fibermat
