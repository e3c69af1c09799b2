import Verif.Props.Neighbours
import Verif.Props.NetMesh

/-! # C121: nodes and elements of a fiber -/

namespace Fibermat
open Spec MeasureTheory ProbabilityTheory Set

theorem nodesOf_card {K : Type} (rows : List (MeshRow K)) (k : ℤ) :
    (nodesOf rows k).card = rows.countP (fun r => decide (r.fiber = k)) := by
  classical
  unfold nodesOf
  induction rows using List.reverseRecOn with
  | nil => simp
  | append_singleton l a ih =>
    rw [List.countP_append, ← ih, List.length_append, List.length_singleton, Finset.range_add_one, Finset.filter_insert]
    have hf : (Finset.range l.length).filter (fun i => ∃ r, (l ++ [a])[i]? = some r ∧ r.fiber = k) =
        (Finset.range l.length).filter (fun i => ∃ r, l[i]? = some r ∧ r.fiber = k) := by
      refine Finset.filter_congr fun i hi => ?_
      rw [List.getElem?_append_left (Finset.mem_range.1 hi)]
    have hl : (∃ r, (l ++ [a])[l.length]? = some r ∧ r.fiber = k) ↔ a.fiber = k := by
      simp
    rw [hf]
    by_cases ha : a.fiber = k
    · rw [if_pos (hl.2 ha), Finset.card_insert_of_notMem (by simp)]
      simp [ha]
    · rw [if_neg (fun h => ha (hl.1 h))]
      simp [ha]

theorem ends_count {K : Type} (rows : List (NetRow K)) (i : ℕ) :
    rows.countP (fun r => decide (r.A = (i : ℤ))) + rows.countP (fun r => decide (r.B = (i : ℤ))) =
      2 * rows.countP (fun r => decide (r.A = (i : ℤ) ∧ r.B = (i : ℤ))) +
        (rows.filter (fun r => decide (r.A ≠ r.B ∧ (r.A = (i : ℤ) ∨ r.B = (i : ℤ))))).length := by
  rw [← List.countP_eq_length_filter]
  induction rows with
  | nil => rfl
  | cons r l ih =>
    simp only [List.countP_cons]
    by_cases hA : r.A = (i : ℤ) <;> by_cases hB : r.B = (i : ℤ)
    · simp [hA, hB] at ih ⊢; omega
    · have : (i : ℤ) ≠ r.B := fun e => hB e.symm
      simp [hA, hB, this] at ih ⊢; omega
    · simp [hA, hB] at ih ⊢; omega
    · simp [hA, hB] at ih ⊢; omega

theorem self_count {K : Type} {rows : List (NetRow K)} (h : IncreasingAB rows) {i : ℕ}
    (he : ∃ r ∈ rows, r.A = (i : ℤ) ∧ r.B = (i : ℤ)) :
    rows.countP (fun r => decide (r.A = (i : ℤ) ∧ r.B = (i : ℤ))) = 1 := by
  induction rows with
  | nil => simp at he
  | cons a l ih =>
    unfold IncreasingAB at h
    rw [List.pairwise_cons] at h
    rw [List.countP_cons]
    by_cases ha : a.A = (i : ℤ) ∧ a.B = (i : ℤ)
    · have : l.countP (fun r => decide (r.A = (i : ℤ) ∧ r.B = (i : ℤ))) = 0 := by
        rw [List.countP_eq_zero]
        intro r hr hri
        have := h.1 r hr
        simp only [decide_eq_true_eq] at hri
        omega
      rw [this, if_pos (by simpa using ha)]
    · have hl : ∃ r ∈ l, r.A = (i : ℤ) ∧ r.B = (i : ℤ) := by
        obtain ⟨r, hr, hri⟩ := he
        rcases List.mem_cons.1 hr with rfl | hr
        · exact absurd hri ha
        · exact ⟨r, hr, hri⟩
      rw [ih h.2 hl]
      simp [ha]

section
variable {K : Type} [Field K] [LinearOrder K] [IsStrictOrderedRing K] [FloorRing K]

/-- C121: a fiber has two nodes and one more for each of its connections: in the mesh of a network. -/
theorem C121_nodes {m : Mat K} (h : GoodMat m) {periodic : Bool} {net : Net K} (hn : netNew m periodic = .ok net) {mesh : Mesh K}
    (hm : meshInit net = .ok mesh) {i : ℕ} (hi : i < m.fibers.length) : (nodesOf mesh.rows i).card = 2 + degree net i := by
  obtain ⟨-, hp⟩ := C23_mesh_nodes hm
  have h1 := hp.countP_eq (fun x => decide (x.1 = (i : ℤ)))
  rw [List.countP_map, List.countP_append, List.countP_map, List.countP_map] at h1
  simp only [Function.comp_def] at h1
  rw [nodesOf_card, h1, ends_count, self_count (C06_increasing h hn)]
  · rfl
  · obtain ⟨q, r, hr, hA, hB, -⟩ := C07_end_row h hn (List.getElem?_eq_getElem hi)
    exact ⟨r, List.mem_of_getElem? hr, hA, hB⟩

/-- C121: the same in the mesh of the stacked mat. -/
theorem C121_stacked {lp : Linprog K} (hlp : GoodLinprog lp) {m : Mat K} (h : GoodMat m) (hw : ∀ f ∈ m.fibers, f.w = 0)
    {periodic : Bool} {net : Net K} (hn : netNew m periodic = .ok net) {m' : Mat K} {st : Net K}
    (hst : stackNew lp m net none = .ok (m', st)) {mesh : Mesh K} (hm : meshInit st = .ok mesh) {i : ℕ} (hi : i < m.fibers.length) :
    (nodesOf mesh.rows i).card = 2 + degree net i := by
  obtain ⟨-, -, hpl, -⟩ := C18_vertical hlp h hw hn hst
  have hAB : st.rows.map (fun r => (r.A, r.B)) = net.rows.map (fun r => (r.A, r.B)) := by
    have := congrArg (List.map (fun c : Int × Int × K × K × K × K × K × K => (c.1, c.2.1))) hpl
    simpa [planColumns, Function.comp_def] using this
  obtain ⟨-, hp⟩ := C23_mesh_nodes hm
  have h1 := hp.countP_eq (fun x => decide (x.1 = (i : ℤ)))
  rw [List.countP_map, List.countP_append, List.countP_map, List.countP_map] at h1
  simp only [Function.comp_def] at h1
  have hA : st.rows.countP (fun r => decide (r.A = (i : ℤ))) = net.rows.countP (fun r => decide (r.A = (i : ℤ))) := by
    have := congrArg (List.countP (fun c : Int × Int => decide (c.1 = (i : ℤ)))) hAB
    simpa [List.countP_map, Function.comp_def] using this
  have hB : st.rows.countP (fun r => decide (r.B = (i : ℤ))) = net.rows.countP (fun r => decide (r.B = (i : ℤ))) := by
    have := congrArg (List.countP (fun c : Int × Int => decide (c.2 = (i : ℤ)))) hAB
    simpa [List.countP_map, Function.comp_def] using this
  rw [nodesOf_card, h1, hA, hB, ends_count, self_count (C06_increasing h hn)]
  · rfl
  · obtain ⟨q, r, hr, hA, hB, -⟩ := C07_end_row h hn (List.getElem?_eq_getElem hi)
    exact ⟨r, List.mem_of_getElem? hr, hA, hB⟩

end

section
variable {Ω : Type} [MeasurableSpace Ω] {P : Measure Ω} {d : ℕ → Ω → ℝ} {a : MatArgs ℝ} {e s : ℕ}

/-- C121: the law of the number of nodes of a fiber in the mesh of the stacked mat: two more than a binomial number. -/
theorem C121_mesh (hd : UniformDraws P d) (hseed : GoodSeed a.seed) (hs : a.seed ≠ none) (hpos : PositiveArgs a)
    (hpsi : a.psi = 0) (hl : a.length ≤ a.size / 2) (hπ : a.theta = Real.pi) {lp : Linprog ℝ} (hlp : GoodLinprog lp)
    {i : ℕ} (hi : (i : ℤ) < a.n) (k : ℕ) :
    P {ω | ∃ m s' net m' st mesh, matNew (stream (fun k => d k ω)) Real.cos Real.sin e a s = .ok (m, s') ∧ netNew m true = .ok net ∧
      stackNew lp m net none = .ok (m', st) ∧ meshNew st = .ok mesh ∧ (nodesOf mesh.rows i).card = k + 2} =
      ENNReal.ofReal (binomial (a.n.toNat - 1) (crossChance a.length a.size Real.pi) k) := by
  rw [← C121_binomial (e := e) (s := s) hd hseed hs hpos hpsi hl hπ hi k]
  congr 1
  ext ω
  simp only [mem_ofPred_eq]
  have hw : ∀ {m : Mat ℝ} {s' : ℕ}, matNew (stream (fun k => d k ω)) Real.cos Real.sin e a s = .ok (m, s') → ∀ f ∈ m.fibers, f.w = 0 := by
    intro m s' hm f hf
    obtain ⟨-, -, -, hcol, -⟩ := random_mat hd hs hpsi hm
    obtain ⟨k, hk⟩ := List.mem_iff_getElem?.1 hf
    exact (hcol k f hk).2.2.2.2.1
  have hinit : ∀ {st : Net ℝ} {mesh : Mesh ℝ}, meshNew st = .ok mesh → meshInit st = .ok mesh := by
    intro st mesh this
    unfold meshNew at this
    cases h : meshInit st with
    | error x => rw [h] at this; cases this
    | ok v =>
      rw [h] at this
      cases hc : meshCheck v.frame with
      | error x => simp [bind, Except.bind, hc] at this
      | ok x =>
        simp [bind, Except.bind, hc, pure, Except.pure] at this
        rw [this]
  constructor
  · rintro ⟨m, s', net, m', st, mesh, hm, hn, hst, hme, hc⟩
    obtain ⟨hgood, -, hlen, -⟩ := random_mat hd hs hpsi hm
    rw [C121_stacked hlp hgood (hw hm) hn hst (hinit hme) (by omega)] at hc
    exact ⟨m, s', net, hm, hn, by omega⟩
  · rintro ⟨m, s', net, hm, hn, hc⟩
    obtain ⟨hgood, -, hlen, -⟩ := random_mat hd hs hpsi hm
    obtain ⟨m', st, mesh, hst, hme, -⟩ := C27_mesh_of_stack hlp hgood hn none
    refine ⟨m, s', net, m', st, mesh, hm, hn, hst, hme, ?_⟩
    rw [C121_stacked hlp hgood (hw hm) hn hst (hinit hme) (by omega)]
    omega

end
end Fibermat
