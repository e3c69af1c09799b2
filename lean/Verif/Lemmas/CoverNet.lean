import Verif.Lemmas.CoverSystem

/-! Stacks and meshes of repeated mats. -/

set_option linter.unusedSectionVars false
set_option linter.unusedSimpArgs false

namespace Fibermat
variable {K : Type} [Field K] [LinearOrder K] [IsStrictOrderedRing K]
open Spec

variable {φ κ : ℕ → ℕ} {m m' : Mat K}

/-- Of the two ends of a row between two fibers, the one on the lower fiber comes first. -/
theorem placement_order {net : List (NetRow K)} {rows : List (MeshRow K)} {place : ℕ → ℕ} (hp : Placement net rows place)
    (hs : NodesSorted rows) {k : ℕ} {r : NetRow K} (hk : net[k]? = some r) (hlt : r.A < r.B) : place (2 * k) < place (2 * k + 1) := by
  obtain ⟨a, ha, ea, -⟩ := hp.endA k r hk
  obtain ⟨b, hb, eb, -⟩ := hp.endB k r hk
  by_contra hcon
  have := sorted_fiber hs hb ha (by omega)
  rw [ea.fiber, eb.fiber] at this
  omega

/-- The mesh of the copies of a net. -/
theorem cover_mesh (hmm : CoverMat φ m m') {net net' : Net K} (hn : CoverNet φ m'.fibers.length net.rows net'.rows κ)
    (ho : OverMat m net.rows) (ho' : OverMat m' net'.rows)
    {mesh mesh' : Mesh K} (hm : meshInit net = .ok mesh) (hm' : meshInit net' = .ok mesh') (hs : NodesSorted mesh.rows)
    (hs' : NodesSorted mesh'.rows) : ∃ π, CoverMesh φ mesh.rows mesh'.rows π := by
  obtain ⟨place, hp⟩ := C26_constraints hm
  obtain ⟨place', hp'⟩ := C26_constraints hm'
  have hsurj : ∀ i, i < mesh'.rows.length → ∃ q, q < 2 * net'.rows.length ∧ place' q = i := fun i hi => placement_surj hp' hi
  classical
  let inv : ℕ → ℕ := fun i => if h : i < mesh'.rows.length then Classical.choose (hsurj i h) else 0
  have hinv : ∀ i, i < mesh'.rows.length → inv i < 2 * net'.rows.length ∧ place' (inv i) = i := by
    intro i h
    simp only [inv, dif_pos h]
    exact Classical.choose_spec (hsurj i h)
  have hinv2 : ∀ q, q < 2 * net'.rows.length → inv (place' q) = q := by
    intro q hq
    obtain ⟨h1, h2⟩ := hinv (place' q) (hp'.inRange q hq)
    exact hp'.inj _ _ h1 hq h2
  let π : ℕ → ℕ := fun i => place (2 * κ (inv i / 2) + inv i % 2)
  have hπ0 : ∀ k, k < net'.rows.length → π (place' (2 * k)) = place (2 * κ k) := by
    intro k hk
    simp only [π]
    rw [hinv2 (2 * k) (by omega), show 2 * k / 2 = k by omega, show 2 * k % 2 = 0 by omega, Nat.add_zero]
  have hπ1 : ∀ k, k < net'.rows.length → π (place' (2 * k + 1)) = place (2 * κ k + 1) := by
    intro k hk
    simp only [π]
    rw [hinv2 (2 * k + 1) (by omega), show (2 * k + 1) / 2 = k by omega, show (2 * k + 1) % 2 = 1 by omega]
  have heq : ∀ {r r' : NetRow K}, r ∈ net.rows → r' ∈ net'.rows → CopyRow φ r r' → (r'.A = r'.B ↔ r.A = r.B) := by
    intro r r' h1 h2 hc
    have l1 := (ho r h1).2.1
    have l2 := (ho' r' h2).2.1
    have := hc.less
    constructor
    · intro e
      by_contra hne
      have := this.2 (lt_of_le_of_ne l1 hne)
      omega
    · intro e
      by_contra hne
      have := this.1 (lt_of_le_of_ne l2 hne)
      omega
  refine ⟨π, ?_, ?_, ?_, ?_⟩
  · -- surj
    intro i hi
    obtain ⟨k, row, hk, hcase⟩ := placement_cases hp (List.getElem?_eq_getElem hi)
    obtain ⟨a1, b1, a2, b2⟩ := over_lt ho (List.mem_of_getElem? hk)
    rcases hcase with ⟨rfl, -⟩ | ⟨rfl, -⟩
    · obtain ⟨a, ha, ea⟩ := hmm.surj _ a1
      obtain ⟨k', r', hr', rfl, -⟩ := hn.liftA k a row hk ha (by omega)
      have hlt := (List.getElem?_eq_some_iff.1 hr').1
      exact ⟨place' (2 * k'), hp'.inRange _ (by omega), hπ0 k' hlt⟩
    · obtain ⟨a, ha, ea⟩ := hmm.surj _ b1
      obtain ⟨k', r', hr', rfl, -⟩ := hn.liftB k a row hk ha (by omega)
      have hlt := (List.getElem?_eq_some_iff.1 hr').1
      exact ⟨place' (2 * k' + 1), hp'.inRange _ (by omega), hπ1 k' hlt⟩
  · -- node
    intro i r' hr'
    obtain ⟨k, row', hk, hcase⟩ := placement_cases hp' hr'
    have hlt := (List.getElem?_eq_some_iff.1 hk).1
    obtain ⟨row, hrow, hcopy⟩ := hn.copy k row' hk
    have hAB := heq (List.mem_of_getElem? hrow) (List.mem_of_getElem? hk) hcopy
    have l2 := (ho' row' (List.mem_of_getElem? hk)).2.1
    obtain ⟨a, ha, eA, cA⟩ := hp.endA (κ k) row hrow
    obtain ⟨b, hb, eB, cB⟩ := hp.endB (κ k) row hrow
    rcases hcase with ⟨rfl, e1, c1⟩ | ⟨rfl, e1, c1⟩
    · refine ⟨a, by rw [hπ0 k hlt]; exact ha, ?_, ?_, ?_, ?_, ?_⟩
      · rw [eA.fiber, hcopy.A, e1.fiber]
      · rw [e1.s, eA.s, hcopy.sA]
      · rw [e1.z, eA.z, hcopy.zA]
      · rw [cA, c1]
        by_cases hc : row.A = row.B
        · rw [if_pos hc, if_pos (hAB.2 hc), Int.toNat_natCast, hπ0 k hlt]
        · rw [if_neg hc, if_neg (fun e => hc (hAB.1 e)), Int.toNat_natCast, hπ1 k hlt]
      · rw [cA, c1, hπ0 k hlt]
        by_cases hc : row.A = row.B
        · rw [if_pos hc, if_pos (hAB.2 hc)]
          simp
        · rw [if_neg hc, if_neg (fun e => hc (hAB.1 e))]
          have hlt' : row'.A < row'.B := lt_of_le_of_ne l2 (fun e => hc (hAB.1 e))
          have x1 := placement_order hp' hs' hk hlt'
          have x2 := placement_order hp hs hrow (hcopy.less.1 hlt')
          constructor <;> intro _ <;> omega
    · refine ⟨b, by rw [hπ1 k hlt]; exact hb, ?_, ?_, ?_, ?_, ?_⟩
      · rw [eB.fiber, hcopy.B, e1.fiber]
      · rw [e1.s, eB.s, hcopy.sB]
      · rw [e1.z, eB.z, hcopy.zB]
      · rw [cB, c1]
        by_cases hc : row.A = row.B
        · rw [if_pos hc, if_pos (hAB.2 hc), Int.toNat_natCast, hπ1 k hlt]
        · rw [if_neg hc, if_neg (fun e => hc (hAB.1 e)), Int.toNat_natCast, hπ0 k hlt]
      · rw [cB, c1, hπ1 k hlt]
        by_cases hc : row.A = row.B
        · rw [if_pos hc, if_pos (hAB.2 hc)]
          simp
        · rw [if_neg hc, if_neg (fun e => hc (hAB.1 e))]
          have hlt' : row'.A < row'.B := lt_of_le_of_ne l2 (fun e => hc (hAB.1 e))
          have x1 := placement_order hp' hs' hk hlt'
          have x2 := placement_order hp hs hrow (hcopy.less.1 hlt')
          constructor <;> intro _ <;> omega
  · -- lift
    intro i j r' p hr' hpj hf
    have hover : r'.fiber.toNat < m'.fibers.length ∧ (r'.fiber.toNat : ℤ) = r'.fiber := by
      obtain ⟨k, row', hk, ⟨-, e1, -⟩ | ⟨-, e1, -⟩⟩ := placement_cases hp' hr'
      · obtain ⟨a1, -, a2, -⟩ := over_lt ho' (List.mem_of_getElem? hk)
        rw [e1.fiber]; exact ⟨a1, a2⟩
      · obtain ⟨-, a1, -, a2⟩ := over_lt ho' (List.mem_of_getElem? hk)
        rw [e1.fiber]; exact ⟨a1, a2⟩
    obtain ⟨k, row, hk, ⟨rfl, e1, -⟩ | ⟨rfl, e1, -⟩⟩ := placement_cases hp hpj
    · rw [e1.fiber] at hf
      obtain ⟨k', q, hq, rfl, hqa⟩ := hn.liftA k _ row hk hover.1 hf.symm
      have hlt := (List.getElem?_eq_some_iff.1 hq).1
      obtain ⟨a, ha, eA, -⟩ := hp'.endA k' q hq
      exact ⟨_, a, ha, hπ0 k' hlt, by rw [eA.fiber, hqa, hover.2]⟩
    · rw [e1.fiber] at hf
      obtain ⟨k', q, hq, rfl, hqa⟩ := hn.liftB k _ row hk hover.1 hf.symm
      have hlt := (List.getElem?_eq_some_iff.1 hq).1
      obtain ⟨a, ha, eA, -⟩ := hp'.endB k' q hq
      exact ⟨_, a, ha, hπ1 k' hlt, by rw [eA.fiber, hqa, hover.2]⟩
  · -- inj
    intro i j r p hr hpj hf e
    obtain ⟨k, row, hk, hcase⟩ := placement_cases hp' hr
    obtain ⟨k2, row2, hk2, hcase2⟩ := placement_cases hp' hpj
    have hlt := (List.getElem?_eq_some_iff.1 hk).1
    have hlt2 := (List.getElem?_eq_some_iff.1 hk2).1
    obtain ⟨q, hq, -⟩ := hn.copy k row hk
    obtain ⟨q2, hq2, -⟩ := hn.copy k2 row2 hk2
    have hl := (List.getElem?_eq_some_iff.1 hq).1
    have hl2 := (List.getElem?_eq_some_iff.1 hq2).1
    rcases hcase with ⟨rfl, e1, -⟩ | ⟨rfl, e1, -⟩ <;> rcases hcase2 with ⟨rfl, e2, -⟩ | ⟨rfl, e2, -⟩
    · rw [hπ0 k hlt, hπ0 k2 hlt2] at e
      have := hp.inj _ _ (by omega) (by omega) e
      rw [hn.uniqueA k k2 row row2 hk hk2 (by omega) (by rw [← e1.fiber, ← e2.fiber, hf])]
    · rw [hπ0 k hlt, hπ1 k2 hlt2] at e
      have := hp.inj _ _ (by omega) (by omega) e
      omega
    · rw [hπ1 k hlt, hπ0 k2 hlt2] at e
      have := hp.inj _ _ (by omega) (by omega) e
      omega
    · rw [hπ1 k hlt, hπ1 k2 hlt2] at e
      have := hp.inj _ _ (by omega) (by omega) e
      rw [hn.uniqueB k k2 row row2 hk hk2 (by omega) (by rw [← e1.fiber, ← e2.fiber, hf])]

theorem cover_thick (h : CoverMat φ m m') {i : ℕ} (hi : i < m'.fibers.length) : thick m' i = thick m (φ i) := by
  have hf : m'.fibers[i]? = some m'.fibers[i] := List.getElem?_eq_getElem hi
  obtain ⟨f, hf0, hs⟩ := h.fiber _ _ hf
  simp only [thick, hf, hf0, Option.map_some, hs.h]

/-- The lowest heights of the copies are those of the cell. -/
theorem cover_lowest (h : CoverMat φ m m') {rows rows' : List (NetRow K)} (hn : CoverNet φ m'.fibers.length rows rows' κ)
    (ho : OverMat m rows) (ho' : OverMat m' rows') {z z' : ℕ → K} (hz : Lowest m rows z) (hz' : Lowest m' rows' z') :
    ∀ i, i < m'.fibers.length → z' i = z (φ i) := by
  classical
  -- the heights of the cell, copied
  have hcopy : NoOverlap m' rows' (fun i => z (φ i)) := by
    refine ⟨fun i hi => ?_, fun r' hr' hlt => ?_⟩
    · rw [cover_thick h hi]
      exact hz.1.floor _ (h.lt i hi)
    · obtain ⟨k, hk⟩ := List.mem_iff_getElem?.1 hr'
      obtain ⟨r, hr, hc⟩ := hn.copy k r' hk
      obtain ⟨a1, b1, -⟩ := over_lt ho' hr'
      have := hz.1.gap r (List.mem_of_getElem? hr) (hc.less.1 hlt)
      rw [hc.A, hc.B, Int.toNat_natCast, Int.toNat_natCast] at this
      rw [cover_thick h a1, cover_thick h b1]
      exact this
  -- the lowest copies
  let T : ℕ → Finset ℕ := fun k => (Finset.range m'.fibers.length).filter (fun i => φ i = k)
  have hT : ∀ k, k < m.fibers.length → (T k).Nonempty := by
    intro k hk
    obtain ⟨i, hi, e⟩ := h.surj k hk
    exact ⟨i, Finset.mem_filter.2 ⟨Finset.mem_range.2 hi, e⟩⟩
  have hmin : ∀ k, k < m.fibers.length → ∃ i, (i < m'.fibers.length ∧ φ i = k) ∧ ∀ j, j < m'.fibers.length → φ j = k → z' i ≤ z' j := by
    intro k hk
    obtain ⟨i, hi, hall⟩ := Finset.exists_min_image (T k) z' (hT k hk)
    obtain ⟨i1, i2⟩ := Finset.mem_filter.1 hi
    exact ⟨i, ⟨Finset.mem_range.1 i1, i2⟩, fun j hj e => hall j (Finset.mem_filter.2 ⟨Finset.mem_range.2 hj, e⟩)⟩
  choose! low hlow1 hlow2 using hmin
  have hdown : NoOverlap m rows (fun k => z' (low k)) := by
    refine ⟨fun k hk => ?_, fun r hr hlt => ?_⟩
    · obtain ⟨i1, i2⟩ := hlow1 k hk
      have := hz'.1.floor _ i1
      rwa [cover_thick h i1, i2] at this
    · obtain ⟨a1, b1, a2, b2⟩ := over_lt ho hr
      obtain ⟨k, hk⟩ := List.mem_iff_getElem?.1 hr
      obtain ⟨i1, i2⟩ := hlow1 _ b1
      obtain ⟨k', r', hr', rfl, hb⟩ := hn.liftB k _ r hk i1 (by rw [i2, b2])
      obtain ⟨r0, hr0, hc⟩ := hn.copy k' r' hr'
      rw [hk] at hr0; cases hr0
      obtain ⟨x1, y1, x2, y2⟩ := over_lt ho' (List.mem_of_getElem? hr')
      have hg := hz'.1.gap r' (List.mem_of_getElem? hr') (hc.less.2 hlt)
      have eA : φ r'.A.toNat = r.A.toNat := by have := hc.A; omega
      have hle := hlow2 _ a1 _ x1 eA
      rw [cover_thick h x1, cover_thick h y1, eA, hb, Int.toNat_natCast, i2] at hg
      show _ ≤ z' (low r.B.toNat) - z' (low r.A.toNat)
      linarith
  intro i hi
  apply le_antisymm
  · exact hz'.2 _ hcopy i hi
  · exact (hz.2 _ hdown (φ i) (h.lt i hi)).trans (hlow2 _ (h.lt i hi) i hi rfl)

/-- Positions, in a list, of the items kept. -/
theorem filter_positions {α : Type} (p : α → Bool) (l : List α) : ∃ pos : ℕ → ℕ,
    (∀ (k : ℕ) (r : α), (l.filter p)[k]? = some r → l[pos k]? = some r) ∧
    (∀ (j : ℕ) (r : α), l[j]? = some r → p r = true → ∃ k, (l.filter p)[k]? = some r ∧ pos k = j) ∧
    (∀ j k, pos j = pos k → j = k) := by
  induction l with
  | nil => exact ⟨id, by simp, by simp, fun _ _ h => h⟩
  | cons a l ih =>
    obtain ⟨pos, h1, h2, h3⟩ := ih
    by_cases ha : p a = true
    · refine ⟨fun k => match k with | 0 => 0 | k + 1 => pos k + 1, ?_, ?_, ?_⟩
      · intro k r hk
        rw [List.filter_cons_of_pos ha] at hk
        cases k with
        | zero => simpa using hk
        | succ k => simpa using h1 k r (by simpa using hk)
      · intro j r hj hr
        rw [List.filter_cons_of_pos ha]
        cases j with
        | zero => exact ⟨0, by simpa using hj, rfl⟩
        | succ j =>
          obtain ⟨k, hk, e⟩ := h2 j r (by simpa using hj) hr
          exact ⟨k + 1, by simpa using hk, by simp [e]⟩
      · intro j k e
        cases j <;> cases k <;> simp at e ⊢
        exact h3 _ _ e
    · refine ⟨fun k => pos k + 1, ?_, ?_, ?_⟩
      · intro k r hk
        rw [List.filter_cons_of_neg ha] at hk
        simpa using h1 k r hk
      · intro j r hj hr
        rw [List.filter_cons_of_neg ha]
        cases j with
        | zero =>
          simp at hj
          rw [hj] at ha
          exact absurd hr ha
        | succ j =>
          obtain ⟨k, hk, e⟩ := h2 j r (by simpa using hj) hr
          exact ⟨k, hk, by simp [e]⟩
      · intro j k e
        exact h3 _ _ (by simpa using e)

/-- Connections kept are copies of connections kept. -/
theorem cover_filter {n : ℕ} {rows rows' : List (NetRow K)} (hn : CoverNet φ n rows rows' κ) (p : NetRow K → Bool)
    (hp : ∀ r ∈ rows, ∀ r' ∈ rows', CopyRow φ r r' → p r' = p r) : ∃ κ', CoverNet φ n (rows.filter p) (rows'.filter p) κ' := by
  classical
  obtain ⟨pos, h1, h2, h3⟩ := filter_positions p rows
  obtain ⟨pos', h1', h2', h3'⟩ := filter_positions p rows'
  have hmem : ∀ (k : ℕ) (r : NetRow K), (rows'.filter p)[k]? = some r → p r = true := fun k r hk =>
    (List.mem_filter.1 (List.mem_of_getElem? hk)).2
  have hex : ∀ k, k < (rows'.filter p).length → ∃ j, pos j = κ (pos' k) ∧ ∃ (r r' : NetRow K), (rows.filter p)[j]? = some r ∧
      (rows'.filter p)[k]? = some r' ∧ CopyRow φ r r' := by
    intro k hk
    have hk' : (rows'.filter p)[k]? = some (rows'.filter p)[k] := List.getElem?_eq_getElem hk
    have h := h1' _ _ hk'
    obtain ⟨r, hr, hc⟩ := hn.copy _ _ h
    obtain ⟨j, hj, e⟩ := h2 _ r hr (by rw [← hp r (List.mem_of_getElem? hr) _ (List.mem_of_getElem? h) hc]; exact hmem _ _ hk')
    exact ⟨j, e, r, _, hj, hk', hc⟩
  choose! κ' hκ1 hκ2 using hex
  have hlt : ∀ (k : ℕ) (r : NetRow K), (rows'.filter p)[k]? = some r → k < (rows'.filter p).length := fun k r hk =>
    (List.getElem?_eq_some_iff.1 hk).1
  refine ⟨κ', ?_, ?_, ?_, ?_, ?_⟩
  · intro k r' hk
    obtain ⟨r, r2, g1, g2, g3⟩ := hκ2 k (hlt k r' hk)
    rw [hk] at g2; cases g2
    exact ⟨r, g1, g3⟩
  · intro k a r hk ha e
    obtain ⟨k', r', g1, g2, g3⟩ := hn.liftA _ a r (h1 k r hk) ha e
    obtain ⟨r0, q1, q2⟩ := hn.copy _ _ g1
    rw [g2, h1 k r hk] at q1; cases q1
    obtain ⟨j, hj, ej⟩ := h2' k' r' g1 (by
      rw [hp r (List.mem_of_getElem? (h1 k r hk)) r' (List.mem_of_getElem? g1) q2]
      exact (List.mem_filter.1 (List.mem_of_getElem? hk)).2)
    refine ⟨j, r', hj, h3 _ _ ?_, g3⟩
    rw [hκ1 j (hlt j r' hj), ej, g2]
  · intro k a r hk ha e
    obtain ⟨k', r', g1, g2, g3⟩ := hn.liftB _ a r (h1 k r hk) ha e
    obtain ⟨r0, q1, q2⟩ := hn.copy _ _ g1
    rw [g2, h1 k r hk] at q1; cases q1
    obtain ⟨j, hj, ej⟩ := h2' k' r' g1 (by
      rw [hp r (List.mem_of_getElem? (h1 k r hk)) r' (List.mem_of_getElem? g1) q2]
      exact (List.mem_filter.1 (List.mem_of_getElem? hk)).2)
    refine ⟨j, r', hj, h3 _ _ ?_, g3⟩
    rw [hκ1 j (hlt j r' hj), ej, g2]
  · intro j k r q hj hk e ea
    refine h3' _ _ (hn.uniqueA _ _ r q (h1' _ _ hj) (h1' _ _ hk) ?_ ea)
    rw [← hκ1 j (hlt j r hj), ← hκ1 k (hlt k q hk), e]
  · intro j k r q hj hk e ea
    refine h3' _ _ (hn.uniqueB _ _ r q (h1' _ _ hj) (h1' _ _ hk) ?_ ea)
    rw [← hκ1 j (hlt j r hj), ← hκ1 k (hlt k q hk), e]

/-- Of the two fibers of a copy, one is under the other one just as in the cell. -/
theorem copy_same {r r' : NetRow K} (hc : CopyRow φ r r') (h : r.A ≤ r.B) (h' : r'.A ≤ r'.B) : r'.A = r'.B ↔ r.A = r.B := by
  have := hc.less
  omega

/-- Thresholds keep the copies of the connections kept. -/
theorem cover_keep (threshold : Option K) {n : ℕ} {net net' : Net K} (hn : CoverNet φ n net.rows net'.rows κ)
    (ho : OverMat m net.rows) (ho' : OverMat m' net'.rows) :
    ∃ κ', CoverNet φ n (keep threshold net).rows (keep threshold net').rows κ' := by
  cases threshold with
  | none => exact ⟨κ, hn⟩
  | some t =>
    refine cover_filter hn _ (fun r hr r' hr' hc => ?_)
    have := copy_same hc (ho r hr).2.1 (ho' r' hr').2.1
    simp only [hc.zA, hc.zB, this]

end Fibermat
