import Verif.Props.DirectionNet

/-! Meshes when the direction of some fibers is reversed. -/

set_option linter.unusedSectionVars false
set_option linter.unusedSimpArgs false

namespace Fibermat
variable {K : Type} [Field K] [LinearOrder K] [IsStrictOrderedRing K]
open Spec

theorem turned_turned (b : Bool) (s : K) : turned b (turned b s) = s := by cases b <;> simp [turned]

theorem turnFiber_turn (b : Bool) (f : Fiber K) : turnFiber b (turnFiber b f) = f := by
  unfold turnFiber; simp only [turned_turned]

theorem turnMat_turn (d : ℕ → Bool) (m : Mat K) : turnMat d (turnMat d m) = m := by
  unfold turnMat
  obtain ⟨fs, a⟩ := m
  simp only [Mat.mk.injEq, and_true]
  apply List.ext_getElem?
  intro i
  simp only [List.getElem?_mapIdx, Option.map_map]
  cases fs[i]? with
  | none => rfl
  | some f => simp [Function.comp, turnFiber_turn]

/-- A function that maps `0, ..., n - 1` to themselves, one to one, has an inverse. -/
theorem inverse_of_inj {n : ℕ} {σ : ℕ → ℕ} (hl : ∀ i, i < n → σ i < n) (hi : ∀ i j, i < n → j < n → σ i = σ j → i = j) :
    ∃ τ : ℕ → ℕ, (∀ i, i < n → τ i < n) ∧ (∀ i, i < n → σ (τ i) = i) ∧ ∀ i, i < n → τ (σ i) = i := by
  have hperm : ((List.range n).map σ).Perm (List.range n) := by
    refine (List.subperm_of_subset ?_ ?_).perm_of_length_le (by simp)
    · refine List.Nodup.map_on ?_ List.nodup_range
      intro r hr s hs
      exact hi r s (List.mem_range.1 hr) (List.mem_range.1 hs)
    · intro r hr
      obtain ⟨s, hs, rfl⟩ := List.mem_map.1 hr
      exact List.mem_range.2 (hl s (List.mem_range.1 hs))
  have hsurj : ∀ k, k < n → ∃ i, i < n ∧ σ i = k := by
    intro k hk
    have : k ∈ (List.range n).map σ := hperm.mem_iff.2 (List.mem_range.2 hk)
    obtain ⟨s, hs, e⟩ := List.mem_map.1 this
    exact ⟨s, List.mem_range.1 hs, e⟩
  classical
  refine ⟨fun k => if h : k < n then Classical.choose (hsurj k h) else 0, ?_, ?_, ?_⟩
  · intro i h
    simp only [dif_pos h]
    exact (Classical.choose_spec (hsurj i h)).1
  · intro i h
    simp only [dif_pos h]
    exact (Classical.choose_spec (hsurj i h)).2
  · intro i h
    have h' := hl i h
    simp only [dif_pos h']
    exact hi _ _ (Classical.choose_spec (hsurj _ h')).1 h (Classical.choose_spec (hsurj _ h')).2

/-- The meshes of a net and of the reversed net have the same nodes. -/
theorem turned_mesh {net : Net K} {half : Int → K} (he : Ended net.rows half) (d : ℕ → Bool) {mesh mesh' : Mesh K}
    (hm : meshInit net = .ok mesh) (hm' : meshInit (turnNet d net) = .ok mesh') :
    ∃ σ, TurnedMesh d mesh.rows mesh'.rows σ := by
  obtain ⟨place, hp⟩ := C26_constraints hm
  obtain ⟨place', hp'⟩ := C26_constraints hm'
  have hlen : (turnNet d net).rows.length = net.rows.length := by simp [turnNet]
  have hcount : mesh'.rows.length = mesh.rows.length := by rw [hp'.count, hp.count, hlen]
  -- exchanged ends
  let ex : ℕ → Bool := fun k => ((net.rows[k]?).map (fun r => decide (r.A = r.B) && d r.A.toNat)).getD false
  let τ : ℕ → ℕ := fun q => if ex (q / 2) then (if q % 2 = 0 then q + 1 else q - 1) else q
  have hτ : ∀ q, q < 2 * net.rows.length → τ q < 2 * net.rows.length := by
    intro q hq
    simp only [τ]
    split
    · split <;> omega
    · exact hq
  have hτi : ∀ p q, τ p = τ q → p = q := by
    intro p q h
    have h2 : ∀ q, τ q / 2 = q / 2 := by
      intro q
      simp only [τ]
      split
      · split <;> omega
      · rfl
    have e : p / 2 = q / 2 := by rw [← h2 p, ← h2 q, h]
    simp only [τ, e] at h
    split at h
    · split at h <;> split at h <;> omega
    · exact h
  have hsurj : ∀ i, i < mesh.rows.length → ∃ q, q < 2 * net.rows.length ∧ place q = i := fun i hi => placement_surj hp hi
  classical
  let inv : ℕ → ℕ := fun i => if h : i < mesh.rows.length then Classical.choose (hsurj i h) else 0
  have hinv : ∀ i, i < mesh.rows.length → inv i < 2 * net.rows.length ∧ place (inv i) = i := by
    intro i h
    simp only [inv, dif_pos h]
    exact Classical.choose_spec (hsurj i h)
  have hinv2 : ∀ q, q < 2 * net.rows.length → inv (place q) = q := by
    intro q hq
    obtain ⟨h1, h2⟩ := hinv (place q) (hp.inRange q hq)
    exact hp.inj _ _ h1 hq h2
  refine ⟨fun i => place' (τ (inv i)), hcount, ?_, ?_, ?_⟩
  · intro i hi
    rw [← hcount]
    exact hp'.inRange _ (by rw [hlen]; exact hτ _ (hinv i hi).1)
  · intro i j hi hj h
    have h1 := hp'.inj _ _ (by rw [hlen]; exact hτ _ (hinv i hi).1) (by rw [hlen]; exact hτ _ (hinv j hj).1) h
    have h2 := hτi _ _ h1
    rw [← (hinv i hi).2, ← (hinv j hj).2, h2]
  · intro i r hr
    obtain ⟨k, row, hk, hcase⟩ := placement_cases hp hr
    have hlt : k < net.rows.length := (List.getElem?_eq_some_iff.1 hk).1
    have hk' : (turnNet d net).rows[k]? = some (turnRow d row) := by simp [turnNet, hk]
    have hex : ex k = (decide (row.A = row.B) && d row.A.toNat) := by simp only [ex, hk, Option.map_some, Option.getD_some]
    have q0 : (2 * k) / 2 = k := by omega
    have q1 : (2 * k + 1) / 2 = k := by omega
    have p0 : (2 * k) % 2 = 0 := by omega
    have p1 : ¬ ((2 * k + 1) % 2 = 0) := by omega
    have i0 := hinv2 (2 * k) (by omega)
    have i1 := hinv2 (2 * k + 1) (by omega)
    obtain ⟨a', ha', eA, cA⟩ := hp'.endA k _ hk'
    obtain ⟨b', hb', eB, cB⟩ := hp'.endB k _ hk'
    rw [turnRow_A, turnRow_B] at cA cB
    by_cases hAB : row.A = row.B
    · obtain ⟨hsA, hsB⟩ := he.ends row (List.mem_of_getElem? hk) hAB
      simp only [hAB, if_true] at cA cB hcase
      cases hd : d row.B.toNat with
      | false =>
        have ht : turnRow d row = row := by simp [turnRow, hAB, hd]
        rw [ht] at eA eB
        have hex' : ex k = false := by rw [hex]; simp [hAB, hd]
        rcases hcase with ⟨rfl, e1, c1⟩ | ⟨rfl, e1, c1⟩
        · refine ⟨a', ?_, ?_, ?_, ?_, ?_, ?_, ?_⟩
          · simp only [i0, τ, q0, hex', Bool.false_eq_true, if_false]; exact ha'
          · rw [eA.fiber, e1.fiber]
          · rw [eA.s, e1.s, e1.fiber, hAB, hd]; rfl
          · rw [eA.x, e1.x]
          · rw [eA.y, e1.y]
          · rw [eA.z, e1.z]
          · rw [cA, c1]; simp only [Int.toNat_natCast, i0, τ, q0, hex', Bool.false_eq_true, if_false]
        · refine ⟨b', ?_, ?_, ?_, ?_, ?_, ?_, ?_⟩
          · simp only [i1, τ, q1, hex', Bool.false_eq_true, if_false]; exact hb'
          · rw [eB.fiber, e1.fiber]
          · rw [eB.s, e1.s, e1.fiber, hd]; rfl
          · rw [eB.x, e1.x]
          · rw [eB.y, e1.y]
          · rw [eB.z, e1.z]
          · rw [cB, c1]; simp only [Int.toNat_natCast, i1, τ, q1, hex', Bool.false_eq_true, if_false]
      | true =>
        have ht : turnRow d row = { row with xA := row.xB, yA := row.yB, zA := row.zB, xB := row.xA, yB := row.yA, zB := row.zA } := by
          simp [turnRow, hAB, hd]
        rw [ht] at eA eB
        have hex' : ex k = true := by rw [hex]; simp [hAB, hd]
        rcases hcase with ⟨rfl, e1, c1⟩ | ⟨rfl, e1, c1⟩
        · refine ⟨b', ?_, ?_, ?_, ?_, ?_, ?_, ?_⟩
          · simp only [i0, τ, q0, p0, hex', if_true]; exact hb'
          · rw [eB.fiber, e1.fiber, hAB]
          · rw [eB.s, e1.s, e1.fiber, hAB, hd]; simp only [turned, if_true, hsA, hsB]
          · rw [eB.x, e1.x]
          · rw [eB.y, e1.y]
          · rw [eB.z, e1.z]
          · rw [cB, c1]; simp only [Int.toNat_natCast, i0, τ, q0, p0, hex', if_true]
        · refine ⟨a', ?_, ?_, ?_, ?_, ?_, ?_, ?_⟩
          · simp only [i1, τ, q1, p1, hex', if_true, if_false, Nat.add_sub_cancel]; exact ha'
          · rw [eA.fiber, e1.fiber]; exact hAB
          · rw [eA.s, e1.s, e1.fiber, hd]; simp only [turned, if_true, hsA, hsB, neg_neg]
          · rw [eA.x, e1.x]
          · rw [eA.y, e1.y]
          · rw [eA.z, e1.z]
          · rw [cA, c1]; simp only [Int.toNat_natCast, i1, τ, q1, p1, hex', if_true, if_false, Nat.add_sub_cancel]
    · have ht : turnRow d row = { row with sA := turned (d row.A.toNat) row.sA, sB := turned (d row.B.toNat) row.sB } := by
        simp [turnRow, hAB]
      rw [ht] at eA eB
      simp only [hAB, if_false] at cA cB hcase
      have hex' : ex k = false := by rw [hex]; simp [hAB]
      rcases hcase with ⟨rfl, e1, c1⟩ | ⟨rfl, e1, c1⟩
      · refine ⟨a', ?_, ?_, ?_, ?_, ?_, ?_, ?_⟩
        · simp only [i0, τ, q0, hex', Bool.false_eq_true, if_false]; exact ha'
        · rw [eA.fiber, e1.fiber]
        · rw [eA.s, e1.s, e1.fiber]
        · rw [eA.x, e1.x]
        · rw [eA.y, e1.y]
        · rw [eA.z, e1.z]
        · rw [cA, c1]; simp only [Int.toNat_natCast, i1, τ, q1, hex', Bool.false_eq_true, if_false]
      · refine ⟨b', ?_, ?_, ?_, ?_, ?_, ?_, ?_⟩
        · simp only [i1, τ, q1, hex', Bool.false_eq_true, if_false]; exact hb'
        · rw [eB.fiber, e1.fiber]
        · rw [eB.s, e1.s, e1.fiber]
        · rw [eB.x, e1.x]
        · rw [eB.y, e1.y]
        · rw [eB.z, e1.z]
        · rw [cB, c1]; simp only [Int.toNat_natCast, i0, τ, q0, hex', Bool.false_eq_true, if_false]

variable {d : ℕ → Bool} {rows rows' : List (MeshRow K)} {σ : ℕ → ℕ}

theorem Spec.TurnedMesh.symm (h : TurnedMesh d rows rows' σ) (hc : ConstraintsReciprocal rows) :
    ∃ τ, TurnedMesh d rows' rows τ ∧ (∀ i, i < rows.length → τ (σ i) = i) ∧ ∀ i, i < rows.length → σ (τ i) = i := by
  obtain ⟨τ, h1, h2, h3⟩ := inverse_of_inj h.lt h.inj
  refine ⟨τ, ⟨h.count.symm, fun i hi => ?_, fun i j hi hj e => ?_, ?_⟩, h3, h2⟩
  · rw [h.count] at hi ⊢; exact h1 i hi
  · rw [h.count] at hi hj
    rw [← h2 i hi, ← h2 j hj, e]
  · intro k r' hr'
    have hk : k < rows.length := by rw [← h.count]; exact (List.getElem?_eq_some_iff.1 hr').1
    have hr : rows[τ k]? = some (rows[τ k]'(h1 k hk)) := List.getElem?_eq_getElem (h1 k hk)
    obtain ⟨q, hq, e1, e2, e3, e4, e5, e6⟩ := h.node (τ k) _ hr
    rw [h2 k hk, hr'] at hq
    cases hq
    refine ⟨_, hr, e1.symm, ?_, e3.symm, e4.symm, e5.symm, ?_⟩
    · rw [e1, e2, turned_turned]
    · obtain ⟨j, p, hj, hp, -⟩ := hc _ _ hr
      have hjl : j < rows.length := (List.getElem?_eq_some_iff.1 hp).1
      rw [e6, hj, Int.toNat_natCast, Int.toNat_natCast, h3 j hjl]

theorem Spec.TurnedMesh.distinct (h : TurnedMesh d rows rows' σ) (hd : DistinctNodes rows) : DistinctNodes rows' := by
  obtain ⟨τ, h1, h2, h3⟩ := inverse_of_inj h.lt h.inj
  intro i j r p hr hp hf hs
  have hi : i < rows.length := by rw [← h.count]; exact (List.getElem?_eq_some_iff.1 hr).1
  have hj : j < rows.length := by rw [← h.count]; exact (List.getElem?_eq_some_iff.1 hp).1
  obtain ⟨r', hr', a1, a2, -⟩ := h.node (τ i) _ (List.getElem?_eq_getElem (h1 i hi))
  obtain ⟨p', hp', b1, b2, -⟩ := h.node (τ j) _ (List.getElem?_eq_getElem (h1 j hj))
  rw [h2 i hi, hr] at hr'; cases hr'
  rw [h2 j hj, hp] at hp'; cases hp'
  have hff := a1.symm.trans (hf.trans b1)
  have e := hd (τ i) (τ j) _ _ (List.getElem?_eq_getElem (h1 i hi)) (List.getElem?_eq_getElem (h1 j hj)) hff (by
    have := a2.symm.trans (hs.trans b2)
    rw [hff] at this
    have e := congrArg (turned (d (rows[τ j]'(h1 j hj)).fiber.toNat)) this
    rwa [turned_turned, turned_turned] at e)
  rw [← h2 i hi, ← h2 j hj, e]

theorem sorted_fiber (hs : NodesSorted rows) {i j : ℕ} {a b : MeshRow K} (ha : rows[i]? = some a) (hb : rows[j]? = some b)
    (hij : i ≤ j) : a.fiber ≤ b.fiber := by
  rcases Nat.lt_or_eq_of_le hij with h | rfl
  · obtain ⟨hi, rfl⟩ := List.getElem?_eq_some_iff.1 ha
    obtain ⟨hj, rfl⟩ := List.getElem?_eq_some_iff.1 hb
    rcases List.pairwise_iff_getElem.1 hs i j hi hj h with h | ⟨h, -⟩ <;> omega
  · rw [ha] at hb; cases hb; exact le_rfl

/-- Order of the nodes of a fiber. -/
theorem Spec.TurnedMesh.order (h : TurnedMesh d rows rows' σ) (hs : NodesSorted rows) (hs' : NodesSorted rows') (hd : DistinctNodes rows)
    {i j : ℕ} {r p : MeshRow K} (hr : rows[i]? = some r) (hp : rows[j]? = some p) (hf : p.fiber = r.fiber) (hij : i < j) :
    if d r.fiber.toNat then σ j < σ i else σ i < σ j := by
  have hle := sorted_le hs hr hp hf.symm hij.le
  have hne : r.s ≠ p.s := fun e => by
    have := hd i j r p hr hp hf.symm e
    omega
  have hlt := lt_of_le_of_ne hle hne
  obtain ⟨r', hr', a1, a2, -⟩ := h.node i r hr
  obtain ⟨p', hp', b1, b2, -⟩ := h.node j p hp
  rw [hf] at b1 b2
  cases hdd : d r.fiber.toNat with
  | false =>
    simp only [Bool.false_eq_true, if_false]
    refine sorted_lt hs' hr' hp' (by rw [a1, b1]) ?_
    rw [a2, b2, hdd]; exact hlt
  | true =>
    simp only [if_true]
    refine sorted_lt hs' hp' hr' (by rw [a1, b1]) ?_
    rw [a2, b2, hdd]; exact neg_lt_neg hlt

/-- Neighbours remain neighbours. -/
theorem Spec.TurnedMesh.next (h : TurnedMesh d rows rows' σ) (hs : NodesSorted rows) (hs' : NodesSorted rows') (hd : DistinctNodes rows)
    {i : ℕ} {r p : MeshRow K} (hr : rows[i]? = some r) (hp : rows[i + 1]? = some p) (hf : p.fiber = r.fiber) :
    if d r.fiber.toNat then σ i = σ (i + 1) + 1 else σ (i + 1) = σ i + 1 := by
  obtain ⟨τ, t1, t2, t3⟩ := inverse_of_inj h.lt h.inj
  have hi : i < rows.length := (List.getElem?_eq_some_iff.1 hr).1
  have hj : i + 1 < rows.length := (List.getElem?_eq_some_iff.1 hp).1
  obtain ⟨r', hr', a1, -⟩ := h.node i r hr
  obtain ⟨p', hp', b1, -⟩ := h.node (i + 1) p hp
  have h0 := h.order hs hs' hd hr hp hf (by omega)
  -- a node between the two
  have mid : ∀ k, k < rows.length → (∀ q' : MeshRow K, rows'[k]? = some q' → q'.fiber = r.fiber) → k ≠ σ i → k ≠ σ (i + 1) →
      (if d r.fiber.toNat then ¬ (σ (i + 1) < k ∧ k < σ i) else ¬ (σ i < k ∧ k < σ (i + 1))) := by
    intro k hk hfk n1 n2
    have hm : rows[τ k]? = some (rows[τ k]'(t1 k hk)) := List.getElem?_eq_getElem (t1 k hk)
    obtain ⟨q', hq', c1, -⟩ := h.node _ _ hm
    rw [t2 k hk] at hq'
    have hqf : (rows[τ k]'(t1 k hk)).fiber = r.fiber := by rw [← c1]; exact hfk q' hq'
    have m1 : τ k ≠ i := fun e => n1 (by rw [← e, t2 k hk])
    have m2 : τ k ≠ i + 1 := fun e => n2 (by rw [← e, t2 k hk])
    rcases Nat.lt_or_ge (τ k) i with hlt | hge
    · have := h.order hs hs' hd hm hr hqf.symm hlt
      rw [hqf, t2 k hk] at this
      cases hdd : d r.fiber.toNat with
      | false =>
        simp only [hdd, Bool.false_eq_true, if_false] at this h0 ⊢
        omega
      | true =>
        simp only [hdd, if_true] at this h0 ⊢
        omega
    · have hlt : i + 1 < τ k := by omega
      have := h.order hs hs' hd hp hm (by rw [hqf, hf]) hlt
      rw [hf, t2 k hk] at this
      cases hdd : d r.fiber.toNat with
      | false =>
        simp only [hdd, Bool.false_eq_true, if_false] at this h0 ⊢
        omega
      | true =>
        simp only [hdd, if_true] at this h0 ⊢
        omega
  have l1 := h.lt i hi
  have l2 := h.lt (i + 1) hj
  cases hdd : d r.fiber.toNat with
  | false =>
    simp only [hdd, Bool.false_eq_true, if_false] at h0 mid ⊢
    by_contra hne
    refine mid (σ i + 1) (by omega) ?_ (by omega) (by omega) (by omega)
    intro q' hq'
    have x1 := sorted_fiber hs' hr' hq' (by omega)
    have x2 := sorted_fiber hs' hq' hp' (by omega)
    omega
  | true =>
    simp only [hdd, if_true] at h0 mid ⊢
    by_contra hne
    refine mid (σ (i + 1) + 1) (by omega) ?_ (by omega) (by omega) (by omega)
    intro q' hq'
    have x1 := sorted_fiber hs' hp' hq' (by omega)
    have x2 := sorted_fiber hs' hq' hr' (by omega)
    omega

/-- A beam joins neighbours of one fiber. -/
theorem turned_beam_next (hb : BeamsCyclic rows) {i j : ℕ} {r : MeshRow K} (hr : rows[i]? = some r) (hj : r.beam = (j : Int)) (hij : i < j) :
    j = i + 1 ∧ ∃ p : MeshRow K, rows[j]? = some p ∧ p.fiber = r.fiber := by
  obtain ⟨j', hj', r', p, hr', hp, hf, hcase⟩ := hb i r hr
  have : j' = j := by omega
  subst this
  rw [hr] at hr'; cases hr'
  rcases hcase with ⟨-, e⟩ | ⟨⟨q, hq, hlast⟩, -⟩
  · exact ⟨e, p, hp, hf⟩
  · rw [hr] at hq; cases hq
    exact absurd hf (hlast j' p hij hp)

theorem next_beam (hb : BeamsCyclic rows) {i : ℕ} {r p : MeshRow K} (hr : rows[i]? = some r) (hp : rows[i + 1]? = some p)
    (hf : p.fiber = r.fiber) : r.beam = ((i + 1 : ℕ) : Int) := by
  obtain ⟨j', hj', r', p', hr', hp', hf', hcase⟩ := hb i r hr
  rw [hr] at hr'; cases hr'
  rcases hcase with ⟨-, e⟩ | ⟨⟨q, hq, hlast⟩, -⟩
  · rw [hj', e]
  · rw [hr] at hq; cases hq
    exact absurd hf (hlast (i + 1) p (by omega) hp)

/-- Is the fiber of node `i` reversed? -/
def turnedAt (d : ℕ → Bool) (rows : List (MeshRow K)) (i : ℕ) : Bool := ((rows[i]?).map (fun r => d r.fiber.toNat)).getD false

theorem turnedAt_eq {i : ℕ} {r : MeshRow K} (hr : rows[i]? = some r) : turnedAt d rows i = d r.fiber.toNat := by
  simp [turnedAt, hr]

/-- A beam of the reversed mesh. -/
def turnBeam (d : ℕ → Bool) (rows : List (MeshRow K)) (σ : ℕ → ℕ) (b : Beam K) : Beam K :=
  if turnedAt d rows b.i then ⟨σ b.j, σ b.i, b.l, turnFiber true b.fiber⟩ else ⟨σ b.i, σ b.j, b.l, b.fiber⟩

theorem isBeam_unique {mat : Mat K} {b c : Beam K} (hb : IsBeamOf mat rows b) (hc : IsBeamOf mat rows c) (h : b.i = c.i) : b = c := by
  obtain ⟨r, p, h1, h2, h3, h4, h5, h6⟩ := hb.rows
  obtain ⟨r', p', g1, g2, g3, g4, g5, g6⟩ := hc.rows
  obtain ⟨i, j, l, f⟩ := b
  obtain ⟨i', j', l', f'⟩ := c
  simp only at *
  subst h
  rw [h1] at g1; cases g1
  have : j = j' := by omega
  subst this
  rw [h2] at g2; cases g2
  rw [h6] at g6; cases g6
  rw [h4, g4]

theorem getElem?_turnMat (d : ℕ → Bool) (mat : Mat K) (i : ℕ) : (turnMat d mat).fibers[i]? = (mat.fibers[i]?).map (turnFiber (d i)) := by
  simp [turnMat, List.getElem?_mapIdx]

/-- The image of a beam is a beam. -/
theorem Spec.TurnedMesh.beam (h : TurnedMesh d rows rows' σ) (hs : NodesSorted rows) (hs' : NodesSorted rows') (hd : DistinctNodes rows)
    (hb : BeamsCyclic rows) (hb' : BeamsCyclic rows') {mat : Mat K} {b : Beam K} (hbm : IsBeamOf mat rows b) :
    IsBeamOf (turnMat d mat) rows' (turnBeam d rows σ b) := by
  obtain ⟨r, p, h1, h2, h3, h4, h5, h6⟩ := hbm.rows
  obtain ⟨hj, p0, hp0, hf⟩ := turned_beam_next hb h1 h3 hbm.lt
  rw [h2] at hp0; cases hp0
  rw [hj] at h2
  have hnext := h.next hs hs' hd h1 h2 hf
  obtain ⟨r', hr', a1, a2, -⟩ := h.node _ r h1
  obtain ⟨p', hp', b1, b2, -⟩ := h.node _ p h2
  rw [hf] at b1 b2
  unfold turnBeam
  rw [turnedAt_eq h1, hj]
  cases hdd : d r.fiber.toNat with
  | false =>
    simp only [hdd, Bool.false_eq_true, if_false] at hnext ⊢
    rw [hnext] at hp' ⊢
    refine ⟨by simp, r', p', hr', hp', next_beam hb' hr' hp' (by rw [a1, b1]), ?_, by rw [a1]; exact h5, ?_⟩
    · rw [h4, a2, b2, hdd]; simp [turned]
    · rw [getElem?_turnMat, a1, h6, hdd]; simp [turnFiber, turned]
  | true =>
    simp only [hdd, if_true] at hnext ⊢
    rw [hnext] at hr' ⊢
    refine ⟨by simp, p', r', hp', hr', next_beam hb' hp' hr' (by rw [a1, b1]), ?_, by rw [b1]; exact h5, ?_⟩
    · rw [h4, a2, b2, hdd]; simp [turned]; ring
    · rw [getElem?_turnMat, b1, h6, hdd]; rfl

/-- The beams of the reversed mesh are the reversed beams. -/
theorem Spec.TurnedMesh.beams (h : TurnedMesh d rows rows' σ) (hc : ConstraintsReciprocal rows) (hs : NodesSorted rows)
    (hs' : NodesSorted rows') (hd : DistinctNodes rows) (hb : BeamsCyclic rows) (hb' : BeamsCyclic rows') {mat : Mat K}
    {bs bs' : List (Beam K)} (hbs : beams mat rows = .ok bs) (hbs' : beams (turnMat d mat) rows' = .ok bs') :
    bs'.Perm (bs.map (turnBeam d rows σ)) := by
  obtain ⟨s1, s2, s3⟩ := beams_spec hbs
  obtain ⟨t1, t2, t3⟩ := beams_spec hbs'
  obtain ⟨τ, hτ, e1, e2⟩ := h.symm hc
  have hmem : ∀ b ∈ bs, turnBeam d rows σ b ∈ bs' := by
    intro b hbm
    have hB := h.beam hs hs' hd hb hb' (s1 b hbm)
    obtain ⟨r, p, g1, g2, g3, -⟩ := hB.rows
    have hlt := hB.lt
    obtain ⟨c, hc, hce⟩ := t2 (turnBeam d rows σ b).i ⟨r, g1, by omega⟩
    rw [isBeam_unique hB (t1 c hc) hce.symm]
    exact hc
  have hmem' : ∀ b ∈ bs', turnBeam d rows' τ b ∈ bs := by
    intro b hbm
    have hB := Spec.TurnedMesh.beam hτ hs' hs (h.distinct hd) hb' hb (t1 b hbm)
    rw [turnMat_turn] at hB
    obtain ⟨r, p, g1, g2, g3, -⟩ := hB.rows
    have hlt := hB.lt
    obtain ⟨c, hc, hce⟩ := s2 (turnBeam d rows' τ b).i ⟨r, g1, by omega⟩
    rw [isBeam_unique hB (s1 c hc) hce.symm]
    exact hc
  have hround : ∀ b ∈ bs', turnBeam d rows σ (turnBeam d rows' τ b) = b := by
    intro b hbm
    obtain ⟨r, p, g1, g2, g3, -, -, -⟩ := (t1 b hbm).rows
    have hi : b.i < rows.length := by rw [← h.count]; exact (List.getElem?_eq_some_iff.1 g1).1
    have hj : b.j < rows.length := by rw [← h.count]; exact (List.getElem?_eq_some_iff.1 g2).1
    obtain ⟨-, p0, hp0, hf⟩ := turned_beam_next hb' g1 g3 (t1 b hbm).lt
    rw [g2] at hp0; cases hp0
    obtain ⟨q, hq, c1, -⟩ := hτ.node _ r g1
    obtain ⟨q', hq', c1', -⟩ := hτ.node _ p g2
    have k1 : turnedAt d rows (τ b.i) = d r.fiber.toNat := by rw [turnedAt_eq hq, c1]
    have k2 : turnedAt d rows (τ b.j) = d r.fiber.toNat := by rw [turnedAt_eq hq', c1', hf]
    have k0 : turnedAt d rows' b.i = d r.fiber.toNat := turnedAt_eq g1
    cases hdd : d r.fiber.toNat with
    | false =>
      rw [hdd] at k0 k1 k2
      simp only [turnBeam, k0, k1, Bool.false_eq_true, if_false, e2 _ hi, e2 _ hj]
    | true =>
      rw [hdd] at k0 k1 k2
      simp only [turnBeam, k0, k2, if_true, e2 _ hi, e2 _ hj, turnFiber_turn]
  have hnd : bs.Nodup := List.Nodup.of_map _ s3
  have hnd' : bs'.Nodup := List.Nodup.of_map _ t3
  have hround2 : ∀ b ∈ bs, turnBeam d rows' τ (turnBeam d rows σ b) = b := by
    intro b hbm
    obtain ⟨r, p, g1, g2, g3, -, -, -⟩ := (s1 b hbm).rows
    have hi : b.i < rows.length := (List.getElem?_eq_some_iff.1 g1).1
    have hj : b.j < rows.length := (List.getElem?_eq_some_iff.1 g2).1
    obtain ⟨-, p0, hp0, hf⟩ := turned_beam_next hb g1 g3 (s1 b hbm).lt
    rw [g2] at hp0; cases hp0
    obtain ⟨q, hq, c1, -⟩ := h.node _ r g1
    obtain ⟨q', hq', c1', -⟩ := h.node _ p g2
    have k1 : turnedAt d rows' (σ b.i) = d r.fiber.toNat := by rw [turnedAt_eq hq, c1]
    have k2 : turnedAt d rows' (σ b.j) = d r.fiber.toNat := by rw [turnedAt_eq hq', c1', hf]
    have k0 : turnedAt d rows b.i = d r.fiber.toNat := turnedAt_eq g1
    cases hdd : d r.fiber.toNat with
    | false =>
      rw [hdd] at k0 k1 k2
      simp only [turnBeam, k0, k1, Bool.false_eq_true, if_false, e1 _ hi, e1 _ hj]
    | true =>
      rw [hdd] at k0 k1 k2
      simp only [turnBeam, k0, k2, if_true, e1 _ hi, e1 _ hj, turnFiber_turn]
  refine (List.perm_ext_iff_of_nodup hnd' ?_).2 ?_
  · refine List.Nodup.map_on ?_ hnd
    intro x hx y hy e
    rw [← hround2 x hx, ← hround2 y hy, e]
  · intro b
    constructor
    · intro hbm
      exact List.mem_map.2 ⟨_, hmem' b hbm, hround b hbm⟩
    · intro hbm
      obtain ⟨c, hc, rfl⟩ := List.mem_map.1 hbm
      exact hmem c hc

end Fibermat
