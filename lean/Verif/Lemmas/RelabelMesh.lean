import Verif.Lemmas.RelabelNet
import Verif.Lemmas.DirectionAssembly

/-! Stacks, meshes and systems when fibers are numbered otherwise. -/

set_option linter.unusedSectionVars false
set_option linter.unusedSimpArgs false

namespace Fibermat
variable {K : Type} [Field K] [LinearOrder K] [IsStrictOrderedRing K]
open Spec

/-- Positions of the elements of a rearranged list. -/
theorem perm_positions {α β : Type} {f : α → β} {l : List α} {l' : List β} (h : l'.Perm (l.map f)) :
    ∃ π : ℕ → ℕ, (∀ k, k < l.length → π k < l.length) ∧ (∀ j k, j < l.length → k < l.length → π j = π k → j = k) ∧
      ∀ k, k < l.length → l'[π k]? = (l[k]?).map f := by
  have key : ∀ {l1 l2 : List β}, l1.Perm l2 → ∃ π : ℕ → ℕ, (∀ k, k < l2.length → π k < l2.length) ∧
      (∀ j k, j < l2.length → k < l2.length → π j = π k → j = k) ∧ ∀ k, k < l2.length → l1[π k]? = l2[k]? := by
    intro l1 l2 h
    induction h with
    | nil => exact ⟨id, by simp, by simp, by simp⟩
    | @cons x l1 l2 h ih =>
      obtain ⟨π, h1, h2, h3⟩ := ih
      refine ⟨fun k => match k with | 0 => 0 | k + 1 => π k + 1, ?_, ?_, ?_⟩
      · intro k hk
        cases k with
        | zero => simp
        | succ k =>
          simp only [List.length_cons] at hk ⊢
          have := h1 k (by omega)
          omega
      · intro j k hj hk e
        simp only [List.length_cons] at hj hk
        cases j <;> cases k <;> simp only [Nat.add_right_cancel_iff] at e
        · rfl
        · omega
        · omega
        · rw [h2 _ _ (by omega) (by omega) e]
      · intro k hk
        cases k with
        | zero => rfl
        | succ k =>
          simp only [List.length_cons] at hk
          simp only [List.getElem?_cons_succ]
          exact h3 k (by omega)
    | swap x y l =>
      refine ⟨fun k => match k with | 0 => 1 | 1 => 0 | k + 2 => k + 2, ?_, ?_, ?_⟩
      · intro k hk
        rcases k with _ | _ | k <;> simp_all
      · intro j k hj hk e
        rcases j with _ | _ | j <;> rcases k with _ | _ | k <;> simp_all
      · intro k hk
        rcases k with _ | _ | k <;> simp
    | @trans l1 l2 l3 h12 h23 ih1 ih2 =>
      obtain ⟨π, h1, h2, h3⟩ := ih1
      obtain ⟨ρ, g1, g2, g3⟩ := ih2
      rw [h23.length_eq] at h1 h2 h3
      refine ⟨fun k => π (ρ k), fun k hk => h1 _ (g1 k hk), fun j k hj hk e => g2 j k hj hk (h2 _ _ (g1 j hj) (g1 k hk) e), ?_⟩
      intro k hk
      rw [h3 _ (g1 k hk), g3 k hk]
  obtain ⟨π, h1, h2, h3⟩ := key h
  rw [List.length_map] at h1 h2 h3
  exact ⟨π, h1, h2, fun k hk => by rw [h3 k hk, List.getElem?_map]⟩

variable {φ : ℕ → ℕ} {m m' : Mat K}

/-! ### Stacks -/

theorem relabel_thick (h : RelabelledMat φ m m') {i : ℕ} (hi : i < m.fibers.length) : thick m' (φ i) = thick m i := by
  unfold thick
  rw [h.fiber i hi]

theorem over_lt {rows : List (NetRow K)} (ho : OverMat m rows) {r : NetRow K} (hr : r ∈ rows) :
    r.A.toNat < m.fibers.length ∧ r.B.toNat < m.fibers.length ∧ (r.A.toNat : ℤ) = r.A ∧ (r.B.toNat : ℤ) = r.B := by
  have := ho r hr
  omega

theorem noOverlap_relabel (h : RelabelledMat φ m m') {net net' : Net K} (hn : RelabelledNet φ net net') (ho : OverMat m net.rows)
    (hk : KeepsOrder φ net.rows) {y y' : ℕ → K} (hy : ∀ i, i < m.fibers.length → y' (φ i) = y i) :
    NoOverlap m' net'.rows y' ↔ NoOverlap m net.rows y := by
  obtain ⟨τ, t1, t2, -⟩ := inverse_of_inj (fun i hi => h.lt hi) h.inj
  constructor
  · intro g
    refine ⟨fun i hi => ?_, fun r hr hlt => ?_⟩
    · have := g.floor (φ i) (by rw [h.count]; exact h.lt hi)
      rwa [relabel_thick h hi, hy i hi] at this
    · obtain ⟨a1, b1, -⟩ := over_lt ho hr
      have hko := hk r hr hlt
      have := g.gap (relabelRow φ r) (hn.rows.mem_iff.2 (List.mem_map_of_mem hr)) (by simp only [relabelRow]; omega)
      simpa only [relabelRow, Int.toNat_natCast, relabel_thick h a1, relabel_thick h b1, hy _ a1, hy _ b1] using this
  · intro g
    refine ⟨fun j hj => ?_, fun r' hr hlt => ?_⟩
    · rw [h.count] at hj
      have := g.floor (τ j) (t1 j hj)
      rw [← relabel_thick h (t1 j hj), ← hy _ (t1 j hj), t2 j hj] at this
      exact this
    · obtain ⟨r, hr0, rfl⟩ := List.mem_map.1 (hn.rows.mem_iff.1 hr)
      obtain ⟨a1, b1, a2, b2⟩ := over_lt ho hr0
      have hle := ho r hr0
      have hlt0 : r.A < r.B := by
        by_contra hcon
        have e : r.A = r.B := by omega
        simp only [relabelRow, e] at hlt
        omega
      simp only [relabelRow, Int.toNat_natCast, relabel_thick h a1, relabel_thick h b1, hy _ a1, hy _ b1]
      exact g.gap r hr0 hlt0

theorem lowest_relabel (h : RelabelledMat φ m m') {net net' : Net K} (hn : RelabelledNet φ net net') (ho : OverMat m net.rows)
    (hk : KeepsOrder φ net.rows) {z z' : ℕ → K} (hz : Lowest m net.rows z) (hz' : Lowest m' net'.rows z') :
    ∀ i, i < m.fibers.length → z' (φ i) = z i := by
  obtain ⟨τ, t1, t2, t3⟩ := inverse_of_inj (fun i hi => h.lt hi) h.inj
  intro i hi
  apply le_antisymm
  · have := hz'.2 (fun j => z (τ j)) ((noOverlap_relabel h hn ho hk (y := z) (fun k hkk => by simp only [t3 k hkk])).2 hz.1) (φ i)
      (by rw [h.count]; exact h.lt hi)
    simpa only [t3 i hi] using this
  · exact hz.2 (fun j => z' (φ j)) ((noOverlap_relabel h hn ho hk (fun _ _ => rfl)).1 hz'.1) i hi

theorem RelabelledNet.keep (threshold : Option K) {net net' : Net K} (hn : RelabelledNet φ net net') (h : RelabelledMat φ m m')
    (ho : OverMat m net.rows) : RelabelledNet φ (keep threshold net) (keep threshold net') := by
  cases threshold with
  | none => exact hn
  | some t =>
    refine ⟨hn.attrs, ?_⟩
    show (thresholdRows t net'.rows).Perm ((thresholdRows t net.rows).map (relabelRow φ))
    unfold thresholdRows
    refine (hn.rows.filter _).trans (List.Perm.of_eq ?_)
    rw [List.filter_map]
    congr 1
    refine List.filter_congr ?_
    intro r hr
    obtain ⟨a1, b1, a2, b2⟩ := over_lt ho hr
    have : ((φ r.A.toNat : ℤ) = (φ r.B.toNat : ℤ)) ↔ r.A = r.B := by
      constructor
      · intro e
        have := h.inj _ _ a1 b1 (by omega)
        omega
      · intro e; rw [e]
    refine decide_eq_decide.2 ?_
    show (|r.zB - r.zA| ≤ t ∨ (φ r.A.toNat : ℤ) = (φ r.B.toNat : ℤ)) ↔ _
    rw [this]

theorem KeepsOrder.keep {threshold : Option K} {net : Net K} (hk : KeepsOrder φ net.rows) : KeepsOrder φ (keep threshold net).rows := by
  cases threshold with
  | none => exact hk
  | some t => exact fun r hr => hk r (List.mem_filter.1 hr).1

/-- The stack with other numbers. -/
theorem relabelled_stack {lp lp' : Linprog K} (hlp : GoodLinprog lp) (hlp' : GoodLinprog lp') (h : RelabelledMat φ m m') (hm : GoodMat m)
    (hw : ∀ f ∈ m.fibers, f.w = 0) {periodic : Bool} {net net' : Net K} (hn : netNew m periodic = .ok net)
    (hn' : netNew m' periodic = .ok net') (hr : RelabelledNet φ net net')
    (hk : KeepsOrder φ net.rows) {threshold : Option K} {m1 : Mat K} {st : Net K} (hst : stackNew lp m net threshold = .ok (m1, st)) :
    ∃ m1' st', stackNew lp' m' net' threshold = .ok (m1', st') ∧ RelabelledMat φ m1 m1' ∧ RelabelledNet φ st st' ∧
      KeepsOrder φ st.rows ∧ OverMat m1 st.rows := by
  have hm' := h.good hm
  obtain ⟨hck, ho, hper⟩ := netNew_over hm hn
  obtain ⟨hck', ho', hper'⟩ := netNew_over hm' hn'
  obtain ⟨z, hz, hlow, hcase⟩ := stackNew_good hlp hm hck ho threshold
  obtain ⟨z', hz', hlow', hcase'⟩ := stackNew_good hlp' hm' hck' ho' threshold
  have hemp : m'.fibers = [] ↔ m.fibers = [] := by
    rw [← List.length_eq_zero_iff, h.count, List.length_eq_zero_iff]
  rcases hcase with ⟨he, -, e⟩ | ⟨hne, net1, g1, e⟩
  · rw [hst] at e
    cases e
    rcases hcase' with ⟨-, -, e'⟩ | ⟨hne', -⟩
    · exact ⟨m', net', e', h, hr, hk, ho⟩
    · exact absurd (hemp.2 he) hne'
  · rcases hcase' with ⟨he', -⟩ | ⟨-, net1', g1', e'⟩
    · exact absurd (hemp.1 he') hne
    · rw [hst] at e
      cases e
      have hzz := lowest_relabel h hr ho hk hlow hlow'
      have hset : RelabelledMat φ (m.setZ z) (m'.setZ z') := by
        refine ⟨h.attrs, ?_, ?_, ?_⟩
        · rw [setZ_length hz', setZ_length hz, h.count]
        · rw [setZ_length hz]; exact h.inj
        · rw [setZ_length hz]
          intro i hi
          have hf : m.fibers[i]? = some m.fibers[i] := List.getElem?_eq_getElem hi
          rw [setZ_get hz hf, setZ_get hz' (h.get hf), hzz i hi]
      rw [hper'] at g1'
      rw [hper] at g1
      have g1 : netNew (m.setZ z) periodic = .ok net1 := g1
      have hgood1 := setZ_good hm hz
      have hk1 : KeepsOrder φ net1.rows := by
        obtain ⟨-, hrows⟩ := C12_heights_irrelevant hm hgood1 hw (setZ_same hz) hn g1
        intro r hr1 hlt
        have : (r.A, r.B, r.sA, r.sB, r.xA, r.yA, r.xB, r.yB) ∈ net.rows.map (fun r => (r.A, r.B, r.sA, r.sB, r.xA, r.yA, r.xB, r.yB)) := by
          rw [hrows]; exact List.mem_map.2 ⟨r, hr1, rfl⟩
        obtain ⟨r0, h0, e0⟩ := List.mem_map.1 this
        simp only [Prod.mk.injEq] at e0
        rw [← e0.1, ← e0.2.1] at hlt ⊢
        exact hk r0 h0 hlt
      obtain ⟨net2, g2, hr2⟩ := relabelled_net hset hgood1 g1 hk1
      have : net2 = net1' := Except.ok.inj (g2.symm.trans g1')
      subst this
      have hov := C06_labels hgood1 g1
      refine ⟨_, _, e', hset, RelabelledNet.keep threshold hr2 hset hov, KeepsOrder.keep hk1, ?_⟩
      intro r hr
      cases threshold with
      | none => exact hov r hr
      | some t => exact hov r (List.mem_filter.1 hr).1

/-! ### Meshes -/

/-- The mesh with other numbers has the same nodes. -/
theorem relabelled_mesh (h : RelabelledMat φ m m') {net net' : Net K} (hn : RelabelledNet φ net net') (ho : OverMat m net.rows)
    {mesh mesh' : Mesh K} (hm : meshInit net = .ok mesh) (hm' : meshInit net' = .ok mesh') :
    ∃ σ, RelabelledMesh φ mesh.rows mesh'.rows σ := by
  obtain ⟨place, hp⟩ := C26_constraints hm
  obtain ⟨place', hp'⟩ := C26_constraints hm'
  obtain ⟨π, hπ, hπi, hπr⟩ := perm_positions hn.rows
  have hlen : net'.rows.length = net.rows.length := by simpa using hn.rows.length_eq
  have hcount : mesh'.rows.length = mesh.rows.length := by rw [hp'.count, hp.count, hlen]
  let τ : ℕ → ℕ := fun q => 2 * π (q / 2) + q % 2
  have hτ : ∀ q, q < 2 * net.rows.length → τ q < 2 * net.rows.length := by
    intro q hq
    have := hπ (q / 2) (by omega)
    simp only [τ]
    omega
  have hτi : ∀ p q, p < 2 * net.rows.length → q < 2 * net.rows.length → τ p = τ q → p = q := by
    intro p q hp hq h
    simp only [τ] at h
    have := hπi (p / 2) (q / 2) (by omega) (by omega) (by omega)
    omega
  have hsurj : ∀ i, i < mesh.rows.length → ∃ q, q < 2 * net.rows.length ∧ place q = i := fun i hi => placement_surj hp hi
  classical
  let inv : ℕ → ℕ := fun i => if h : i < mesh.rows.length then Classical.choose (hsurj i h) else 0
  have hinv : ∀ i, i < mesh.rows.length → inv i < 2 * net.rows.length ∧ place (inv i) = i := by
    intro i h
    simp only [inv, dif_pos h]
    exact Classical.choose_spec (hsurj i h)
  have hinv2 : ∀ q, q < 2 * net.rows.length → inv (place q) = q := by
    intro q hq
    obtain ⟨h1, h2⟩ := hinv (place q) (hp.inRange q hq)
    exact hp.inj _ _ h1 hq h2
  refine ⟨fun i => place' (τ (inv i)), hcount, ?_, ?_, ?_⟩
  · intro i hi
    rw [← hcount]
    exact hp'.inRange _ (by rw [hlen]; exact hτ _ (hinv i hi).1)
  · intro i j hi hj h
    have h1 := hp'.inj _ _ (by rw [hlen]; exact hτ _ (hinv i hi).1) (by rw [hlen]; exact hτ _ (hinv j hj).1) h
    have h2 := hτi _ _ (hinv i hi).1 (hinv j hj).1 h1
    rw [← (hinv i hi).2, ← (hinv j hj).2, h2]
  · intro i r hr
    obtain ⟨k, row, hk, hcase⟩ := placement_cases hp hr
    have hlt : k < net.rows.length := (List.getElem?_eq_some_iff.1 hk).1
    have hk' : net'.rows[π k]? = some (relabelRow φ row) := by rw [hπr k hlt, hk]; rfl
    have i0 := hinv2 (2 * k) (by omega)
    have i1 := hinv2 (2 * k + 1) (by omega)
    have t0 : τ (2 * k) = 2 * π k := by
      simp only [τ]
      rw [show 2 * k / 2 = k by omega, show 2 * k % 2 = 0 by omega, Nat.add_zero]
    have t1 : τ (2 * k + 1) = 2 * π k + 1 := by
      simp only [τ]
      rw [show (2 * k + 1) / 2 = k by omega, show (2 * k + 1) % 2 = 1 by omega]
    obtain ⟨a', ha', eA, cA⟩ := hp'.endA (π k) _ hk'
    obtain ⟨b', hb', eB, cB⟩ := hp'.endB (π k) _ hk'
    obtain ⟨x1, x2, x3, x4⟩ := over_lt ho (List.mem_of_getElem? hk)
    have hAB : ((relabelRow φ row).A = (relabelRow φ row).B) ↔ row.A = row.B := by
      simp only [relabelRow]
      constructor
      · intro e
        have := h.inj _ _ x1 x2 (by omega)
        omega
      · intro e; rw [e]
    rcases hcase with ⟨rfl, e1, c1⟩ | ⟨rfl, e1, c1⟩
    · refine ⟨a', ?_, ?_, ?_, ?_, ?_, ?_, ?_⟩
      · simp only [i0, t0]; exact ha'
      · rw [eA.fiber, e1.fiber]; rfl
      · rw [eA.s, e1.s]; rfl
      · rw [eA.x, e1.x]; rfl
      · rw [eA.y, e1.y]; rfl
      · rw [eA.z, e1.z]; rfl
      · rw [cA, c1]
        by_cases hc : row.A = row.B
        · rw [if_pos hc, if_pos (hAB.2 hc)]; simp only [Int.toNat_natCast, i0, t0]
        · rw [if_neg hc, if_neg (fun e => hc (hAB.1 e))]; simp only [Int.toNat_natCast, i1, t1]
    · refine ⟨b', ?_, ?_, ?_, ?_, ?_, ?_, ?_⟩
      · simp only [i1, t1]; exact hb'
      · rw [eB.fiber, e1.fiber]; rfl
      · rw [eB.s, e1.s]; rfl
      · rw [eB.x, e1.x]; rfl
      · rw [eB.y, e1.y]; rfl
      · rw [eB.z, e1.z]; rfl
      · rw [cB, c1]
        by_cases hc : row.A = row.B
        · rw [if_pos hc, if_pos (hAB.2 hc)]; simp only [Int.toNat_natCast, i1, t1]
        · rw [if_neg hc, if_neg (fun e => hc (hAB.1 e))]; simp only [Int.toNat_natCast, i0, t0]

variable {rows rows' : List (MeshRow K)} {σ : ℕ → ℕ}

/-- The inverse renumbering of a mat. -/
theorem Spec.RelabelledMat.symm (h : RelabelledMat φ m m') :
    ∃ ψ, RelabelledMat ψ m' m ∧ (∀ i, i < m.fibers.length → ψ (φ i) = i) ∧ ∀ i, i < m.fibers.length → φ (ψ i) = i := by
  obtain ⟨ψ, h1, h2, h3⟩ := inverse_of_inj (fun i hi => h.lt hi) h.inj
  refine ⟨ψ, ⟨h.attrs.symm, h.count.symm, ?_, ?_⟩, h3, h2⟩
  · rw [h.count]
    intro i j hi hj e
    rw [← h2 i hi, ← h2 j hj, e]
  · rw [h.count]
    intro i hi
    rw [← h.fiber _ (h1 i hi), h2 i hi]

/-- The inverse renumbering of a mesh. -/
theorem Spec.RelabelledMesh.symm (h : RelabelledMesh φ rows rows' σ) (hc : ConstraintsReciprocal rows) {ψ : ℕ → ℕ}
    (hψ : ∀ r ∈ rows, ((ψ (φ r.fiber.toNat) : ℕ) : ℤ) = r.fiber) :
    ∃ τ, RelabelledMesh ψ rows' rows τ ∧ (∀ i, i < rows.length → τ (σ i) = i) ∧ ∀ i, i < rows.length → σ (τ i) = i := by
  obtain ⟨τ, h1, h2, h3⟩ := inverse_of_inj h.lt h.inj
  refine ⟨τ, ⟨h.count.symm, fun i hi => ?_, fun i j hi hj e => ?_, ?_⟩, h3, h2⟩
  · rw [h.count] at hi ⊢; exact h1 i hi
  · rw [h.count] at hi hj
    rw [← h2 i hi, ← h2 j hj, e]
  · intro k r' hr'
    have hk : k < rows.length := by rw [← h.count]; exact (List.getElem?_eq_some_iff.1 hr').1
    have hr : rows[τ k]? = some (rows[τ k]'(h1 k hk)) := List.getElem?_eq_getElem (h1 k hk)
    obtain ⟨q, hq, e1, e2, e3, e4, e5, e6⟩ := h.node (τ k) _ hr
    rw [h2 k hk, hr'] at hq
    cases hq
    refine ⟨_, hr, ?_, e2.symm, e3.symm, e4.symm, e5.symm, ?_⟩
    · rw [e1, Int.toNat_natCast, hψ _ (List.mem_of_getElem? hr)]
    · obtain ⟨j, p, hj, hp, -⟩ := hc _ _ hr
      have hjl : j < rows.length := (List.getElem?_eq_some_iff.1 hp).1
      rw [e6, hj, Int.toNat_natCast, Int.toNat_natCast, h3 j hjl]

/-- Nodes of one fiber stay on one fiber. -/
theorem Spec.RelabelledMesh.distinct (h : RelabelledMesh φ rows rows' σ) (hφ : ∀ r ∈ rows, ∀ p ∈ rows, φ r.fiber.toNat = φ p.fiber.toNat → r.fiber = p.fiber)
    (hd : DistinctNodes rows) : DistinctNodes rows' := by
  obtain ⟨τ, h1, h2, h3⟩ := inverse_of_inj h.lt h.inj
  intro i j r p hr hp hf hs
  have hi : i < rows.length := by rw [← h.count]; exact (List.getElem?_eq_some_iff.1 hr).1
  have hj : j < rows.length := by rw [← h.count]; exact (List.getElem?_eq_some_iff.1 hp).1
  have gi : rows[τ i]? = some (rows[τ i]'(h1 i hi)) := List.getElem?_eq_getElem (h1 i hi)
  have gj : rows[τ j]? = some (rows[τ j]'(h1 j hj)) := List.getElem?_eq_getElem (h1 j hj)
  obtain ⟨r', hr', a1, a2, -⟩ := h.node (τ i) _ gi
  obtain ⟨p', hp', b1, b2, -⟩ := h.node (τ j) _ gj
  rw [h2 i hi, hr] at hr'; cases hr'
  rw [h2 j hj, hp] at hp'; cases hp'
  have e := hd (τ i) (τ j) _ _ gi gj (hφ _ (List.mem_of_getElem? gi) _ (List.mem_of_getElem? gj) (by omega)) (by rw [← a2, ← b2, hs])
  rw [← h2 i hi, ← h2 j hj, e]

/-- Order of the nodes of a fiber. -/
theorem Spec.RelabelledMesh.order (h : RelabelledMesh φ rows rows' σ) (hs : NodesSorted rows) (hs' : NodesSorted rows') (hd : DistinctNodes rows)
    {i j : ℕ} {r p : MeshRow K} (hr : rows[i]? = some r) (hp : rows[j]? = some p) (hf : p.fiber = r.fiber) (hij : i < j) : σ i < σ j := by
  have hle := sorted_le hs hr hp hf.symm hij.le
  have hne : r.s ≠ p.s := fun e => by
    have := hd i j r p hr hp hf.symm e
    omega
  obtain ⟨r', hr', a1, a2, -⟩ := h.node i r hr
  obtain ⟨p', hp', b1, b2, -⟩ := h.node j p hp
  rw [hf] at b1
  refine sorted_lt hs' hr' hp' (by rw [a1, b1]) ?_
  rw [a2, b2]; exact lt_of_le_of_ne hle hne

/-- Neighbours remain neighbours. -/
theorem Spec.RelabelledMesh.next (h : RelabelledMesh φ rows rows' σ) (hφ : ∀ r ∈ rows, ∀ p ∈ rows, φ r.fiber.toNat = φ p.fiber.toNat → r.fiber = p.fiber)
    (hs : NodesSorted rows) (hs' : NodesSorted rows') (hd : DistinctNodes rows)
    {i : ℕ} {r p : MeshRow K} (hr : rows[i]? = some r) (hp : rows[i + 1]? = some p) (hf : p.fiber = r.fiber) : σ (i + 1) = σ i + 1 := by
  obtain ⟨τ, t1, t2, t3⟩ := inverse_of_inj h.lt h.inj
  have hi : i < rows.length := (List.getElem?_eq_some_iff.1 hr).1
  have hj : i + 1 < rows.length := (List.getElem?_eq_some_iff.1 hp).1
  obtain ⟨r', hr', a1, -⟩ := h.node i r hr
  obtain ⟨p', hp', b1, -⟩ := h.node (i + 1) p hp
  rw [hf] at b1
  have h0 := h.order hs hs' hd hr hp hf (by omega)
  by_contra hne
  have l2 := h.lt (i + 1) hj
  have hk : σ i + 1 < rows.length := by omega
  have hm : rows[τ (σ i + 1)]? = some (rows[τ (σ i + 1)]'(t1 _ hk)) := List.getElem?_eq_getElem (t1 _ hk)
  obtain ⟨q', hq', c1, -⟩ := h.node _ _ hm
  rw [t2 _ hk] at hq'
  have x1 := sorted_fiber hs' hr' hq' (by omega)
  have x2 := sorted_fiber hs' hq' hp' (by omega)
  have hqf : (rows[τ (σ i + 1)]'(t1 _ hk)).fiber = r.fiber := hφ _ (List.mem_of_getElem? hm) _ (List.mem_of_getElem? hr) (by omega)
  have m1 : τ (σ i + 1) ≠ i := fun e => by
    have := t2 _ hk
    rw [e] at this; omega
  have m2 : τ (σ i + 1) ≠ i + 1 := fun e => by
    have := t2 _ hk
    rw [e] at this; omega
  rcases Nat.lt_or_ge (τ (σ i + 1)) i with hlt | hge
  · have := h.order hs hs' hd hm hr hqf.symm hlt
    rw [t2 _ hk] at this
    omega
  · have := h.order hs hs' hd hp hm (by rw [hqf, hf]) (by omega)
    rw [t2 _ hk] at this
    omega

/-- A beam with other numbers. -/
def relabelBeam (σ : ℕ → ℕ) (b : Beam K) : Beam K := ⟨σ b.i, σ b.j, b.l, b.fiber⟩

/-- Fibers of a mesh of a renumbered mat. -/
theorem Spec.RelabelledMat.fibers_inj (hm : RelabelledMat φ m m') (ho : OverFibers m rows) :
    ∀ r ∈ rows, ∀ p ∈ rows, φ r.fiber.toNat = φ p.fiber.toNat → r.fiber = p.fiber := by
  intro r hr p hp e
  have h1 := ho r hr
  have h2 := ho p hp
  have := hm.inj _ _ (by omega) (by omega) e
  omega

/-- The image of a beam is a beam. -/
theorem Spec.RelabelledMesh.beam (h : RelabelledMesh φ rows rows' σ) (hmm : RelabelledMat φ m m') (hof : OverFibers m rows)
    (hs : NodesSorted rows) (hs' : NodesSorted rows') (hd : DistinctNodes rows)
    (hb : BeamsCyclic rows) (hb' : BeamsCyclic rows') {b : Beam K} (hbm : IsBeamOf m rows b) :
    IsBeamOf m' rows' (relabelBeam σ b) := by
  obtain ⟨r, p, h1, h2, h3, h4, h5, h6⟩ := hbm.rows
  obtain ⟨hj, p0, hp0, hf⟩ := turned_beam_next hb h1 h3 hbm.lt
  rw [h2] at hp0; cases hp0
  rw [hj] at h2
  have hnext := h.next (hmm.fibers_inj hof) hs hs' hd h1 h2 hf
  obtain ⟨r', hr', a1, a2, -⟩ := h.node _ r h1
  obtain ⟨p', hp', b1, b2, -⟩ := h.node _ p h2
  rw [hf] at b1
  unfold relabelBeam
  rw [hj, hnext]
  rw [hnext] at hp'
  refine ⟨by simp, r', p', hr', hp', next_beam hb' hr' hp' (by rw [a1, b1]), ?_, by rw [a1]; omega, ?_⟩
  · rw [h4, a2, b2]
  · rw [a1, Int.toNat_natCast]; exact hmm.get h6

/-- The mesh with other numbers is over the mat with other numbers. -/
theorem Spec.RelabelledMesh.over (h : RelabelledMesh φ rows rows' σ) (hmm : RelabelledMat φ m m') (hof : OverFibers m rows) :
    OverFibers m' rows' := by
  obtain ⟨τ, t1, t2, -⟩ := inverse_of_inj h.lt h.inj
  intro r' hr'
  obtain ⟨k, hk⟩ := List.mem_iff_getElem?.1 hr'
  have hkl : k < rows.length := by rw [← h.count]; exact (List.getElem?_eq_some_iff.1 hk).1
  have hr : rows[τ k]? = some (rows[τ k]'(t1 k hkl)) := List.getElem?_eq_getElem (t1 k hkl)
  obtain ⟨q, hq, e1, -⟩ := h.node _ _ hr
  rw [t2 k hkl, hk] at hq; cases hq
  have := hof _ (List.mem_of_getElem? hr)
  have := hmm.lt (i := (rows[τ k]'(t1 k hkl)).fiber.toNat) (by omega)
  rw [e1, hmm.count]
  omega

/-- The inverse renumbering of mat and mesh. -/
theorem relabelled_inverse (h : RelabelledMesh φ rows rows' σ) (hmm : RelabelledMat φ m m') (hof : OverFibers m rows)
    (hc : ConstraintsReciprocal rows) :
    ∃ ψ τ, RelabelledMat ψ m' m ∧ RelabelledMesh ψ rows' rows τ ∧ (∀ i, i < rows.length → τ (σ i) = i) ∧
      (∀ i, i < rows.length → σ (τ i) = i) ∧ ∀ i, i < m.fibers.length → ψ (φ i) = i := by
  obtain ⟨ψ, p1, p2, p3⟩ := hmm.symm
  obtain ⟨τ, hτ, e1, e2⟩ := h.symm hc (ψ := ψ) (by
    intro r hr
    have := hof r hr
    rw [p2 _ (by omega)]; omega)
  exact ⟨ψ, τ, p1, hτ, e1, e2, p2⟩

/-- The beams of the mesh with other numbers. -/
theorem Spec.RelabelledMesh.beams (h : RelabelledMesh φ rows rows' σ) (hmm : RelabelledMat φ m m') (hof : OverFibers m rows)
    (hc : ConstraintsReciprocal rows) (hs : NodesSorted rows)
    (hs' : NodesSorted rows') (hd : DistinctNodes rows) (hb : BeamsCyclic rows) (hb' : BeamsCyclic rows')
    {bs bs' : List (Beam K)} (hbs : beams m rows = .ok bs) (hbs' : beams m' rows' = .ok bs') :
    bs'.Perm (bs.map (relabelBeam σ)) := by
  obtain ⟨s1, s2, s3⟩ := beams_spec hbs
  obtain ⟨t1, t2, t3⟩ := beams_spec hbs'
  obtain ⟨ψ, τ, hψ, hτ, e1, e2, -⟩ := relabelled_inverse h hmm hof hc
  have hmem : ∀ b ∈ bs, relabelBeam σ b ∈ bs' := by
    intro b hbm
    have hB := h.beam hmm hof hs hs' hd hb hb' (s1 b hbm)
    obtain ⟨r, p, g1, g2, g3, -⟩ := hB.rows
    have hlt := hB.lt
    obtain ⟨c, hc, hce⟩ := t2 (relabelBeam σ b).i ⟨r, g1, by omega⟩
    rw [isBeam_unique hB (t1 c hc) hce.symm]
    exact hc
  have hmem' : ∀ b ∈ bs', relabelBeam τ b ∈ bs := by
    intro b hbm
    have hB := Spec.RelabelledMesh.beam hτ hψ (h.over hmm hof) hs' hs (h.distinct (hmm.fibers_inj hof) hd) hb' hb (t1 b hbm)
    obtain ⟨r, p, g1, g2, g3, -⟩ := hB.rows
    have hlt := hB.lt
    obtain ⟨c, hc, hce⟩ := s2 (relabelBeam τ b).i ⟨r, g1, by omega⟩
    rw [isBeam_unique hB (s1 c hc) hce.symm]
    exact hc
  have hround : ∀ b ∈ bs', relabelBeam σ (relabelBeam τ b) = b := by
    intro b hbm
    obtain ⟨r, p, g1, g2, g3, -, -, -⟩ := (t1 b hbm).rows
    have hi : b.i < rows.length := by rw [← h.count]; exact (List.getElem?_eq_some_iff.1 g1).1
    have hj : b.j < rows.length := by rw [← h.count]; exact (List.getElem?_eq_some_iff.1 g2).1
    simp only [relabelBeam, e2 _ hi, e2 _ hj]
  have hround2 : ∀ b ∈ bs, relabelBeam τ (relabelBeam σ b) = b := by
    intro b hbm
    obtain ⟨r, p, g1, g2, g3, -, -, -⟩ := (s1 b hbm).rows
    have hi : b.i < rows.length := (List.getElem?_eq_some_iff.1 g1).1
    have hj : b.j < rows.length := (List.getElem?_eq_some_iff.1 g2).1
    simp only [relabelBeam, e1 _ hi, e1 _ hj]
  have hnd : bs.Nodup := List.Nodup.of_map _ s3
  have hnd' : bs'.Nodup := List.Nodup.of_map _ t3
  refine (List.perm_ext_iff_of_nodup hnd' ?_).2 ?_
  · refine List.Nodup.map_on ?_ hnd
    intro x hx y hy e
    rw [← hround2 x hx, ← hround2 y hy, e]
  · intro b
    constructor
    · intro hbm
      exact List.mem_map.2 ⟨_, hmem' b hbm, hround b hbm⟩
    · intro hbm
      obtain ⟨c, hc, rfl⟩ := List.mem_map.1 hbm
      exact hmem c hc

/-- The entries of the stiffness matrix of the mesh with other numbers. -/
theorem Spec.RelabelledMesh.stiffness {mesh mesh' : Mesh K} (h : RelabelledMesh φ mesh.rows mesh'.rows σ) (hmm : RelabelledMat φ m m')
    (hof : OverFibers m mesh.rows) (hc : ConstraintsReciprocal mesh.rows)
    (hs : NodesSorted mesh.rows) (hs' : NodesSorted mesh'.rows) (hd : DistinctNodes mesh.rows) (hb : BeamsCyclic mesh.rows)
    (hb' : BeamsCyclic mesh'.rows) {lmin lmax : Option K} {c : K} {Km Km' : Coo (Cell K)}
    (hK : Fibermat.stiffness m mesh lmin lmax c = .ok Km) (hK' : Fibermat.stiffness m' mesh' lmin lmax c = .ok Km') :
    (∀ r s, r < 2 * mesh.rows.length → s < 2 * mesh.rows.length → Km'.get (turnPos σ r) (turnPos σ s) = Km.get r s) ∧
    ∃ bl', Assembled m' mesh'.rows c Km' bl' ∧ (PositiveLengths mesh.rows lmin lmax → ∀ p ∈ bl', 0 < p.2) := by
  obtain ⟨-, -, bs, ls, hbs, hr, rfl⟩ := stiffness_eq hK
  obtain ⟨-, -, bs', ls', hbs', hr', rfl⟩ := stiffness_eq hK'
  have hperm := h.beams hmm hof hc hs hs' hd hb hb' hbs hbs'
  obtain ⟨F, e1, e2⟩ := turned_lengths (ψ := relabelBeam σ) (fun b => rfl) hperm hr hr'
  refine ⟨?_, bs'.zip ls', assembled_zip hbs' hr', ?_⟩
  · intro r s hr hs
    have hg : ∀ (n : ℕ) (bl : List (Beam K × K)) (r s : ℕ),
        Coo.get ⟨n, n, bl.flatMap (fun p => beamEntries p.1.i p.1.j (coeffs p.1.fiber p.2 c))⟩ r s =
          (bl.map (fun p => Fibermat.beamVal p.1.i p.1.j (coeffs p.1.fiber p.2 c) r s)).sum := by
      intro n bl r s
      rw [cell_get_sum]
      induction bl with
      | nil => rfl
      | cons p t ih =>
        simp only [List.flatMap_cons, List.map_append, List.sum_append, List.map_cons, List.sum_cons, ih]
        rfl
    rw [hg, hg, e1, ((e2.map _).sum_eq), List.map_map, List.map_map]
    congr 1
    refine List.map_congr_left ?_
    intro b hbm
    obtain ⟨p, q, h1, h2, -⟩ := ((beams_spec hbs).1 b hbm).rows
    have hi : b.i < mesh.rows.length := (List.getElem?_eq_some_iff.1 h1).1
    have hj : b.j < mesh.rows.length := (List.getElem?_eq_some_iff.1 h2).1
    have inj : ∀ x y, x < mesh.rows.length → y < mesh.rows.length → (σ x = σ y ↔ x = y) :=
      fun x y hx hy => ⟨h.inj x y hx hy, fun e => by rw [e]⟩
    have ha : r / 2 < mesh.rows.length := by omega
    have hc : s / 2 < mesh.rows.length := by omega
    simp only [Function.comp, relabelBeam, turnPos]
    rw [beamVal_same _ (by omega) (by omega) (inj _ _ hi ha) (inj _ _ hj ha) (inj _ _ hi hc) (inj _ _ hj hc),
      show 2 * (r / 2) + r % 2 = r by omega, show 2 * (s / 2) + s % 2 = s by omega]
  · intro hpos p hp
    obtain ⟨b, hbm, rfl⟩ := List.mem_map.1 (e2.mem_iff.1 hp)
    have : (b, F b.l) ∈ bs.zip ls := by rw [e1]; exact List.mem_map.2 ⟨b, hbm, rfl⟩
    exact rescale_pos hpos hbs hr _ (List.of_mem_zip this).2

/-! ### Contacts -/

theorem placement_keeps {net : List (NetRow K)} {place : ℕ → ℕ} (hp : Placement net rows place) (hs : NodesSorted rows)
    (hle : ∀ r ∈ net, r.A ≤ r.B) (hk : KeepsOrder φ net) : KeepsOrderMesh φ rows := by
  intro i j r p hr hpj hc hij
  have hfib := sorted_fiber hs hr hpj hij.le
  obtain ⟨k, row, hkr, ⟨rfl, e1, c1⟩ | ⟨rfl, e1, c1⟩⟩ := placement_cases hp hr
  · by_cases hAB : row.A = row.B
    · rw [if_pos hAB] at c1; omega
    · rw [if_neg hAB] at c1
      obtain ⟨b, hb, eb, -⟩ := hp.endB k row hkr
      have : j = place (2 * k + 1) := by omega
      rw [← this, hpj] at hb; cases hb
      have hle := hle row (List.mem_of_getElem? hkr)
      rw [e1.fiber, eb.fiber]
      exact hk row (List.mem_of_getElem? hkr) (by omega)
  · by_cases hAB : row.A = row.B
    · rw [if_pos hAB] at c1; omega
    · rw [if_neg hAB] at c1
      obtain ⟨b, hb, eb, -⟩ := hp.endA k row hkr
      have : j = place (2 * k) := by omega
      rw [← this, hpj] at hb; cases hb
      have hle := hle row (List.mem_of_getElem? hkr)
      rw [e1.fiber, eb.fiber] at hfib
      exact absurd (le_antisymm hle hfib) hAB

theorem Spec.RelabelledMesh.height (h : RelabelledMesh φ rows rows' σ) (hmm : RelabelledMat φ m m') (hof : OverFibers m rows) {i : ℕ}
    (hi : i < rows.length) :
    nodeHeight rows' (σ i) = nodeHeight rows i ∧ nodeThick m' rows' (σ i) = nodeThick m rows i := by
  have hr : rows[i]? = some rows[i] := List.getElem?_eq_getElem hi
  obtain ⟨r', hr', e1, -, -, -, e5, -⟩ := h.node i _ hr
  have := hof _ (List.mem_of_getElem? hr)
  constructor
  · simp [nodeHeight, hr, hr', e5]
  · simp only [nodeThick, hr, hr', Option.bind_some, e1, Int.toNat_natCast]
    rw [hmm.fiber _ (by omega)]

theorem Spec.RelabelledMesh.contact (h : RelabelledMesh φ rows rows' σ) (hmm : RelabelledMat φ m m') (hof : OverFibers m rows)
    (hs' : NodesSorted rows') (hk : KeepsOrderMesh φ rows)
    {t t' : List K} (ht : nodeThickness m rows = .ok t) (ht' : nodeThickness m' rows' = .ok t') {x : Contact K}
    (hx : IsContact rows t x) : IsContact rows' t' (turnContact σ x) := by
  have hle := hx.le
  obtain ⟨i1, i2, -, -, h3, h4⟩ := contact_data ht hx
  obtain ⟨r, p, g1, g2, g3, g4, g5, -, -⟩ := hx.rows
  obtain ⟨r', hr', a1, -, -, -, a5, a6⟩ := h.node _ r g1
  obtain ⟨p', hp', b1, -, -, -, b5, -⟩ := h.node _ p g2
  refine ⟨?_, r', p', hr', hp', ?_, ?_, ?_, ?_, ?_⟩
  · show σ x.i ≤ σ x.j
    by_cases e : x.i = x.j
    · rw [e]
    · have hlt := hk _ _ r p g1 g2 g3 (by omega)
      by_contra hcon
      have := sorted_fiber hs' hp' hr' (by omega)
      omega
  · rw [a6, g3, Int.toNat_natCast]; rfl
  · show x.zi = _; rw [g4, a5]
  · show x.zj = _; rw [g5, b5]
  · show t'[σ x.i]? = some x.hi
    rw [nodeThick_eq ht' (by rw [h.count]; exact h.lt _ i1), (h.height hmm hof i1).2, h3]
  · show t'[σ x.j]? = some x.hj
    rw [nodeThick_eq ht' (by rw [h.count]; exact h.lt _ i2), (h.height hmm hof i2).2, h4]

/-- The contacts of the mesh with other numbers. -/
theorem Spec.RelabelledMesh.contacts (h : RelabelledMesh φ rows rows' σ) (hmm : RelabelledMat φ m m') (hof : OverFibers m rows)
    (hc : ConstraintsReciprocal rows) (hs : NodesSorted rows)
    (hs' : NodesSorted rows') (hk : KeepsOrderMesh φ rows) {cs cs' : ConstraintSys K} {t t' : List K}
    {l l' : List (Contact K)} (hl : Contacts m rows cs t l) (hl' : Contacts m' rows' cs' t' l') :
    l'.Perm (l.map (turnContact σ)) := by
  obtain ⟨ψ, τ, hψ, hτ, e1, e2, e3⟩ := relabelled_inverse h hmm hof hc
  have hk' : KeepsOrderMesh ψ rows' := by
    intro i j r' p' hr' hp' hcon hij
    have hi : i < rows.length := by rw [← h.count]; exact (List.getElem?_eq_some_iff.1 hr').1
    have hj : j < rows.length := by rw [← h.count]; exact (List.getElem?_eq_some_iff.1 hp').1
    obtain ⟨r, hr, a1, -, -, -, -, a6⟩ := hτ.node i r' hr'
    obtain ⟨p, hp, b1, -, -, -, -, b6⟩ := hτ.node j p' hp'
    rw [hcon, Int.toNat_natCast] at a6
    obtain ⟨r2, hr2, a1', -⟩ := h.node (τ i) r hr
    obtain ⟨p2, hp2, b1', -⟩ := h.node (τ j) p hp
    rw [e2 i hi, hr'] at hr2; cases hr2
    rw [e2 j hj, hp'] at hp2; cases hp2
    have hfib := sorted_fiber hs' hr' hp' hij.le
    rcases Nat.lt_trichotomy (τ i) (τ j) with hlt | heq | hgt
    · have h1 := hk _ _ r p hr hp a6 hlt
      have h2 := sorted_fiber hs hr hp hlt.le
      rw [a1, b1] at h1 h2
      have hne : ψ r'.fiber.toNat ≠ ψ p'.fiber.toNat := fun e => by
        rw [e] at h1; omega
      omega
    · have := congrArg σ heq
      rw [e2 i hi, e2 j hj] at this
      omega
    · exfalso
      obtain ⟨j0, q, hj0, hq, hback⟩ := hc _ _ hr
      have : j0 = τ j := by omega
      subst this
      rw [hp] at hq; cases hq
      have h1 := hk _ _ p r hp hr hback hgt
      omega
  have hmem : ∀ x ∈ l, turnContact σ x ∈ l' := by
    intro x hx
    have hX := h.contact hmm hof hs' hk hl.thick hl'.thick (hl.contact x hx)
    have hle := hX.le
    obtain ⟨r, p, g1, g2, g3, -⟩ := hX.rows
    obtain ⟨y, hy, he⟩ := hl'.all _ r g1 (by omega)
    rw [isContact_unique hX (hl'.contact y hy) he.symm]
    exact hy
  have hmem' : ∀ x ∈ l', turnContact τ x ∈ l := by
    intro x hx
    have hX := Spec.RelabelledMesh.contact hτ hψ (h.over hmm hof) hs hk' hl'.thick hl.thick (hl'.contact x hx)
    have hle := hX.le
    obtain ⟨r, p, g1, g2, g3, -⟩ := hX.rows
    obtain ⟨y, hy, he⟩ := hl.all _ r g1 (by omega)
    rw [isContact_unique hX (hl.contact y hy) he.symm]
    exact hy
  refine (List.perm_ext_iff_of_nodup (List.Nodup.of_map _ hl'.distinct) ?_).2 ?_
  · refine List.Nodup.map_on ?_ (List.Nodup.of_map _ hl.distinct)
    intro x hx y hy e
    have e3 : σ x.i = σ y.i := congrArg Contact.i e
    have l1 := (contact_data hl.thick (hl.contact x hx)).1
    have l2 := (contact_data hl.thick (hl.contact y hy)).1
    exact isContact_unique (hl.contact x hx) (hl.contact y hy) (h.inj _ _ l1 l2 e3)
  · intro x
    constructor
    · intro hx
      refine List.mem_map.2 ⟨_, hmem' x hx, ?_⟩
      obtain ⟨l1, l2, -⟩ := contact_data hl'.thick (hl'.contact x hx)
      rw [h.count] at l1 l2
      simp only [turnContact, e2 _ l1, e2 _ l2]
    · intro hx
      obtain ⟨y, hy, rfl⟩ := List.mem_map.1 hx
      exact hmem y hy

/-- The top is the same. -/
theorem Spec.RelabelledMesh.top (h : RelabelledMesh φ rows rows' σ) (hmm : RelabelledMat φ m m') (hof : OverFibers m rows) {Z Z' : K}
    (hZ : IsTop m rows Z) (hZ' : IsTop m' rows' Z') : Z' = Z := by
  obtain ⟨⟨i, hi, e⟩, hall⟩ := hZ
  obtain ⟨⟨i', hi', e'⟩, hall'⟩ := hZ'
  obtain ⟨τ, t1, t2, -⟩ := inverse_of_inj h.lt h.inj
  rw [h.count] at hi'
  apply le_antisymm
  · obtain ⟨x1, x2⟩ := h.height hmm hof (t1 i' hi')
    rw [t2 i' hi'] at x1 x2
    rw [e', x1, x2]
    exact hall _ (t1 i' hi')
  · obtain ⟨x1, x2⟩ := h.height hmm hof hi
    rw [e, ← x1, ← x2]
    exact hall' _ (by rw [h.count]; exact h.lt i hi)

/-- The system of the mesh with other numbers. -/
theorem relabelled_system {mesh mesh' : Mesh K} (h : RelabelledMesh φ mesh.rows mesh'.rows σ) (hmm : RelabelledMat φ m m')
    (hof : OverFibers m mesh.rows) (hm : GoodMat m)
    (hc : ConstraintsReciprocal mesh.rows) (hc' : ConstraintsReciprocal mesh'.rows)
    (hs : NodesSorted mesh.rows) (hs' : NodesSorted mesh'.rows) (hd : DistinctNodes mesh.rows) (hb : BeamsCyclic mesh.rows)
    (hb' : BeamsCyclic mesh'.rows) (hk : KeepsOrderMesh φ mesh.rows) {lmin lmax : Option K} {c : K}
    {Km Km' : Coo (Cell K)} (hK : stiffness m mesh lmin lmax c = .ok Km) (hK' : stiffness m' mesh' lmin lmax c = .ok Km')
    {cs cs' : ConstraintSys K} (hC : constraint m mesh = .ok cs) (hC' : constraint m' mesh' = .ok cs')
    {t t' : List K} {l l' : List (Contact K)} (hl : Contacts m mesh.rows cs t l) (hl' : Contacts m' mesh'.rows cs' t' l') :
    ∃ κ : ℕ → ℕ, (∀ (k : ℕ) (x : Contact K), l[k]? = some x → l'[κ k]? = some (turnContact σ x)) ∧
      Renamed (assemble Km cs) (assemble Km' cs') (turnIndex (2 * mesh.rows.length) σ κ) (fun r => decide (r < 2 * mesh.rows.length) && false) := by
  have hperm := h.contacts hmm hof hc hs hs' hk hl hl'
  obtain ⟨hZ1, -⟩ := C37_geometric hC hm hc
  obtain ⟨hZ2, -⟩ := C37_geometric hC' (hmm.good hm) hc'
  obtain ⟨hP, -⟩ := h.stiffness hmm hof hc hs hs' hd hb hb' hK hK'
  exact renamed_system h.count h.lt h.inj (sign := fun _ => false) (fun s hs => rfl) hK hK'
    (fun r s hr hs => by rw [hP r s hr hs]; rfl) (h.top hmm hof hZ1 hZ2) hl hl' hperm

end Fibermat
