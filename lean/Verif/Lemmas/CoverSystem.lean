import Verif.Lemmas.CoverMesh

/-! Contacts and system of a repeated mat. -/

set_option linter.unusedSectionVars false
set_option linter.unusedSimpArgs false

namespace Fibermat
variable {K : Type} [Field K] [LinearOrder K] [IsStrictOrderedRing K]
open Spec

variable {φ π : ℕ → ℕ} {m m' : Mat K} {rows rows' : List (MeshRow K)}

theorem Spec.CoverMesh.height (h : CoverMesh φ rows rows' π) (hmm : CoverMat φ m m') (hof' : OverFibers m' rows') {i : ℕ}
    (hi : i < rows'.length) :
    nodeHeight rows' i = nodeHeight rows (π i) ∧ nodeThick m' rows' i = nodeThick m rows (π i) := by
  have hr' : rows'[i]? = some rows'[i] := List.getElem?_eq_getElem hi
  obtain ⟨r, hr, e1, -, e3, -⟩ := h.node i _ hr'
  have ho := hof' _ (List.mem_of_getElem? hr')
  have hlt' : (rows'[i]).fiber.toNat < m'.fibers.length := by omega
  have hf' : m'.fibers[(rows'[i]).fiber.toNat]? = some m'.fibers[(rows'[i]).fiber.toNat] := List.getElem?_eq_getElem hlt'
  obtain ⟨f, hf, hs⟩ := hmm.fiber _ _ hf'
  constructor
  · simp [nodeHeight, hr, hr', e3]
  · simp only [nodeThick, hr, hr', Option.bind_some, e1, Int.toNat_natCast, hf, hf', Option.map_some, hs.h]

/-- A node connected to itself is a copy of such a node, and conversely. -/
theorem Spec.CoverMesh.alone (h : CoverMesh φ rows rows' π) (hc' : ConstraintsReciprocal rows') {i : ℕ} {r' r : MeshRow K}
    (hr' : rows'[i]? = some r') (hr : rows[π i]? = some r) : r'.constraint = (i : Int) ↔ r.constraint = (π i : Int) := by
  obtain ⟨r0, hr0, -, -, -, e4, e5⟩ := h.node i r' hr'
  rw [hr] at hr0; cases hr0
  constructor
  · intro e
    rw [e4, e, Int.toNat_natCast]
  · intro e
    obtain ⟨j, p', hj, hp', hback⟩ := hc' i r' hr'
    obtain ⟨p, hp, -, -, -, f4, f5⟩ := h.node j p' hp'
    have hπ : π j = π i := by
      rw [hj, Int.toNat_natCast] at e4
      omega
    rw [hπ, hr] at hp; cases hp
    have x1 := e5.2 (by omega)
    have x2 := f5.2 (by omega)
    omega

theorem Spec.CoverMesh.contact (h : CoverMesh φ rows rows' π) (hmm : CoverMat φ m m') (hof' : OverFibers m' rows')
    {t t' : List K} (ht : nodeThickness m rows = .ok t) (ht' : nodeThickness m' rows' = .ok t') {x : Contact K}
    (hx : IsContact rows' t' x) : IsContact rows t (turnContact π x) := by
  have hle := hx.le
  obtain ⟨i1, i2, -, -, h3, h4⟩ := contact_data ht' hx
  obtain ⟨r, p, g1, g2, g3, g4, g5, -, -⟩ := hx.rows
  obtain ⟨r0, hr0, a1, -, a3, a4, a5⟩ := h.node _ r g1
  obtain ⟨p0, hp0, b1, -, b3, b4, -⟩ := h.node _ p g2
  rw [g3, Int.toNat_natCast] at a4
  refine ⟨?_, r0, p0, hr0, hp0, a4, ?_, ?_, ?_, ?_⟩
  · show π x.i ≤ π x.j
    have := a5.1 (by omega)
    omega
  · show x.zi = _; rw [g4, a3]
  · show x.zj = _; rw [g5, b3]
  · show t[π x.i]? = some x.hi
    rw [nodeThick_eq ht (h.lt i1), ← (h.height hmm hof' i1).2, h3]
  · show t[π x.j]? = some x.hj
    rw [nodeThick_eq ht (h.lt i2), ← (h.height hmm hof' i2).2, h4]

/-- Each node belongs to a contact. -/
theorem contact_at (hc : ConstraintsReciprocal rows) {cs : ConstraintSys K} {t : List K} {l : List (Contact K)} (hl : Contacts m rows cs t l)
    {i : ℕ} (hi : i < rows.length) : ∃ x ∈ l, x.i = i ∨ x.j = i := by
  have hr : rows[i]? = some rows[i] := List.getElem?_eq_getElem hi
  obtain ⟨j, p, hj, hp, hback⟩ := hc i _ hr
  rcases Nat.lt_or_ge j i with hlt | hge
  · obtain ⟨x, hx, e⟩ := hl.all j p hp (by omega)
    obtain ⟨r0, p0, g1, g2, g3, -⟩ := (hl.contact x hx).rows
    rw [e, hp] at g1; cases g1
    exact ⟨x, hx, Or.inr (by omega)⟩
  · obtain ⟨x, hx, e⟩ := hl.all i _ hr (by omega)
    exact ⟨x, hx, Or.inl e⟩

/-- Each node belongs to one contact only. -/
theorem contact_one (hc : ConstraintsReciprocal rows) {t : List K} {i : ℕ} {x y : Contact K}
    (hx : IsContact rows t x) (hy : IsContact rows t y) (ex : x.i = i ∨ x.j = i) (ey : y.i = i ∨ y.j = i) : x = y := by
  have key : ∀ {x : Contact K}, IsContact rows t x → x.i = i ∨ x.j = i → ∃ r : MeshRow K, rows[i]? = some r ∧
      ((x.i = i ∧ r.constraint = (x.j : Int)) ∨ (x.j = i ∧ r.constraint = (x.i : Int))) := by
    intro x hx ex
    obtain ⟨r, p, g1, g2, g3, -⟩ := hx.rows
    rcases ex with e | e
    · exact ⟨r, by rw [← e]; exact g1, Or.inl ⟨e, g3⟩⟩
    · obtain ⟨j, q, hj, hq, hback⟩ := hc _ _ g1
      have : j = x.j := by omega
      subst this
      rw [g2] at hq; cases hq
      exact ⟨p, by rw [← e]; exact g2, Or.inr ⟨e, hback⟩⟩
  obtain ⟨r, hr, c1⟩ := key hx ex
  obtain ⟨r', hr', c2⟩ := key hy ey
  rw [hr] at hr'; cases hr'
  have l1 := hx.le
  have l2 := hy.le
  refine isContact_unique hx hy ?_
  rcases c1 with ⟨a1, a2⟩ | ⟨a1, a2⟩ <;> rcases c2 with ⟨b1, b2⟩ | ⟨b1, b2⟩ <;> omega

/-- The top is the same. -/
theorem Spec.CoverMesh.top (h : CoverMesh φ rows rows' π) (hmm : CoverMat φ m m') (hof' : OverFibers m' rows') {Z Z' : K}
    (hZ : IsTop m rows Z) (hZ' : IsTop m' rows' Z') : Z' = Z := by
  obtain ⟨⟨i, hi, e⟩, hall⟩ := hZ
  obtain ⟨⟨i', hi', e'⟩, hall'⟩ := hZ'
  apply le_antisymm
  · obtain ⟨x1, x2⟩ := h.height hmm hof' hi'
    rw [e', x1, x2]
    exact hall _ (h.lt hi')
  · obtain ⟨j, hj, rfl⟩ := h.surj i hi
    obtain ⟨x1, x2⟩ := h.height hmm hof' hj
    rw [e, ← x1, ← x2]
    exact hall' _ hj

/-- The unknown of the cell below an unknown of the copies: of a node, or of contact `k` which is a copy of contact `κ k`. -/
def coverIndex (N N' : ℕ) (π κ : ℕ → ℕ) (r : ℕ) : ℕ := if r < N' then turnPos π r else N + (3 * κ ((r - N') / 3) + (r - N') % 3)

/-- Entry of a contact. -/
theorem Contacts.touch {cs : ConstraintSys K} {t : List K} {l : List (Contact K)} (hl : Contacts m rows cs t l) {k d : ℕ} {x : Contact K}
    (hk : l[k]? = some x) (hd : d < 3) {i e : ℕ} (hi : i < rows.length) (he : e < 2) :
    cs.C.get (3 * k + d) (2 * i + e) =
      if d = 0 then - (if x.i = i ∧ e = 0 then 1 else 0) else if d = 1 then (if x.i = i ∧ e = 0 then 1 else 0) - (if x.j = i ∧ e = 0 then 1 else 0)
      else (if x.j = i ∧ e = 0 then 1 else 0) := by
  rw [hl.entry hk hd (by omega)]
  have k1 : ∀ a : ℕ, (2 * a = 2 * i + e) ↔ (a = i ∧ e = 0) := fun a => by omega
  simp only [k1]

theorem get_self {α : Type} {l : List α} {k : ℕ} (hk : k < l.length) : l[k]? = some l[k] := List.getElem?_eq_getElem hk

/-- The system of the copies covers the system of the cell. -/
theorem cover_system {mesh mesh' : Mesh K} (h : CoverMesh φ mesh.rows mesh'.rows π) (hmm : CoverMat φ m m')
    (hof' : OverFibers m' mesh'.rows) (hm : GoodMat m) (hm' : GoodMat m')
    (hc : ConstraintsReciprocal mesh.rows) (hc' : ConstraintsReciprocal mesh'.rows)
    (hs : NodesSorted mesh.rows) (hs' : NodesSorted mesh'.rows) (hd : DistinctNodes mesh.rows) (hb : BeamsCyclic mesh.rows)
    (hb' : BeamsCyclic mesh'.rows) {lmin lmax : Option K} {c : K}
    {Km Km' : Coo (Cell K)} (hK : stiffness m mesh lmin lmax c = .ok Km) (hK' : stiffness m' mesh' lmin lmax c = .ok Km')
    {cs cs' : ConstraintSys K} (hC : constraint m mesh = .ok cs) (hC' : constraint m' mesh' = .ok cs')
    {t t' : List K} {l l' : List (Contact K)} (hl : Contacts m mesh.rows cs t l) (hl' : Contacts m' mesh'.rows cs' t' l') :
    ∃ κ : ℕ → ℕ, (∀ (k : ℕ) (x : Contact K), l'[k]? = some x → l[κ k]? = some (turnContact π x)) ∧
      Covers (assemble Km cs) (assemble Km' cs') (coverIndex (2 * mesh.rows.length) (2 * mesh'.rows.length) π κ) := by
  obtain ⟨hZ1, -⟩ := C37_geometric hC hm hc
  obtain ⟨hZ2, -⟩ := C37_geometric hC' hm' hc'
  have hZ := h.top hmm hof' hZ1 hZ2
  have hstiff := h.stiffness hmm hof' hs hs' hd hb hb' hK hK'
  have hdown : ∀ x ∈ l', turnContact π x ∈ l := by
    intro x hx
    have hX := h.contact hmm hof' hl.thick hl'.thick (hl'.contact x hx)
    have hle := hX.le
    obtain ⟨r, p, g1, g2, g3, -⟩ := hX.rows
    obtain ⟨y, hy, he⟩ := hl.all _ r g1 (by omega)
    rw [isContact_unique hX (hl.contact y hy) he.symm]
    exact hy
  have hex : ∀ k, k < l'.length → ∃ k0, k0 < l.length ∧ l[k0]? = (l'[k]?).map (turnContact π) := by
    intro k hk
    have : turnContact π l'[k] ∈ l := hdown _ (List.getElem_mem hk)
    obtain ⟨k0, hk0⟩ := List.mem_iff_getElem?.1 this
    refine ⟨k0, (List.getElem?_eq_some_iff.1 hk0).1, ?_⟩
    rw [hk0, get_self hk]; rfl
  classical
  let κ : ℕ → ℕ := fun k => if hk : k < l'.length then Classical.choose (hex k hk) else 0
  have hκ : ∀ k, k < l'.length → κ k < l.length ∧ l[κ k]? = (l'[k]?).map (turnContact π) := by
    intro k hk
    simp only [κ, dif_pos hk]
    exact Classical.choose_spec (hex k hk)
  have hκ2 : ∀ (k : ℕ) (x : Contact K), l'[k]? = some x → l[κ k]? = some (turnContact π x) := by
    intro k x hx
    rw [(hκ k (List.getElem?_eq_some_iff.1 hx).1).2, hx]; rfl
  have hnd : ∀ {j k : ℕ} {x : Contact K}, l[j]? = some x → l[k]? = some x → j = k := by
    intro j k x hj hk
    obtain ⟨j1, j2⟩ := List.getElem?_eq_some_iff.1 hj
    obtain ⟨k1, k2⟩ := List.getElem?_eq_some_iff.1 hk
    exact ((List.Nodup.of_map _ hl.distinct).getElem_inj_iff).1 (j2.trans k2.symm)
  have hnd' : ∀ {j k : ℕ} {x : Contact K}, l'[j]? = some x → l'[k]? = some x → j = k := by
    intro j k x hj hk
    obtain ⟨j1, j2⟩ := List.getElem?_eq_some_iff.1 hj
    obtain ⟨k1, k2⟩ := List.getElem?_eq_some_iff.1 hk
    exact ((List.Nodup.of_map _ hl'.distinct).getElem_inj_iff).1 (j2.trans k2.symm)
  -- the contact at a copy of a node of a contact
  have hup : ∀ {k : ℕ} {x : Contact K}, l[k]? = some x → ∀ i, i < mesh'.rows.length → (x.i = π i ∨ x.j = π i) →
      ∃ (k' : ℕ) (x' : Contact K), l'[k']? = some x' ∧ (x'.i = i ∨ x'.j = i) ∧ turnContact π x' = x ∧ κ k' = k := by
    intro k x hx i hi htouch
    obtain ⟨x', hx', ht'⟩ := contact_at hc' hl' hi
    obtain ⟨k', hk'⟩ := List.mem_iff_getElem?.1 hx'
    have hX := hl.contact _ (hdown x' hx')
    have e : turnContact π x' = x := by
      refine contact_one hc hX (hl.contact x (List.mem_of_getElem? hx)) (i := π i) ?_ htouch
      rcases ht' with e | e
      · exact Or.inl (by simp only [turnContact, e])
      · exact Or.inr (by simp only [turnContact, e])
    refine ⟨k', x', hk', ht', e, hnd (hκ2 k' x' hk') (by rw [e]; exact hx)⟩
  have hsurj : ∀ k, k < l.length → ∃ k', k' < l'.length ∧ κ k' = k := by
    intro k hk
    obtain ⟨l1, -⟩ := contact_data hl.thick (hl.contact _ (List.getElem_mem hk))
    obtain ⟨i, hi, e⟩ := h.surj _ l1
    obtain ⟨k', x', hk', -, -, e2⟩ := hup (get_self hk) i hi (Or.inl e.symm)
    exact ⟨k', (List.getElem?_eq_some_iff.1 hk').1, e2⟩
  -- a contact of a node with itself
  have hself : ∀ x' ∈ l', (x'.i = x'.j ↔ π x'.i = π x'.j) := by
    intro x' hx'
    refine ⟨fun e => by rw [e], fun e => ?_⟩
    obtain ⟨r, p, g1, g2, g3, -⟩ := (hl'.contact x' hx').rows
    obtain ⟨r0, hr0, -, -, -, a4, -⟩ := h.node _ r g1
    have := (h.alone hc' g1 hr0).2 (by rw [a4, g3, Int.toNat_natCast, e])
    omega
  have hN : Km.nrows = 2 * mesh.rows.length := (C30_symmetric hK).1
  have hN' : Km'.nrows = 2 * mesh'.rows.length := (C30_symmetric hK').1
  have hnC : cs.C.nrows = 3 * l.length := by rw [hl.C]
  have hnC' : cs'.C.nrows = 3 * l'.length := by rw [hl'.C]
  set N := 2 * mesh.rows.length with hNN
  set N' := 2 * mesh'.rows.length with hNN'
  have hn : (assemble Km cs).n = N + 3 * l.length := by unfold Sys.n assemble; simp only [hN, hnC]
  have hn' : (assemble Km' cs').n = N' + 3 * l'.length := by unfold Sys.n assemble; simp only [hN', hnC']
  have idx_node : ∀ i e, i < mesh'.rows.length → e < 2 → coverIndex N N' π κ (2 * i + e) = 2 * π i + e := by
    intro i e hi he
    unfold coverIndex turnPos
    rw [if_pos (by omega)]
    have e1 : (2 * i + e) / 2 = i := by omega
    have e2 : (2 * i + e) % 2 = e := by omega
    rw [e1, e2]
  have idx_contact : ∀ k e, e < 3 → coverIndex N N' π κ (N' + (3 * k + e)) = N + (3 * κ k + e) := by
    intro k e he
    unfold coverIndex
    rw [if_neg (by omega)]
    have e1 : (N' + (3 * k + e) - N') / 3 = k := by omega
    have e2 : (N' + (3 * k + e) - N') % 3 = e := by omega
    rw [e1, e2]
  have split : ∀ (len n r : ℕ), r < 2 * n + 3 * len →
      (∃ i e, i < n ∧ e < 2 ∧ r = 2 * i + e) ∨ ∃ k e, k < len ∧ e < 3 ∧ r = 2 * n + (3 * k + e) := by
    intro len n r hr
    rcases Nat.lt_or_ge r (2 * n) with h | h
    · exact Or.inl ⟨r / 2, r % 2, by omega, by omega, by omega⟩
    · exact Or.inr ⟨(r - 2 * n) / 3, (r - 2 * n) % 3, by omega, by omega, by omega⟩
  -- unknowns over a node, over a contact
  have over_node : ∀ j g, j < mesh.rows.length → g < 2 → ∀ d, d < (assemble Km' cs').n → coverIndex N N' π κ d = 2 * j + g →
      ∃ j', j' < mesh'.rows.length ∧ d = 2 * j' + g ∧ π j' = j := by
    intro j g hj hg d hd e
    rw [hn'] at hd
    rcases split _ _ _ hd with ⟨i, e1, hi, he1, rfl⟩ | ⟨k, e1, hk, he1, rfl⟩
    · rw [idx_node i e1 hi he1] at e
      exact ⟨i, hi, by omega, by omega⟩
    · rw [← hNN', idx_contact k e1 he1] at e
      omega
  have over_contact : ∀ k f, k < l.length → f < 3 → ∀ d, d < (assemble Km' cs').n → coverIndex N N' π κ d = N + (3 * k + f) →
      ∃ k', k' < l'.length ∧ d = N' + (3 * k' + f) ∧ κ k' = k := by
    intro k f hk hf d hd e
    rw [hn'] at hd
    rcases split _ _ _ hd with ⟨i, e1, hi, he1, rfl⟩ | ⟨k1, e1, hk1, he1, rfl⟩
    · rw [idx_node i e1 hi he1] at e
      have := h.lt hi
      omega
    · rw [← hNN', idx_contact k1 e1 he1] at e
      exact ⟨k1, hk1, by omega, by omega⟩
  have Pnn : ∀ (Km : Coo (Cell K)) (cs : ConstraintSys K) i e j g n, Km.nrows = 2 * n → i < n → j < n → e < 2 → g < 2 →
      (assemble Km cs).P (2 * i + e) (2 * j + g) = Km.get (2 * i + e) (2 * j + g) := by
    intro Km cs i e j g n hN hi hj he hg
    have n1 : 2 * i + e < 2 * n := by omega
    have n2 : 2 * j + g < 2 * n := by omega
    simp only [assemble, hN, n1, n2, if_true]
  have Pnc : ∀ (Km : Coo (Cell K)) (cs : ConstraintSys K) i e k n, Km.nrows = 2 * n → i < n → e < 2 →
      (assemble Km cs).P (2 * i + e) (2 * n + k) = .fin (cs.C.get k (2 * i + e)) := by
    intro Km cs i e k n hN hi he
    have n1 : 2 * i + e < 2 * n := by omega
    have n2 : ¬ 2 * n + k < 2 * n := by omega
    simp only [assemble, hN, n1, n2, if_true, if_false, Nat.add_sub_cancel_left]
  have Pcn : ∀ (Km : Coo (Cell K)) (cs : ConstraintSys K) i e k n, Km.nrows = 2 * n → i < n → e < 2 →
      (assemble Km cs).P (2 * n + k) (2 * i + e) = .fin (cs.C.get k (2 * i + e)) := by
    intro Km cs i e k n hN hi he
    have n1 : 2 * i + e < 2 * n := by omega
    have n2 : ¬ 2 * n + k < 2 * n := by omega
    simp only [assemble, hN, n1, n2, if_true, if_false, Nat.add_sub_cancel_left]
  have Pcc : ∀ (Km : Coo (Cell K)) (cs : ConstraintSys K) j k n, Km.nrows = 2 * n →
      (assemble Km cs).P (2 * n + j) (2 * n + k) = .fin 0 := by
    intro Km cs j k n hN
    have n1 : ¬ 2 * n + j < 2 * n := by omega
    have n2 : ¬ 2 * n + k < 2 * n := by omega
    simp only [assemble, hN, n1, n2, if_false]
  refine ⟨κ, hκ2, ?_, ?_, ?_, ?_, ?_, ?_, ?_, ?_⟩
  · -- lt
    intro r hr
    rw [hn'] at hr
    rw [hn]
    rcases split _ _ _ hr with ⟨i, e, hi, he, rfl⟩ | ⟨k, e, hk, he, rfl⟩
    · rw [idx_node i e hi he]
      have := h.lt hi
      omega
    · rw [← hNN', idx_contact k e he]
      have := (hκ k hk).1
      omega
  · -- surj
    intro r hr
    rw [hn] at hr
    rw [hn']
    rcases split _ _ _ hr with ⟨i, e, hi, he, rfl⟩ | ⟨k, e, hk, he, rfl⟩
    · obtain ⟨i', hi', rfl⟩ := h.surj i hi
      exact ⟨2 * i' + e, by omega, idx_node i' e hi' he⟩
    · obtain ⟨k', hk', rfl⟩ := hsurj k hk
      exact ⟨N' + (3 * k' + e), by omega, idx_contact k' e he⟩
  · -- P
    intro r s hr hs0
    have hs1 := hs0
    rw [hn'] at hr
    rw [hn] at hs0
    rcases split _ _ _ hr with ⟨i, e, hi, he, rfl⟩ | ⟨k, e, hk, he, rfl⟩ <;>
      rcases split _ _ _ hs0 with ⟨j, g, hj, hg, rfl⟩ | ⟨q, g, hq, hg, rfl⟩
    · -- node, node
      rw [idx_node i e hi he, Pnn Km cs _ _ _ _ _ hN (h.lt hi) hj he hg]
      have hri := get_self hi
      have hpj := get_self hj
      obtain ⟨r0, hr0, ar, -⟩ := h.node i _ hri
      by_cases hf : mesh.rows[j].fiber = (φ (mesh'.rows[i]).fiber.toNat : ℤ)
      · obtain ⟨j', p', hp', rfl, hpf⟩ := h.lift i j _ _ hri hpj hf
        have hj' := (List.getElem?_eq_some_iff.1 hp').1
        refine ⟨2 * j' + g, by omega, idx_node j' g hj' hg, ?_, ?_⟩
        · rw [Pnn Km' cs' _ _ _ _ _ hN' hi hj' he hg]
          exact hstiff i j' _ p' hri hp' hpf.symm e g he hg
        · intro d hd0 ed hne
          obtain ⟨j2, hj2, rfl, e2⟩ := over_node _ g (h.lt hj') hg d hd0 ed
          rw [Pnn Km' cs' _ _ _ _ _ hN' hi hj2 he hg]
          refine stiffness_apart hb' hK' he hg ?_
          intro ef
          apply hne
          have hp2 := get_self hj2
          simp only [fiberAt, hri, hp2, Option.map_some, Option.some.injEq] at ef
          rw [h.inj j2 j' _ p' hp2 hp' (by rw [hpf, ef]) e2]
      · obtain ⟨j', hj', rfl⟩ := h.surj j hj
        have hzero : ∀ j2, j2 < mesh'.rows.length → π j2 = π j' → (assemble Km' cs').P (2 * i + e) (2 * j2 + g) = .fin 0 := by
          intro j2 hj2 e2
          rw [Pnn Km' cs' _ _ _ _ _ hN' hi hj2 he hg]
          refine stiffness_apart hb' hK' he hg ?_
          intro ef
          apply hf
          have hp2 := get_self hj2
          simp only [fiberAt, hri, hp2, Option.map_some, Option.some.injEq] at ef
          obtain ⟨p0, hp0, ap, -⟩ := h.node j2 _ hp2
          rw [e2, hpj] at hp0; cases hp0
          rw [ap, ef]
        refine ⟨2 * j' + g, by omega, idx_node j' g hj' hg, ?_, ?_⟩
        · rw [hzero j' hj' rfl]
          refine (stiffness_apart hb hK he hg ?_).symm
          intro ef
          apply hf
          simp only [fiberAt, hr0, hpj, Option.map_some, Option.some.injEq] at ef
          rw [← ef, ar]
        · intro d hd0 ed _
          obtain ⟨j2, hj2, rfl, e2⟩ := over_node _ g hj hg d hd0 ed
          exact hzero j2 hj2 e2
    · -- node, contact
      have hx := get_self hq
      rw [idx_node i e hi he, Pnc Km cs _ _ _ _ hN (h.lt hi) he, hl.touch hx hg (h.lt hi) he]
      by_cases ht : l[q].i = π i ∨ l[q].j = π i
      · obtain ⟨k', x', hk', htx, ex, rfl⟩ := hup hx i hi ht
        have hkl := (List.getElem?_eq_some_iff.1 hk').1
        refine ⟨N' + (3 * k' + g), by omega, by rw [idx_contact k' g hg], ?_, ?_⟩
        · rw [Pnc Km' cs' _ _ _ _ hN' hi he, hl'.touch hk' hg hi he]
          have hsf := hself x' (List.mem_of_getElem? hk')
          have ei : (l[κ k']).i = π x'.i := by rw [← ex]; rfl
          have ej : (l[κ k']).j = π x'.j := by rw [← ex]; rfl
          have b1 : (x'.i = i) ↔ ((l[κ k']).i = π i) := by
            rw [ei]
            refine ⟨fun e => by rw [e], fun e => ?_⟩
            rcases htx with e1 | e1
            · exact e1
            · rw [← e1] at e
              rw [hsf.2 e, e1]
          have b2 : (x'.j = i) ↔ ((l[κ k']).j = π i) := by
            rw [ej]
            refine ⟨fun e => by rw [e], fun e => ?_⟩
            rcases htx with e1 | e1
            · rw [← e1] at e
              rw [← hsf.2 e.symm, e1]
            · exact e1
          simp only [b1, b2]
        · intro d hd0 ed hne
          obtain ⟨k2, hk2, rfl, e2⟩ := over_contact _ g hq hg d hd0 ed
          have hx2 := get_self hk2
          rw [Pnc Km' cs' _ _ _ _ hN' hi he, hl'.touch hx2 hg hi he]
          have b : ¬ (l'[k2].i = i ∨ l'[k2].j = i) := by
            intro hb
            apply hne
            have := contact_one hc' (hl'.contact _ (List.getElem_mem hk2)) (hl'.contact x' (List.mem_of_getElem? hk')) hb htx
            rw [this] at hx2
            rw [hnd' hx2 hk']
          push Not at b
          simp only [b.1, b.2, false_and, if_false, neg_zero, sub_zero, ite_self]
      · obtain ⟨k', hk', rfl⟩ := hsurj q hq
        have hzero : ∀ k2, k2 < l'.length → κ k2 = κ k' → (assemble Km' cs').P (2 * i + e) (N' + (3 * k2 + g)) = .fin 0 := by
          intro k2 hk2 e2
          have hx2 := get_self hk2
          rw [Pnc Km' cs' _ _ _ _ hN' hi he, hl'.touch hx2 hg hi he]
          have hx3 := hκ2 k2 _ hx2
          rw [e2, hx] at hx3
          have hx3 := Option.some.inj hx3
          have b1 : l'[k2].i ≠ i := fun e => ht (Or.inl (by rw [hx3, ← e]; rfl))
          have b2 : l'[k2].j ≠ i := fun e => ht (Or.inr (by rw [hx3, ← e]; rfl))
          simp only [b1, b2, false_and, if_false, neg_zero, sub_zero, ite_self]
        push Not at ht
        refine ⟨N' + (3 * k' + g), by omega, by rw [idx_contact k' g hg], ?_, ?_⟩
        · rw [hzero k' hk' rfl]
          simp only [ht.1, ht.2, false_and, if_false, neg_zero, sub_zero, ite_self]
        · intro d hd0 ed _
          obtain ⟨k2, hk2, rfl, e2⟩ := over_contact _ g hq hg d hd0 ed
          exact hzero k2 hk2 e2
    · -- contact, node
      have hx' := get_self hk
      have hx := hκ2 k _ hx'
      have hkl := (hκ k hk).1
      have hsf := hself _ (List.getElem_mem hk)
      obtain ⟨l1, l2, -⟩ := contact_data hl'.thick (hl'.contact _ (List.getElem_mem hk))
      rw [← hNN', idx_contact k e he, Pcn Km cs _ _ _ _ hN hj hg, hl.touch hx he hj hg]
      show ∃ d, _
      have ei : (turnContact π l'[k]).i = π l'[k].i := rfl
      have ej : (turnContact π l'[k]).j = π l'[k].j := rfl
      have hval : ∀ j2, j2 < mesh'.rows.length → (l'[k].i = j2 ↔ π l'[k].i = j) → (l'[k].j = j2 ↔ π l'[k].j = j) →
          (assemble Km' cs').P (N' + (3 * k + e)) (2 * j2 + g) = Cell.fin (if e = 0 then - (if (turnContact π l'[k]).i = j ∧ g = 0 then 1 else 0)
            else if e = 1 then (if (turnContact π l'[k]).i = j ∧ g = 0 then 1 else 0) - (if (turnContact π l'[k]).j = j ∧ g = 0 then 1 else 0)
            else (if (turnContact π l'[k]).j = j ∧ g = 0 then 1 else 0)) := by
        intro j2 hj2 b1 b2
        rw [Pcn Km' cs' _ _ _ _ hN' hj2 hg, hl'.touch hx' he hj2 hg]
        simp only [ei, ej, b1, b2]
      have hzero : ∀ j2, j2 < mesh'.rows.length → l'[k].i ≠ j2 → l'[k].j ≠ j2 →
          (assemble Km' cs').P (N' + (3 * k + e)) (2 * j2 + g) = .fin 0 := by
        intro j2 hj2 b1 b2
        rw [Pcn Km' cs' _ _ _ _ hN' hj2 hg, hl'.touch hx' he hj2 hg]
        simp only [b1, b2, false_and, if_false, neg_zero, sub_zero, ite_self]
      by_cases h1 : π l'[k].i = j
      · refine ⟨2 * l'[k].i + g, by omega, by rw [idx_node _ g l1 hg, h1], ?_, ?_⟩
        · refine hval _ l1 ⟨fun _ => h1, fun _ => rfl⟩ ⟨fun e => by rw [e, h1], fun e => ?_⟩
          exact (hsf.2 (by rw [h1, e])).symm
        · intro d hd0 ed hne
          obtain ⟨j2, hj2, rfl, e2⟩ := over_node _ g hj hg d hd0 ed
          refine hzero j2 hj2 (fun e => hne (by rw [e])) (fun e => hne ?_)
          rw [hsf.2 (by rw [h1, e, e2]), e]
      · by_cases h2 : π l'[k].j = j
        · refine ⟨2 * l'[k].j + g, by omega, by rw [idx_node _ g l2 hg, h2], ?_, ?_⟩
          · refine hval _ l2 ⟨fun e => by rw [e, h2], fun e => absurd e h1⟩ ⟨fun _ => h2, fun _ => rfl⟩
          · intro d hd0 ed hne
            obtain ⟨j2, hj2, rfl, e2⟩ := over_node _ g hj hg d hd0 ed
            exact hzero j2 hj2 (fun e => h1 (by rw [e, e2])) (fun e => hne (by rw [e]))
        · obtain ⟨j', hj', ej'⟩ := h.surj j hj
          refine ⟨2 * j' + g, by omega, by rw [idx_node _ g hj' hg, ej'], ?_, ?_⟩
          · exact hval _ hj' ⟨fun e => by rw [e, ej'], fun e => absurd e h1⟩ ⟨fun e => by rw [e, ej'], fun e => absurd e h2⟩
          · intro d hd0 ed hne
            obtain ⟨j2, hj2, rfl, e2⟩ := over_node _ g hj hg d hd0 ed
            exact hzero j2 hj2 (fun e => h1 (by rw [e, e2])) (fun e => h2 (by rw [e, e2]))
    · -- contact, contact
      obtain ⟨k', hk', rfl⟩ := hsurj q hq
      refine ⟨N' + (3 * k' + g), by omega, idx_contact k' g hg, ?_, ?_⟩
      · rw [← hNN', idx_contact k e he, Pcc Km' cs' _ _ _ hN', Pcc Km cs _ _ _ hN]
      · intro d hd0 ed _
        obtain ⟨k2, hk2, rfl, e2⟩ := over_contact _ g hq hg d hd0 ed
        rw [Pcc Km' cs' _ _ _ hN']
  · -- symmetric
    intro r s _ _
    simp only [assemble]
    split_ifs <;> first | rfl | exact (C30_symmetric hK).2.2.2 r s
  · intro r s _ _
    simp only [assemble]
    split_ifs <;> first | rfl | exact (C30_symmetric hK').2.2.2 r s
  · -- bounds
    intro r hr
    rw [hn'] at hr
    rcases split _ _ _ hr with ⟨i, e, hi, he, rfl⟩ | ⟨k, e, hk, he, rfl⟩
    · rw [idx_node i e hi he]
      have n1 : 2 * i + e < N' := by omega
      have n2 : 2 * π i + e < N := by have := h.lt hi; omega
      simp only [assemble, hN, hN', n1, n2, if_true]
    · rw [← hNN', idx_contact k e he]
      have n1 : ∀ k e, ¬ N + (3 * k + e) < N := fun k e => by omega
      have n2 : ∀ k e, ¬ N' + (3 * k + e) < N' := fun k e => by omega
      have hx' := get_self hk
      have hx := hκ2 k _ hx'
      have hsf := hself _ (List.getElem_mem hk)
      simp only [assemble, hN, hN', n1, n2, if_false, Nat.add_sub_cancel_left, List.getD_eq_getElem?_getD, hl.bound hx he, hl'.bound hx' he, hZ]
      have hbd : contactBounds cs.Z (turnContact π l'[k]) = contactBounds cs.Z l'[k] := by
        unfold contactBounds turnContact
        by_cases e : l'[k].i = l'[k].j
        · simp only [if_pos e, if_pos (hsf.1 e)]
        · simp only [if_neg e, if_neg (fun g => e (hsf.2 g))]
      rw [hbd]
  · intro r hr
    rw [hn'] at hr
    rcases split _ _ _ hr with ⟨i, e, hi, he, rfl⟩ | ⟨k, e, hk, he, rfl⟩
    · rw [idx_node i e hi he]
      have n1 : 2 * i + e < N' := by omega
      have n2 : 2 * π i + e < N := by have := h.lt hi; omega
      simp only [assemble, hN, hN', n1, n2, if_true]
    · rw [← hNN', idx_contact k e he]
      have n1 : ∀ k e, ¬ N + (3 * k + e) < N := fun k e => by omega
      have n2 : ∀ k e, ¬ N' + (3 * k + e) < N' := fun k e => by omega
      have := (hκ k hk).1
      simp only [assemble, hN, hN', n1, n2, if_false, Nat.add_sub_cancel_left]
      rw [hl.incr (by omega), hl'.incr (by omega)]
      have e1 : (3 * κ k + e) % 3 = e := by omega
      have e2 : (3 * k + e) % 3 = e := by omega
      rw [e1, e2]
  · simp only [assemble, hZ]

end Fibermat
