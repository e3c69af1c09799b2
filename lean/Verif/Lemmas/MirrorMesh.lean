import Verif.Lemmas.RelabelMesh
import Verif.Lemmas.GaugeSolver
import Verif.Lemmas.Deform
import Verif.Lemmas.SolverStop
import Verif.Spec.Mirror

/-! The system of a mesh turned upside down. -/

set_option linter.unusedSectionVars false
set_option linter.unusedSimpArgs false

namespace Fibermat
variable {K : Type} [Field K] [LinearOrder K] [IsStrictOrderedRing K]
open Spec

variable {φ σ : ℕ → ℕ} {Z : K} {m m' : Mat K} {rows rows' : List (MeshRow K)}

/-- Displacements that turn a mesh upside down. -/
def flipUp (Z : K) (mesh : Mesh K) (k : ℕ) : K := Z - 2 * nodeHeight mesh.rows (k / 2)

/-- The mesh turned upside down twice has other numbers only. -/
theorem Spec.MirroredMesh.relabelled {mesh' : Mesh K} (h : MirroredMesh φ Z rows mesh'.rows σ) :
    RelabelledMesh φ rows (mesh'.deform (flipUp Z mesh')).rows σ := by
  refine ⟨by rw [deform_length]; exact h.count, h.lt, h.inj, ?_⟩
  intro i r hr
  obtain ⟨r', hr', e1, e2, e3, e4, e5, e6⟩ := h.node i r hr
  refine ⟨{ r' with z := r'.z + flipUp Z mesh' (2 * σ i) }, by rw [deform_getElem?, hr']; rfl, e1, e2, e3, e4, ?_, e6⟩
  have : 2 * σ i / 2 = σ i := by omega
  simp only [flipUp, this, nodeHeight, hr', Option.map_some, Option.getD_some, e5]
  ring

theorem Spec.MirroredMesh.height (h : MirroredMesh φ Z rows rows' σ) (hmm : RelabelledMat φ m m') (hof : OverFibers m rows) {i : ℕ}
    (hi : i < rows.length) :
    nodeHeight rows' (σ i) = Z - nodeHeight rows i ∧ nodeThick m' rows' (σ i) = nodeThick m rows i := by
  have hr : rows[i]? = some rows[i] := List.getElem?_eq_getElem hi
  obtain ⟨r', hr', e1, -, -, -, e5, -⟩ := h.node i _ hr
  have := hof _ (List.mem_of_getElem? hr)
  constructor
  · simp [nodeHeight, hr, hr', e5]
  · simp only [nodeThick, hr, hr', Option.bind_some, e1, Int.toNat_natCast]
    rw [hmm.fiber _ (by omega)]

/-- A contact upside down. -/
def mirrorContact (σ : ℕ → ℕ) (Z : K) (x : Contact K) : Contact K := ⟨σ x.j, σ x.i, Z - x.zj, Z - x.zi, x.hj, x.hi⟩

theorem Spec.MirroredMesh.contact (h : MirroredMesh φ Z rows rows' σ) (hmm : RelabelledMat φ m m') (hof : OverFibers m rows)
    (hc : ConstraintsReciprocal rows) (hs' : NodesSorted rows') (hk : ReversesOrderMesh φ rows)
    {t t' : List K} (ht : nodeThickness m rows = .ok t) (ht' : nodeThickness m' rows' = .ok t') {x : Contact K}
    (hx : IsContact rows t x) : IsContact rows' t' (mirrorContact σ Z x) := by
  have hle := hx.le
  obtain ⟨i1, i2, -, -, h3, h4⟩ := contact_data ht hx
  obtain ⟨r, p, g1, g2, g3, g4, g5, -, -⟩ := hx.rows
  obtain ⟨j0, p0, hj0, hp0, hback⟩ := hc _ r g1
  have : j0 = x.j := by omega
  subst this
  rw [g2] at hp0; cases hp0
  obtain ⟨r', hr', a1, -, -, -, a5, a6⟩ := h.node _ r g1
  obtain ⟨p', hp', b1, -, -, -, b5, b6⟩ := h.node _ p g2
  refine ⟨?_, p', r', hp', hr', ?_, ?_, ?_, ?_, ?_⟩
  · show σ x.j ≤ σ x.i
    by_cases e : x.i = x.j
    · rw [e]
    · have hlt := hk _ _ r p g1 g2 g3 (by omega)
      by_contra hcon
      have := sorted_fiber hs' hr' hp' (by omega)
      omega
  · rw [b6, hback, Int.toNat_natCast]; rfl
  · show Z - x.zj = _; rw [g5, b5]
  · show Z - x.zi = _; rw [g4, a5]
  · show t'[σ x.j]? = some x.hj
    rw [nodeThick_eq ht' (by rw [h.count]; exact h.lt _ i2), (h.height hmm hof i2).2, h4]
  · show t'[σ x.i]? = some x.hi
    rw [nodeThick_eq ht' (by rw [h.count]; exact h.lt _ i1), (h.height hmm hof i1).2, h3]

/-- The inverse of a reversal. -/
theorem Spec.MirroredMesh.symm (h : MirroredMesh φ Z rows rows' σ) (hmm : RelabelledMat φ m m') (hof : OverFibers m rows)
    (hc : ConstraintsReciprocal rows) :
    ∃ ψ τ, RelabelledMat ψ m' m ∧ MirroredMesh ψ Z rows' rows τ ∧ (∀ i, i < rows.length → τ (σ i) = i) ∧
      ∀ i, i < rows.length → σ (τ i) = i := by
  obtain ⟨ψ, p1, p2, p3⟩ := hmm.symm
  obtain ⟨τ, h1, h2, h3⟩ := inverse_of_inj h.lt h.inj
  refine ⟨ψ, τ, p1, ⟨h.count.symm, fun i hi => ?_, fun i j hi hj e => ?_, ?_⟩, h3, h2⟩
  · rw [h.count] at hi ⊢; exact h1 i hi
  · rw [h.count] at hi hj
    rw [← h2 i hi, ← h2 j hj, e]
  · intro k r' hr'
    have hk : k < rows.length := by rw [← h.count]; exact (List.getElem?_eq_some_iff.1 hr').1
    have hr : rows[τ k]? = some (rows[τ k]'(h1 k hk)) := List.getElem?_eq_getElem (h1 k hk)
    obtain ⟨q, hq, e1, e2, e3, e4, e5, e6⟩ := h.node (τ k) _ hr
    rw [h2 k hk, hr'] at hq
    cases hq
    refine ⟨_, hr, ?_, e2.symm, e3.symm, e4.symm, by rw [e5]; ring, ?_⟩
    · have := hof _ (List.mem_of_getElem? hr)
      rw [e1, Int.toNat_natCast, p2 _ (by omega)]
      omega
    · obtain ⟨j, p, hj, hp, -⟩ := hc _ _ hr
      have hjl : j < rows.length := (List.getElem?_eq_some_iff.1 hp).1
      rw [e6, hj, Int.toNat_natCast, Int.toNat_natCast, h3 j hjl]

/-- The contacts of the mesh upside down. -/
theorem Spec.MirroredMesh.contacts (h : MirroredMesh φ Z rows rows' σ) (hmm : RelabelledMat φ m m') (hof : OverFibers m rows)
    (hc : ConstraintsReciprocal rows) (hs' : NodesSorted rows') (hk : ReversesOrderMesh φ rows) {cs cs' : ConstraintSys K} {t t' : List K}
    {l l' : List (Contact K)} (hl : Contacts m rows cs t l) (hl' : Contacts m' rows' cs' t' l') :
    l'.Perm (l.map (mirrorContact σ Z)) := by
  obtain ⟨ψ, τ, hψ, hτ, e1, e2⟩ := h.symm hmm hof hc
  have hmem : ∀ x ∈ l, mirrorContact σ Z x ∈ l' := by
    intro x hx
    have hX := h.contact hmm hof hc hs' hk hl.thick hl'.thick (hl.contact x hx)
    have hle := hX.le
    obtain ⟨r, p, g1, g2, g3, -⟩ := hX.rows
    obtain ⟨y, hy, he⟩ := hl'.all _ r g1 (by omega)
    rw [isContact_unique hX (hl'.contact y hy) he.symm]
    exact hy
  refine (List.perm_ext_iff_of_nodup (List.Nodup.of_map _ hl'.distinct) ?_).2 ?_
  · refine List.Nodup.map_on ?_ (List.Nodup.of_map _ hl.distinct)
    intro x hx y hy e
    have e3 : σ x.i = σ y.i := congrArg Contact.j e
    have l1 := (contact_data hl.thick (hl.contact x hx)).1
    have l2 := (contact_data hl.thick (hl.contact y hy)).1
    exact isContact_unique (hl.contact x hx) (hl.contact y hy) (h.inj _ _ l1 l2 e3)
  · intro x
    constructor
    · intro hx
      have hle := (hl'.contact x hx).le
      obtain ⟨l1, l2, -⟩ := contact_data hl'.thick (hl'.contact x hx)
      rw [h.count] at l1 l2
      obtain ⟨r', p', g1, g2, g3, -⟩ := (hl'.contact x hx).rows
      obtain ⟨r, hr, a1, -, -, -, -, a6⟩ := hτ.node _ r' g1
      obtain ⟨p, hp, b1, -, -, -, -, b6⟩ := hτ.node _ p' g2
      rw [g3, Int.toNat_natCast] at a6
      obtain ⟨j0, q, hj0, hq, hback⟩ := hc _ _ hr
      have : j0 = τ x.j := by omega
      subst this
      rw [hp] at hq; cases hq
      -- the upper node comes first in the first mesh
      have hle2 : τ x.j ≤ τ x.i := by
        by_contra hcon
        have h1 := hk _ _ r p hr hp a6 (by omega)
        obtain ⟨r2, hr2, c1, -⟩ := h.node _ r hr
        obtain ⟨p2, hp2, c2, -⟩ := h.node _ p hp
        rw [e2 _ l1] at hr2
        rw [e2 _ l2] at hp2
        have := sorted_fiber hs' hr2 hp2 hle
        omega
      obtain ⟨y, hy, he⟩ := hl.all _ p hp (by omega)
      have hyc := hl.contact y hy
      obtain ⟨r3, p3, f1, f2, f3, -⟩ := hyc.rows
      have hyj : y.j = τ x.i := by
        rw [he, hp] at f1; cases f1; omega
      have hX := h.contact hmm hof hc hs' hk hl.thick hl'.thick hyc
      refine List.mem_map.2 ⟨y, hy, ?_⟩
      exact isContact_unique hX (hl'.contact x hx) (by simp only [mirrorContact]; rw [hyj, e2 _ l1])
    · intro hx
      obtain ⟨y, hy, rfl⟩ := List.mem_map.1 hx
      exact hmem y hy

/-- The top of the mesh upside down. -/
theorem Spec.MirroredMesh.top (h : MirroredMesh φ Z rows rows' σ) (hmm : RelabelledMat φ m m') (hof : OverFibers m rows) {Z' : K}
    (hfl : RestsOnFloor m rows) (hZ' : IsTop m' rows' Z') : Z' = Z := by
  obtain ⟨⟨i, hi, e⟩, hall⟩ := hfl
  obtain ⟨⟨i', hi', e'⟩, hall'⟩ := hZ'
  obtain ⟨τ, t1, t2, -⟩ := inverse_of_inj h.lt h.inj
  rw [h.count] at hi'
  apply le_antisymm
  · obtain ⟨x1, x2⟩ := h.height hmm hof (t1 i' hi')
    rw [t2 i' hi'] at x1 x2
    rw [e', x1, x2]
    linarith [hall _ (t1 i' hi')]
  · obtain ⟨x1, x2⟩ := h.height hmm hof hi
    have := hall' _ (by rw [h.count]; exact h.lt i hi)
    rw [x1, x2] at this
    linarith

/-- The motion of the upper plate. -/
def upward (N r : ℕ) : K := if r < N ∧ r % 2 = 0 then 1 else 0

/-- A motion of all nodes together meets no stiffness. -/
theorem upward_gauge {c : K} {Km : Coo (Cell K)} {bl : List (Beam K × K)} {cs : ConstraintSys K} {t : List K} {l : List (Contact K)}
    (ha : Assembled m rows c Km bl) (hl : Contacts m rows cs t l) (hc : ConstraintsReciprocal rows) :
    Gauge (assemble Km cs) (wholeTable (2 * rows.length) (table rows c bl) cs.C) (Frozen bl) (upward (2 * rows.length)) := by
  have hN : Km.nrows = 2 * rows.length := by rw [ha.eq]
  have hnC : cs.C.nrows = 3 * l.length := by rw [hl.C]
  have hn : (assemble Km cs).n = 2 * rows.length + 3 * l.length := by
    unfold Sys.n assemble; simp only [hN, hnC]
  constructor
  · intro r hr
    have hr : r < 2 * rows.length := by rw [← hN]; exact hr
    have hrow := ha.row (upward (2 * rows.length)) (by
      intro p hpm u
      refine (beam_bilin _ _ _ _ _ _ u (upward (2 * rows.length))).trans ?_
      have hlt := ha.lt p hpm
      have e1 : upward (K := K) (2 * rows.length) (2 * p.1.i) = 1 := by rw [upward, if_pos (by omega)]
      have e2 : upward (K := K) (2 * rows.length) (2 * p.1.j) = 1 := by rw [upward, if_pos (by omega)]
      have e3 : upward (K := K) (2 * rows.length) (2 * p.1.i + 1) = 0 := by rw [upward, if_neg (by omega)]
      have e4 : upward (K := K) (2 * rows.length) (2 * p.1.j + 1) = 0 := by rw [upward, if_neg (by omega)]
      rw [e1, e2, e3, e4]
      ring) r
    unfold apply
    rw [hn, Finset.sum_range_add]
    rw [Finset.sum_eq_zero (s := Finset.range (3 * l.length)) (fun s _ => by
      rw [upward, if_neg (by omega), mul_zero]), add_zero, ← hrow]
    refine Finset.sum_congr rfl (fun s hs => ?_)
    have hs := Finset.mem_range.1 hs
    simp only [wholeTable, hr, hs, if_true]
  · intro r hr
    have h1 : r < 2 * rows.length ∧ r % 2 = 0 := by
      by_contra hh
      exact hr (if_neg hh)
    refine ⟨?_, ?_, ?_⟩
    · show r < Km.nrows
      rw [hN]; exact h1.1
    · rintro ⟨p, -, -, hp⟩
      omega
    · obtain ⟨i, rfl⟩ : ∃ i, r = 2 * i := ⟨r / 2, by omega⟩
      have hi : i < rows.length := by omega
      have hri : rows[i]? = some rows[i] := List.getElem?_eq_getElem hi
      obtain ⟨j, p, hj, hp, hback⟩ := hc _ _ hri
      have hcol : ∀ k d, wholeTable (2 * rows.length) (table rows c bl) cs.C (2 * rows.length + (3 * k + d)) (2 * i) =
          cs.C.get (3 * k + d) (2 * i) := by
        intro k d
        simp [wholeTable, hi]
      by_cases hij : i ≤ j
      · obtain ⟨x, hx, hxi⟩ := hl.all i _ hri (by omega)
        obtain ⟨k, hk⟩ := List.mem_iff_getElem?.1 hx
        have hkl := (List.getElem?_eq_some_iff.1 hk).1
        refine ⟨2 * rows.length + (3 * k + 0), by omega, ?_⟩
        rw [hcol, hl.entry hk (by omega) (by omega)]
        simp [hxi]
      · obtain ⟨x, hx, hxi⟩ := hl.all j p hp (by omega)
        obtain ⟨k, hk⟩ := List.mem_iff_getElem?.1 hx
        have hkl := (List.getElem?_eq_some_iff.1 hk).1
        obtain ⟨r1, p1, f1, f2, f3, -⟩ := (hl.contact x hx).rows
        have hxj : x.j = i := by
          rw [hxi, hp] at f1; cases f1; omega
        refine ⟨2 * rows.length + (3 * k + 2), by omega, ?_⟩
        rw [hcol, hl.entry hk (by omega) (by omega)]
        simp [hxj]

/-- New number of an unknown; the two plates are exchanged. -/
def mirrorIndex (N : ℕ) (σ κ : ℕ → ℕ) (r : ℕ) : ℕ := if r < N then turnPos σ r else N + (3 * κ ((r - N) / 3) + (2 - (r - N) % 3))

theorem mirrored_system {mesh mesh' : Mesh K} (h : MirroredMesh φ Z mesh.rows mesh'.rows σ) (hmm : RelabelledMat φ m m')
    (hof : OverFibers m mesh.rows) (hm : GoodMat m)
    (hc : ConstraintsReciprocal mesh.rows) (hc' : ConstraintsReciprocal mesh'.rows)
    (hs : NodesSorted mesh.rows) (hs' : NodesSorted mesh'.rows) (hd : DistinctNodes mesh.rows) (hb : BeamsCyclic mesh.rows)
    (hb' : BeamsCyclic mesh'.rows) (hk : ReversesOrderMesh φ mesh.rows) (hfl : RestsOnFloor m mesh.rows) {lmin lmax : Option K} {c : K}
    {Km Km' : Coo (Cell K)} (hK : stiffness m mesh lmin lmax c = .ok Km) (hK' : stiffness m' mesh' lmin lmax c = .ok Km')
    {cs cs' : ConstraintSys K} (hC' : constraint m' mesh' = .ok cs') (hZ : cs.Z = Z)
    {t t' : List K} {l l' : List (Contact K)} (hl : Contacts m mesh.rows cs t l) (hl' : Contacts m' mesh'.rows cs' t' l')
    (T : ℕ → ℕ → K) (hzero : ∀ r, r < 2 * mesh.rows.length →
      apply (assemble Km cs) (wholeTable (2 * mesh.rows.length) T cs.C) (upward (2 * mesh.rows.length)) r = 0) :
    ∃ κ : ℕ → ℕ, (∀ (k : ℕ) (x : Contact K), l[k]? = some x → l'[κ k]? = some (mirrorContact σ Z x)) ∧
      Renamed (gauged (assemble Km cs) (wholeTable (2 * mesh.rows.length) T cs.C) (upward (2 * mesh.rows.length))) (assemble Km' cs')
        (mirrorIndex (2 * mesh.rows.length) σ κ) (fun r => decide (r < 2 * mesh.rows.length)) := by
  have hperm := h.contacts hmm hof hc hs' hk hl hl'
  obtain ⟨hZ2, -⟩ := C37_geometric hC' (hmm.good hm) hc'
  have hZ' : cs'.Z = Z := h.top hmm hof hfl hZ2
  have hP : ∀ r s, r < 2 * mesh.rows.length → s < 2 * mesh.rows.length → Km'.get (turnPos σ r) (turnPos σ s) = Km.get r s :=
    (h.relabelled.stiffness hmm hof hc hs (deform_sorted.2 hs') hd hb (deform_beams.2 hb') hK (by rw [deform_stiffness]; exact hK')).1
  have hcount := h.count
  have hσlt := h.lt
  have hσinj := h.inj
  have hlen : l'.length = l.length := by simpa using hperm.length_eq
  have hex : ∀ k, k < l.length → ∃ k', k' < l.length ∧ l'[k']? = (l[k]?).map (mirrorContact σ Z) := by
    intro k hk
    have : mirrorContact σ Z l[k] ∈ l' := hperm.mem_iff.2 (List.mem_map_of_mem (List.getElem_mem hk))
    obtain ⟨k', hk'⟩ := List.mem_iff_getElem?.1 this
    refine ⟨k', by rw [← hlen]; exact (List.getElem?_eq_some_iff.1 hk').1, ?_⟩
    rw [hk', List.getElem?_eq_getElem hk]; rfl
  classical
  let κ : ℕ → ℕ := fun k => if hk : k < l.length then Classical.choose (hex k hk) else 0
  have hκ : ∀ k, k < l.length → κ k < l.length ∧ l'[κ k]? = (l[k]?).map (mirrorContact σ Z) := by
    intro k hk
    simp only [κ, dif_pos hk]
    exact Classical.choose_spec (hex k hk)
  have hκi : ∀ j k, j < l.length → k < l.length → κ j = κ k → j = k := by
    intro j k hj hk e
    have e1 := (hκ j hj).2
    have e2 := (hκ k hk).2
    rw [e, e2, List.getElem?_eq_getElem hj, List.getElem?_eq_getElem hk] at e1
    simp only [Option.map_some, Option.some.injEq] at e1
    have e3 : σ (l[k]).i = σ (l[j]).i := congrArg Contact.j e1
    have l1 := (contact_data hl.thick (hl.contact _ (List.getElem_mem hj))).1
    have l2 := (contact_data hl.thick (hl.contact _ (List.getElem_mem hk))).1
    have e4 := hσinj _ _ l2 l1 e3
    have hinj := List.nodup_iff_injective_getElem.1 hl.distinct
    have := @hinj ⟨j, by simpa using hj⟩ ⟨k, by simpa using hk⟩ (by simp [e4])
    simpa using this
  have hN : Km.nrows = 2 * mesh.rows.length := by
    obtain ⟨-, -, bs, ls, -, -, rfl⟩ := stiffness_eq hK; rfl
  have hN' : Km'.nrows = 2 * mesh.rows.length := by
    obtain ⟨-, -, bs, ls, -, -, rfl⟩ := stiffness_eq hK'; rw [← hcount]
  have hnC : cs.C.nrows = 3 * l.length := by rw [hl.C]
  have hnC' : cs'.C.nrows = 3 * l.length := by rw [hl'.C, ← hlen]
  have hn0 : (assemble Km cs).n = 2 * mesh.rows.length + 3 * l.length := by unfold Sys.n assemble; simp only [hN, hnC]
  -- increments in the moving frame
  have hdq : ∀ k e, k < l.length → e < 3 →
      (gauged (assemble Km cs) (wholeTable (2 * mesh.rows.length) T cs.C) (upward (2 * mesh.rows.length))).dq
        (2 * mesh.rows.length + (3 * k + e)) = if e = 0 then 1 else 0 := by
    intro k e hkl he
    have hx : l[k]? = some l[k] := List.getElem?_eq_getElem hkl
    obtain ⟨l1, l2⟩ := hl.lt _ (List.mem_of_getElem? hx)
    simp only [gauged]
    rw [hl.rates hN hn0 hx he]
    have e1 : upward (K := K) (2 * mesh.rows.length) (2 * (l[k]).i) = 1 := by rw [upward, if_pos (by omega)]
    have e2 : upward (K := K) (2 * mesh.rows.length) (2 * (l[k]).j) = 1 := by rw [upward, if_pos (by omega)]
    rw [e1, e2]
    split_ifs <;> ring
  have hdq0 : ∀ r, r < 2 * mesh.rows.length →
      (gauged (assemble Km cs) (wholeTable (2 * mesh.rows.length) T cs.C) (upward (2 * mesh.rows.length))).dq r = 0 := by
    intro r hr
    have := hzero r hr
    simp only [gauged]
    rw [this]
    simp only [assemble, hN, hr, if_true, sub_zero]
  have hGP : (gauged (assemble Km cs) (wholeTable (2 * mesh.rows.length) T cs.C) (upward (2 * mesh.rows.length))).P = (assemble Km cs).P := rfl
  have hGq : (gauged (assemble Km cs) (wholeTable (2 * mesh.rows.length) T cs.C) (upward (2 * mesh.rows.length))).q0 = (assemble Km cs).q0 := rfl
  have hn : (gauged (assemble Km cs) (wholeTable (2 * mesh.rows.length) T cs.C) (upward (2 * mesh.rows.length))).n =
    2 * mesh.rows.length + 3 * l.length := hn0
  have hnK : (gauged (assemble Km cs) (wholeTable (2 * mesh.rows.length) T cs.C) (upward (2 * mesh.rows.length))).nK =
    2 * mesh.rows.length := hN
  have hnC0 : (gauged (assemble Km cs) (wholeTable (2 * mesh.rows.length) T cs.C) (upward (2 * mesh.rows.length))).nC =
    3 * l.length := hnC
  have hZ0 : (gauged (assemble Km cs) (wholeTable (2 * mesh.rows.length) T cs.C) (upward (2 * mesh.rows.length))).Z0 = Z := hZ
  generalize gauged (assemble Km cs) (wholeTable (2 * mesh.rows.length) T cs.C) (upward (2 * mesh.rows.length)) = S at *
  clear hzero
  generalize hNN : 2 * mesh.rows.length = N at *
  have pos_lt : ∀ r, r < N → turnPos σ r < N := by
    intro r hr
    have := hσlt (r / 2) (by omega)
    unfold turnPos; omega
  have pos_inj : ∀ r s, r < N → s < N → turnPos σ r = turnPos σ s → r = s := by
    intro r s hr hs e
    unfold turnPos at e
    have := hσinj (r / 2) (s / 2) (by omega) (by omega) (by omega)
    omega
  have idx_node : ∀ r, r < N → mirrorIndex N σ κ r = turnPos σ r := fun r hr => by unfold mirrorIndex; rw [if_pos hr]
  have idx_contact : ∀ k e, e < 3 → mirrorIndex N σ κ (N + (3 * k + e)) = N + (3 * κ k + (2 - e)) := by
    intro k e he
    unfold mirrorIndex
    rw [if_neg (by omega)]
    have e1 : (N + (3 * k + e) - N) / 3 = k := by omega
    have e2 : (N + (3 * k + e) - N) % 3 = e := by omega
    rw [e1, e2]
  have split : ∀ r, r < N + 3 * l.length → r < N ∨ ∃ k e, k < l.length ∧ e < 3 ∧ r = N + (3 * k + e) := by
    intro r hr
    rcases Nat.lt_or_ge r N with h | h
    · exact Or.inl h
    · exact Or.inr ⟨(r - N) / 3, (r - N) % 3, by omega, by omega, by omega⟩
  have flip_node : ∀ r, r < N → decide (r < N) = true := fun r hr => by simp [hr]
  have flip_contact : ∀ r, N ≤ r → decide (r < N) = false := fun r hr => by simp [Nat.not_lt.2 hr]
  -- entries of the contact matrix
  have centry : ∀ k e s, k < l.length → e < 3 → s < N →
      cs'.C.get (3 * κ k + (2 - e)) (turnPos σ s) = - cs.C.get (3 * k + e) s := by
    intro k e s hk he hsN
    have hx : l[k]? = some l[k] := List.getElem?_eq_getElem hk
    have hx' : l'[κ k]? = some (mirrorContact σ Z l[k]) := by rw [(hκ k hk).2, hx]; rfl
    obtain ⟨l1, l2, -⟩ := contact_data hl.thick (hl.contact _ (List.getElem_mem hk))
    rw [hl.entry hx he (by omega), hl'.entry hx' (by omega) (by rw [hcount, hNN]; exact pos_lt s hsN)]
    have key : ∀ i, i < mesh.rows.length → (2 * σ i = turnPos σ s ↔ 2 * i = s) := by
      intro i hi
      unfold turnPos
      constructor
      · intro e
        have := hσinj i (s / 2) hi (by omega) (by omega)
        omega
      · intro e
        have : s / 2 = i := by omega
        rw [this]; omega
    have ei : (mirrorContact σ Z l[k]).i = σ (l[k]).j := rfl
    have ej : (mirrorContact σ Z l[k]).j = σ (l[k]).i := rfl
    rw [ei, ej]
    simp only [key _ l1, key _ l2]
    rcases (by omega : e = 0 ∨ e = 1 ∨ e = 2) with rfl | rfl | rfl
    · simp
    · simp
    · simp
  refine ⟨κ, ?_, ?_, ?_, ?_, ?_, ?_, ?_, ?_, ?_, ?_⟩
  · intro k x hx
    rw [(hκ k (List.getElem?_eq_some_iff.1 hx).1).2, hx]; rfl
  · rw [hnK]; exact hN'
  · rw [hnC0]; exact hnC'
  · intro r hr
    rw [hn] at hr ⊢
    rcases split r hr with h1 | ⟨k, e, hk, he, rfl⟩
    · rw [idx_node r h1]
      have := pos_lt r h1
      omega
    · rw [idx_contact k e he]
      have := (hκ k hk).1
      omega
  · intro r s hr hs e
    rw [hn] at hr hs
    rcases split r hr with h1 | ⟨k, e1, hk, he1, rfl⟩ <;> rcases split s hs with h2 | ⟨j, e2, hj, he2, rfl⟩
    · rw [idx_node r h1, idx_node s h2] at e
      exact pos_inj r s h1 h2 e
    · rw [idx_node r h1, idx_contact j e2 he2] at e
      have := pos_lt r h1
      omega
    · rw [idx_node s h2, idx_contact k e1 he1] at e
      have := pos_lt s h2
      omega
    · rw [idx_contact k e1 he1, idx_contact j e2 he2] at e
      have := hκi k j hk hj (by omega)
      subst this
      omega
  · intro r h1 h2
    exact flip_contact r (by rw [hnK] at h1; exact h1)
  · intro r s hr hs
    rw [hn] at hr hs
    rw [hGP]
    rcases split r hr with h1 | ⟨k, e1, hk, he1, rfl⟩ <;> rcases split s hs with h2 | ⟨j, e2, hj, he2, rfl⟩
    · rw [idx_node r h1, idx_node s h2, flip_node r h1, flip_node s h2]
      simp only [assemble, hN, hN', h1, h2, pos_lt r h1, pos_lt s h2, if_true]
      exact hP r s h1 h2
    · rw [idx_node r h1, idx_contact j e2 he2, flip_node r h1, flip_contact _ (by omega)]
      have n1 : ¬ N + (3 * j + e2) < N := by omega
      have n2 : ¬ N + (3 * κ j + (2 - e2)) < N := by omega
      simp only [assemble, hN, hN', h1, pos_lt r h1, n1, n2, if_true, if_false, Nat.add_sub_cancel_left, Bool.bne_false]
      rw [centry j e2 r hj he2 h1, Cell.flip_fin]
      rfl
    · rw [idx_node s h2, idx_contact k e1 he1, flip_node s h2, flip_contact _ (by omega)]
      have n1 : ¬ N + (3 * k + e1) < N := by omega
      have n2 : ¬ N + (3 * κ k + (2 - e1)) < N := by omega
      simp only [assemble, hN, hN', h2, pos_lt s h2, n1, n2, if_true, if_false, Nat.add_sub_cancel_left, Bool.false_bne]
      rw [centry k e1 s hk he1 h2, Cell.flip_fin]
      rfl
    · rw [idx_contact k e1 he1, idx_contact j e2 he2, flip_contact _ (by omega), flip_contact _ (by omega)]
      have n1 : ∀ k e, ¬ N + (3 * k + e) < N := fun k e => by omega
      simp only [assemble, hN, hN', n1, if_false, bne_self_eq_false]
      rfl
  · intro r hr
    rw [hn] at hr
    rw [hGq]
    rcases split r hr with h1 | ⟨k, e, hk, he, rfl⟩
    · rw [idx_node r h1]
      simp only [assemble, hN, hN', h1, pos_lt r h1, if_true]
    · rw [idx_contact k e he]
      have n1 : ∀ k e, ¬ N + (3 * k + e) < N := fun k e => by omega
      have hx : l[k]? = some l[k] := List.getElem?_eq_getElem hk
      have hx' : l'[κ k]? = some (mirrorContact σ Z l[k]) := by rw [(hκ k hk).2, hx]; rfl
      have he' : 2 - e < 3 := by omega
      simp only [assemble, hN, hN', n1, if_false, Nat.add_sub_cancel_left, List.getD_eq_getElem?_getD, hl.bound hx he, hl'.bound hx' he', hZ,
        hZ']
      obtain ⟨l1, l2, -⟩ := contact_data hl.thick (hl.contact _ (List.getElem_mem hk))
      have h3 : (σ (l[k]).j = σ (l[k]).i) ↔ ((l[k]).i = (l[k]).j) := ⟨fun e => (hσinj _ _ l2 l1 e).symm, fun e => by rw [e]⟩
      simp only [contactBounds, mirrorContact, h3]
      rcases (by omega : e = 0 ∨ e = 1 ∨ e = 2) with rfl | rfl | rfl
      · simp
      · simp only [Nat.reduceSub, List.getElem?_cons_succ, List.getElem?_cons_zero, Option.getD_some]
        split_ifs
        · rfl
        · congr 1; ring
      · simp
  · intro r hr
    rw [hn] at hr
    rcases split r hr with h1 | ⟨k, e, hk, he, rfl⟩
    · rw [idx_node r h1, hdq0 r h1]
      simp only [assemble, hN', pos_lt r h1, if_true]
    · rw [idx_contact k e he, hdq k e hk he]
      have n1 : ∀ k e, ¬ N + (3 * k + e) < N := fun k e => by omega
      have := (hκ k hk).1
      simp only [assemble, hN', n1, if_false, Nat.add_sub_cancel_left]
      rw [hl'.incr (by omega)]
      have e1 : (3 * κ k + (2 - e)) % 3 = 2 - e := by omega
      rw [e1]
      rcases (by omega : e = 0 ∨ e = 1 ∨ e = 2) with rfl | rfl | rfl <;> rfl
  · rw [hZ0]; exact hZ'

end Fibermat
