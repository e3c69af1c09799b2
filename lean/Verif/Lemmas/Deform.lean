import Verif.Lemmas.Constraint
import Verif.Props.FrameChecks
import Verif.Props.Stiffness
import Verif.Model.Solver

/-! Lemmas on the deformed mesh. -/

set_option linter.unusedSectionVars false
set_option linter.unusedSimpArgs false

namespace Fibermat
variable {K : Type} [Field K] [LinearOrder K]
open Spec

variable {mat : Mat K} {mesh : Mesh K} {u : ℕ → K}

theorem deform_getElem? (mesh : Mesh K) (u : ℕ → K) (i : ℕ) :
    (mesh.deform u).rows[i]? = (mesh.rows[i]?).map (fun r => { r with z := r.z + u (2 * i) }) := by
  simp [Mesh.deform]

theorem deform_length (mesh : Mesh K) (u : ℕ → K) : (mesh.deform u).rows.length = mesh.rows.length := by
  simp [Mesh.deform]

/-- Columns other than `z` are unchanged. -/
theorem deform_map {β : Type} (g : MeshRow K → β) (hg : ∀ r z, g { r with z := z } = g r) :
    (mesh.deform u).rows.map g = mesh.rows.map g := by
  apply List.ext_getElem?
  intro i
  rw [List.getElem?_map, List.getElem?_map, deform_getElem?]
  cases mesh.rows[i]? with
  | none => rfl
  | some r => simp [hg]

theorem deform_nodeHeight {i : ℕ} (hi : i < mesh.rows.length) :
    nodeHeight (mesh.deform u).rows i = nodeHeight mesh.rows i + u (2 * i) := by
  unfold nodeHeight
  rw [deform_getElem?, List.getElem?_eq_getElem hi]
  rfl

theorem deform_nodeThick (i : ℕ) : nodeThick mat (mesh.deform u).rows i = nodeThick mat mesh.rows i := by
  unfold nodeThick
  rw [deform_getElem?]
  cases mesh.rows[i]? <;> rfl

theorem deform_first {i : ℕ} : FirstOnFiber (mesh.deform u).rows i ↔ FirstOnFiber mesh.rows i := by
  simp only [FirstOnFiber, deform_getElem?, Option.map_eq_some_iff]
  constructor
  · rintro ⟨r, ⟨r0, h1, rfl⟩, h2⟩
    exact ⟨r0, h1, fun j p hj hp => h2 j { p with z := p.z + u (2 * j) } hj ⟨p, hp, rfl⟩⟩
  · rintro ⟨r0, h1, h2⟩
    refine ⟨_, ⟨r0, h1, rfl⟩, ?_⟩
    rintro j _ hj ⟨p, hp, rfl⟩
    exact h2 j p hj hp

theorem deform_last {i : ℕ} : LastOnFiber (mesh.deform u).rows i ↔ LastOnFiber mesh.rows i := by
  simp only [LastOnFiber, deform_getElem?, Option.map_eq_some_iff]
  constructor
  · rintro ⟨r, ⟨r0, h1, rfl⟩, h2⟩
    exact ⟨r0, h1, fun j p hj hp => h2 j { p with z := p.z + u (2 * j) } hj ⟨p, hp, rfl⟩⟩
  · rintro ⟨r0, h1, h2⟩
    refine ⟨_, ⟨r0, h1, rfl⟩, ?_⟩
    rintro j _ hj ⟨p, hp, rfl⟩
    exact h2 j p hj hp

theorem deform_beams : BeamsCyclic (mesh.deform u).rows ↔ BeamsCyclic mesh.rows := by
  simp [BeamsCyclic, CyclicNext, deform_getElem?, deform_first, deform_last]

theorem deform_constraints : ConstraintsReciprocal (mesh.deform u).rows ↔ ConstraintsReciprocal mesh.rows := by
  simp [ConstraintsReciprocal, deform_getElem?]

theorem deform_ends : EndsFree (mesh.deform u).rows ↔ EndsFree mesh.rows := by
  simp [EndsFree, deform_getElem?, deform_first, deform_last]

theorem deform_sorted : NodesSorted (mesh.deform u).rows ↔ NodesSorted mesh.rows := by
  have h : ∀ rows : List (MeshRow K), NodesSorted rows ↔
      (rows.map (fun r => (r.fiber, r.s))).Pairwise (fun p q => p.1 < q.1 ∨ (p.1 = q.1 ∧ p.2 ≤ q.2)) := by
    intro rows
    rw [List.pairwise_map]
    rfl
  rw [h, h, deform_map _ (fun _ _ => rfl)]

theorem deform_forall {p : MeshRow K → Prop} (hp : ∀ r z, p { r with z := z } ↔ p r) :
    (∀ r ∈ (mesh.deform u).rows, p r) ↔ ∀ r ∈ mesh.rows, p r := by
  have h : ∀ rows : List (MeshRow K), (∀ r ∈ rows, p r) ↔ ∀ x ∈ rows.map p, x := by
    intro rows
    rw [List.forall_mem_map]
  rw [h, h, deform_map p (fun r z => propext (hp r z))]

/-- The checks do not look at the heights. -/
theorem deform_check : meshCheck (mesh.deform u).frame = meshCheck mesh.frame := by
  have hr : ∀ m : Mesh K, m.frame.rows.map Prod.snd = m.rows := rows_meshFrame
  by_cases hs : Skipped mesh.attrs
  · rw [C28_skip mesh.frame hs, C28_skip (mesh.deform u).frame hs]
  · apply decides_unique (C28_meshCheck_decides _ hs)
    have := C28_meshCheck_decides mesh.frame hs
    convert this using 1
    simp only [meshConditions, hr, deform_length]
    have e1 : LabelsInOrder (mesh.deform u).frame.rows = LabelsInOrder mesh.frame.rows := by
      simp only [LabelsInOrder, Mesh.frame]
      simp [deform_length, Function.comp_def]
    have e2 : (∀ r ∈ (mesh.deform u).rows, ∀ n, (mesh.deform u).frame.attrs.n = some n → 0 ≤ r.fiber ∧ r.fiber < n) =
        (∀ r ∈ mesh.rows, ∀ n, mesh.frame.attrs.n = some n → 0 ≤ r.fiber ∧ r.fiber < n) :=
      propext (deform_forall (fun _ _ => Iff.rfl))
    have e3 : (∀ r ∈ (mesh.deform u).rows, 0 ≤ r.beam ∧ r.beam < mesh.rows.length) =
        (∀ r ∈ mesh.rows, 0 ≤ r.beam ∧ r.beam < mesh.rows.length) := propext (deform_forall (fun _ _ => Iff.rfl))
    have e4 : (∀ r ∈ (mesh.deform u).rows, 0 ≤ r.constraint ∧ r.constraint < mesh.rows.length) =
        (∀ r ∈ mesh.rows, 0 ≤ r.constraint ∧ r.constraint < mesh.rows.length) := propext (deform_forall (fun _ _ => Iff.rfl))
    rw [e1, e2, e3, e4, propext deform_sorted, propext deform_beams, propext deform_constraints, propext deform_ends]
    rfl

theorem deform_labels : LabelsInOrder (mesh.deform u).frame.rows ↔ LabelsInOrder mesh.frame.rows := by
  simp only [LabelsInOrder, Mesh.frame]
  simp [deform_length, Function.comp_def]

theorem deform_valid : ValidMesh (mesh.deform u).frame ↔ ValidMesh mesh.frame := by
  have hr : ∀ m : Mesh K, m.frame.rows.map Prod.snd = m.rows := rows_meshFrame
  have hf : ∀ m : Mesh K, (∀ r ∈ m.frame.rows, ∀ n, m.frame.attrs.n = some n → 0 ≤ r.2.fiber ∧ r.2.fiber < n) ↔
      ∀ r ∈ m.rows, ∀ n, m.attrs.n = some n → 0 ≤ r.fiber ∧ r.fiber < n := by
    intro m
    rw [← hr m, List.forall_mem_map]
    rfl
  have hd : (∀ r ∈ (mesh.deform u).rows, ∀ n, (mesh.deform u).attrs.n = some n → 0 ≤ r.fiber ∧ r.fiber < n) ↔
      ∀ r ∈ mesh.rows, ∀ n, mesh.attrs.n = some n → 0 ≤ r.fiber ∧ r.fiber < n := deform_forall (fun _ _ => Iff.rfl)
  constructor
  · rintro ⟨a, b, c, d, d', e, g, h, i, j⟩
    rw [hr] at g h i j
    refine ⟨a, b, deform_labels.1 c, d, d', (hf _).2 (hd.1 ((hf _).1 e)), ?_, ?_, ?_, ?_⟩ <;> rw [hr]
    exacts [deform_sorted.1 g, deform_beams.1 h, deform_constraints.1 i, deform_ends.1 j]
  · rintro ⟨a, b, c, d, d', e, g, h, i, j⟩
    rw [hr] at g h i j
    refine ⟨a, b, deform_labels.2 c, d, d', (hf _).2 (hd.2 ((hf _).1 e)), ?_, ?_, ?_, ?_⟩ <;> rw [hr]
    exacts [deform_sorted.2 g, deform_beams.2 h, deform_constraints.2 i, deform_ends.2 j]

theorem deform_zipIdx (mesh : Mesh K) (u : ℕ → K) : (mesh.deform u).rows.zipIdx =
    mesh.rows.zipIdx.map (fun p => ({ p.1 with z := p.1.z + u (2 * p.2) }, p.2)) := by
  apply List.ext_getElem?
  intro i
  rw [List.getElem?_map, List.getElem?_zipIdx, List.getElem?_zipIdx, deform_getElem?]
  cases mesh.rows[i]? with
  | none => rfl
  | some r => simp

/-- The stiffness matrix does not depend on the heights. -/
theorem deform_stiffness (lmin lmax : Option K) (c : K) :
    stiffness mat (mesh.deform u) lmin lmax c = stiffness mat mesh lmin lmax c := by
  have e : beams mat (mesh.deform u).rows = beams mat mesh.rows := by
    unfold beams
    rw [deform_zipIdx, List.filter_map, List.mapM_map]
    congr 1
    funext p
    simp only [Function.comp_def, deform_getElem?]
    generalize (if p.1.fiber < 0 then none else mat.fibers[p.1.fiber.toNat]?) = f
    cases mesh.rows[p.1.beam.toNat]? <;> cases f <;> rfl
  unfold stiffness
  rw [deform_check, e, deform_length]

theorem deform_thickness : nodeThickness mat (mesh.deform u).rows = nodeThickness mat mesh.rows := by
  have h : ∀ rows : List (MeshRow K), nodeThickness mat rows = (rows.map (·.fiber)).mapM (fun r =>
      match (if r < 0 then none else mat.fibers[r.toNat]?) with
      | some f => Except.ok f.h
      | none => Except.error Err.keyError) := by
    intro rows
    rw [List.mapM_map]
    rfl
  rw [h, h, deform_map _ (fun _ _ => rfl)]

/-- A contact of the deformed mesh. -/
def Contact.move (u : ℕ → K) (x : Contact K) : Contact K :=
  { x with zi := x.zi + u (2 * x.i), zj := x.zj + u (2 * x.j) }

theorem deform_zip (mesh : Mesh K) (u : ℕ → K) (hs : List K) (i : ℕ) : ((mesh.deform u).rows.zip hs)[i]? =
    ((mesh.rows.zip hs)[i]?).map (fun p => ({ p.1 with z := p.1.z + u (2 * i) }, p.2)) := by
  simp only [List.zip, List.getElem?_zipWith, deform_getElem?]
  cases mesh.rows[i]? <;> cases hs[i]? <;> rfl

theorem deform_contacts {hs : List K} {l : List (Contact K)} (h : contacts mesh.rows hs = .ok l) :
    contacts (mesh.deform u).rows hs = .ok (l.map (Contact.move u)) := by
  unfold contacts at h ⊢
  have e : ((mesh.deform u).rows.zip hs).zipIdx = (mesh.rows.zip hs).zipIdx.map
      (fun p => (({ p.1.1 with z := p.1.1.z + u (2 * p.2) }, p.1.2), p.2)) := by
    apply List.ext_getElem?
    intro i
    rw [List.getElem?_map, List.getElem?_zipIdx, List.getElem?_zipIdx, deform_zip]
    cases (mesh.rows.zip hs)[i]? with
    | none => rfl
    | some r => simp
  rw [e, List.filter_map, mapM_forall₂, List.forall₂_map_left_iff, List.forall₂_map_right_iff]
  rw [mapM_forall₂] at h
  refine h.imp ?_
  intro p x hx
  simp only [deform_zip]
  cases hq : (mesh.rows.zip hs)[p.1.1.constraint.toNat]? with
  | none => rw [hq] at hx; cases hx
  | some q =>
    rw [hq] at hx
    cases hx
    rfl

end Fibermat
