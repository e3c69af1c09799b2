import Verif.Lemmas.CellScale
import Verif.Lemmas.MeshMap
import Verif.Spec.Symmetry
import Verif.Model.Solver

/-! Assembled systems in other units. -/

set_option linter.unusedSectionVars false

namespace Fibermat
variable {K : Type} [Field K] [LinearOrder K] [IsStrictOrderedRing K]
open Spec

theorem mapM_map {α β γ δ : Type} (g : α → β) (f : α → Except Err γ) (f' : β → Except Err δ) (k : γ → δ)
    (l : List α) (h : ∀ a ∈ l, f' (g a) = (f a).map k) : (l.map g).mapM f' = (l.mapM f).map (List.map k) := by
  induction l with
  | nil => rfl
  | cons a t ih =>
    have h1 := h a (by simp)
    have h2 := ih (fun b hb => h b (List.mem_cons_of_mem _ hb))
    simp only [List.map_cons, List.mapM_cons, h1, h2]
    cases f a with
    | error e => rfl
    | ok c => cases t.mapM f <;> rfl

/-- The weight of an entry of the stiffness matrix. -/
def kWeight (α μ : K) (r c : ℕ) : K := μ * α * α ^ (r % 2) * α ^ (c % 2)

theorem kWeight_pos {α μ : K} (hα : 0 < α) (hμ : 0 < μ) (r c : ℕ) : 0 < kWeight α μ r c := by
  unfold kWeight; positivity

def scaleCoo (α μ : K) (M : Coo (Cell K)) : Coo (Cell K) :=
  { M with entries := M.entries.map (fun e => (e.1, e.2.1, Cell.sc (kWeight α μ e.1 e.2.1) e.2.2)) }

theorem scaleCoo_get {α μ : K} (M : Coo (Cell K)) (r c : ℕ) :
    (scaleCoo α μ M).get r c = Cell.sc (kWeight α μ r c) (M.get r c) := by
  unfold Coo.get scaleCoo
  rw [← Cell.sc_sum, List.filter_map, List.map_map, List.map_map]
  congr 1
  refine List.map_congr_left ?_
  intro e he
  have := (List.mem_filter.1 he).2
  simp only [Function.comp, Bool.decide_and, Bool.and_eq_true, decide_eq_true_eq] at this
  simp only [Function.comp, this.1, this.2]

theorem topCell_map (μ : K) (e : WithTop K) : topCell (e.map (fun e => μ * e)) = Cell.sc μ (topCell e) := by
  cases e <;> rfl

/-- The coefficients of a beam in other units. -/
theorem coeffs_scale {α μ : K} (hα : 0 < α) (hμ : 0 < μ) {f f' : Fiber K} (h : SameIn α μ f f') (l c : K) :
    coeffs f' (α * l) c =
      ⟨Cell.sc (μ * α) (coeffs f l c).k0, Cell.sc (μ * α ^ 2) (coeffs f l c).k1, Cell.sc (μ * α ^ 3) (coeffs f l c).k2,
        Cell.sc (μ * α ^ 3) (coeffs f l c).k4⟩ := by
  have hα0 := hα.ne'
  have hμ0 := hμ.ne'
  have hE : topCell f'.E = Cell.sc μ (topCell f.E) := by rw [h.E, topCell_map]
  have hl : (Cell.fin (α * l) : Cell K) = Cell.sc α (Cell.fin l) := rfl
  have hh : (Cell.fin f'.h : Cell K) = Cell.sc α (Cell.fin f.h) := by rw [h.h]; rfl
  have hG : (Cell.fin f'.G : Cell K) = Cell.sc μ (Cell.fin f.G) := by rw [h.G]; rfl
  have hS : (Cell.fin (npPi / 4 * (f'.G * f'.b * f'.h)) : Cell K) = Cell.sc (μ * α ^ 2) (Cell.fin (npPi / 4 * (f.G * f.b * f.h))) := by
    rw [h.G, h.b, h.h, Cell.sc_fin]; congr 1; ring
  have c1 : ∀ x : K, (Cell.fin x : Cell K) = Cell.sc 1 (Cell.fin x) := fun x => (Cell.sc_one _).symm
  have m1 := mul_pos hμ hα
  have k0 : (coeffs f' (α * l) c).k0 = Cell.sc (μ * α) (coeffs f l c).k0 := by
    simp only [coeffs]
    rw [hS, hE, hl, hh, hG, Cell.sc_div (by positivity) hα, Cell.sc_div hμ hμ, Cell.sc_div hα hα, Cell.sc_mul (by positivity) (by positivity),
      Cell.sc_mul (by positivity) (by positivity), c1 1, show μ / μ * (α / α * (α / α)) = 1 by field_simp, Cell.sc_add,
      Cell.sc_div (by positivity) one_pos]
    rw [show μ * α ^ 2 / α / 1 = μ * α by field_simp, Cell.sc_one]
  have k1 : (coeffs f' (α * l) c).k1 = Cell.sc (μ * α ^ 2) (coeffs f l c).k1 := by
    show (coeffs f' (α * l) c).k0 * Cell.fin (α * l) / Cell.fin 2 * Cell.fin c = Cell.sc _ ((coeffs f l c).k0 * Cell.fin l / Cell.fin 2 * Cell.fin c)
    rw [k0, hl, Cell.sc_mul m1 hα, c1 2, Cell.sc_div (by positivity) one_pos, c1 c, Cell.sc_mul (by positivity) one_pos,
      show μ * α * α / 1 * 1 = μ * α ^ 2 by field_simp, Cell.sc_one, Cell.sc_one]
  have k2a : (coeffs f' (α * l) c).k0 * (Cell.fin (α * l) * Cell.fin (α * l)) =
      Cell.sc (μ * α ^ 3) ((coeffs f l c).k0 * (Cell.fin l * Cell.fin l)) := by
    rw [k0, hl, Cell.sc_mul hα hα, Cell.sc_mul m1 (by positivity), show μ * α * (α * α) = μ * α ^ 3 by ring]
  have k2b : (coeffs f' (α * l) c).k0 * (topCell f'.E / Cell.fin f'.G) * (Cell.fin f'.h * Cell.fin f'.h) =
      Cell.sc (μ * α ^ 3) ((coeffs f l c).k0 * (topCell f.E / Cell.fin f.G) * (Cell.fin f.h * Cell.fin f.h)) := by
    rw [k0, hE, hG, hh, Cell.sc_div hμ hμ, Cell.sc_mul m1 (by positivity), Cell.sc_mul hα hα, Cell.sc_mul (by positivity) (by positivity),
      show μ * α * (μ / μ) * (α * α) = μ * α ^ 3 by field_simp]
  have k2 : (coeffs f' (α * l) c).k2 = Cell.sc (μ * α ^ 3) (coeffs f l c).k2 := by
    show (coeffs f' (α * l) c).k0 * (Cell.fin (α * l) * Cell.fin (α * l)) / Cell.fin 3 +
      (coeffs f' (α * l) c).k0 * (topCell f'.E / Cell.fin f'.G) * (Cell.fin f'.h * Cell.fin f'.h) =
      Cell.sc _ ((coeffs f l c).k0 * (Cell.fin l * Cell.fin l) / Cell.fin 3 +
        (coeffs f l c).k0 * (topCell f.E / Cell.fin f.G) * (Cell.fin f.h * Cell.fin f.h))
    rw [k2a, k2b, c1 3, Cell.sc_div (by positivity) one_pos, div_one, Cell.sc_add, Cell.sc_one]
  have k4 : (coeffs f' (α * l) c).k4 = Cell.sc (μ * α ^ 3) (coeffs f l c).k4 := by
    show (coeffs f' (α * l) c).k2 - (coeffs f' (α * l) c).k0 * (Cell.fin (α * l) * Cell.fin (α * l)) / Cell.fin 2 =
      Cell.sc _ ((coeffs f l c).k2 - (coeffs f l c).k0 * (Cell.fin l * Cell.fin l) / Cell.fin 2)
    rw [k2a, k2, c1 2, Cell.sc_div (by positivity) one_pos, div_one, Cell.sc_sub, Cell.sc_one]
  rw [← k0, ← k1, ← k2, ← k4]

theorem beamEntries_scale {α μ : K} (i j : ℕ) (k : Coeffs K) :
    beamEntries i j ⟨Cell.sc (μ * α) k.k0, Cell.sc (μ * α ^ 2) k.k1, Cell.sc (μ * α ^ 3) k.k2, Cell.sc (μ * α ^ 3) k.k4⟩ =
      (beamEntries i j k).map (fun e => (e.1, e.2.1, Cell.sc (kWeight α μ e.1 e.2.1) e.2.2)) := by
  have e0 : ∀ n : ℕ, 2 * n % 2 = 0 := fun n => by omega
  have e1 : ∀ n : ℕ, (2 * n + 1) % 2 = 1 := fun n => by omega
  have w0 : ∀ a b : ℕ, kWeight α μ (2 * a) (2 * b) = μ * α := fun a b => by simp [kWeight]
  have w1 : ∀ a b : ℕ, kWeight α μ (2 * a) (2 * b + 1) = μ * α ^ 2 := fun a b => by simp [kWeight, e1]; ring
  have w2 : ∀ a b : ℕ, kWeight α μ (2 * a + 1) (2 * b) = μ * α ^ 2 := fun a b => by simp [kWeight, e1]; ring
  have w3 : ∀ a b : ℕ, kWeight α μ (2 * a + 1) (2 * b + 1) = μ * α ^ 3 := fun a b => by simp [kWeight, e1]; ring
  simp only [beamEntries, List.map_cons, List.map_nil, w0, w1, w2, w3, Cell.sc_neg]

/-! ### Beam lengths -/

theorem foldl_min_scale {α : K} (hα : 0 < α) (l : List K) (a : K) :
    (l.map (fun x => α * x)).foldl min (α * a) = α * l.foldl min a := by
  induction l generalizing a with
  | nil => rfl
  | cons b t ih => simp only [List.map_cons, List.foldl_cons, ← mul_min_of_nonneg _ _ hα.le, ih]

theorem foldl_max_scale {α : K} (hα : 0 < α) (l : List K) (a : K) :
    (l.map (fun x => α * x)).foldl max (α * a) = α * l.foldl max a := by
  induction l generalizing a with
  | nil => rfl
  | cons b t ih => simp only [List.map_cons, List.foldl_cons, ← mul_max_of_nonneg _ _ hα.le, ih]

theorem npMin_scale {α : K} (hα : 0 < α) (l : List K) : npMin (l.map (fun x => α * x)) = (npMin l).map (fun x => α * x) := by
  cases l with
  | nil => rfl
  | cons a t => simp only [List.map_cons, npMin, Except.map, foldl_min_scale hα]

theorem npMax_scale {α : K} (hα : 0 < α) (l : List K) : npMax (l.map (fun x => α * x)) = (npMax l).map (fun x => α * x) := by
  cases l with
  | nil => rfl
  | cons a t => simp only [List.map_cons, npMax, Except.map, foldl_max_scale hα]

theorem interp2_scale {α : K} (hα : 0 < α) (x0 x1 y0 y1 t : K) :
    interp2 (α * x0) (α * x1) (α * y0) (α * y1) (α * t) = α * interp2 x0 x1 y0 y1 t := by
  have hα0 := hα.ne'
  simp only [interp2, mul_le_mul_iff_right₀ hα, mul_right_inj' hα0]
  split
  · rfl
  · split
    · rfl
    · rw [← mul_sub, ← mul_sub, ← mul_sub, mul_div_mul_left _ _ hα0]; ring

theorem rescale_scale {α : K} (hα : 0 < α) (lmin lmax : Option K) (ls : List K) :
    rescale (lmin.map (fun x => α * x)) (lmax.map (fun x => α * x)) (ls.map (fun x => α * x)) =
      (rescale lmin lmax ls).map (List.map (fun x => α * x)) := by
  have hmin := npMin_scale hα ls
  have hmax := npMax_scale hα ls
  cases h1 : npMin ls with
  | error e =>
    have : ls = [] := by cases ls with
      | nil => rfl
      | cons a t => simp [npMin] at h1
    subst this
    cases lmin <;> cases lmax <;> rfl
  | ok a =>
    cases h2 : npMax ls with
    | error e =>
      have : ls = [] := by cases ls with
        | nil => rfl
        | cons a t => simp [npMax] at h2
      subst this
      cases lmin <;> cases lmax <;> rfl
    | ok b =>
      rw [h1] at hmin
      rw [h2] at hmax
      simp only [Except.map] at hmin hmax
      have key : ∀ lo hi : K, (ls.map (fun x => α * x)).map (interp2 (min (α * a) (α * lo)) (max (α * b) (α * hi)) (α * lo) (α * hi)) =
          (ls.map (interp2 (min a lo) (max b hi) lo hi)).map (fun x => α * x) := by
        intro lo hi
        rw [List.map_map, List.map_map]
        refine List.map_congr_left ?_
        intro x _
        simp only [Function.comp, ← mul_min_of_nonneg _ _ hα.le, ← mul_max_of_nonneg _ _ hα.le, interp2_scale hα]
      cases lmin <;> cases lmax <;>
        simp only [rescale, Option.map, h1, h2, hmin, hmax, Bind.bind, Except.bind, pure, Except.pure, Except.map, key]

/-! ### The matrix -/

/-- `stiffness` after its checks. -/
def stiffnessCore (fs : List (Fiber K)) (rows : List (MeshRow K)) (lmin lmax : Option K) (coupling : K) :
    Except Err (Coo (Cell K)) := do
  let bs ← beams ⟨fs, {}⟩ rows
  let ls ← rescale lmin lmax (bs.map (·.l))
  return { nrows := 2 * rows.length
           ncols := 2 * rows.length
           entries := (bs.zip ls).flatMap (fun p => beamEntries p.1.i p.1.j (coeffs p.1.fiber p.2 coupling)) }

theorem stiffness_core {mat : Mat K} {mesh : Mesh K} (h1 : matCheck mat.frame = .ok ()) (h2 : meshCheck mesh.frame = .ok ())
    (lmin lmax : Option K) (coupling : K) :
    stiffness mat mesh lmin lmax coupling = stiffnessCore mat.fibers mesh.rows lmin lmax coupling := by
  unfold stiffness stiffnessCore
  rw [h1, h2]
  rfl

/-- A change of coordinates that multiplies abscissae and heights by `α`. -/
structure CoordMap.Scales (φ : CoordMap K) (α : K) : Prop where
  s : ∀ a, φ.s a = α * a
  z : ∀ a, φ.z a = α * a

theorem beams_map {α : K} {φ : CoordMap K} (hφ : φ.Scales α) (ψ : Fiber K → Fiber K) (fs : List (Fiber K)) (rows : List (MeshRow K)) :
    beams ⟨fs.map ψ, {}⟩ (rows.map φ.mesh) =
      (beams ⟨fs, {}⟩ rows).map (List.map (fun b => ⟨b.i, b.j, α * b.l, ψ b.fiber⟩)) := by
  unfold beams
  rw [List.zipIdx_map, List.filter_map]
  apply mapM_map
  rintro ⟨r, i⟩ -
  have e1 : (φ.mesh r).fiber = r.fiber := rfl
  have e2 : (φ.mesh r).beam = r.beam := rfl
  simp only [Prod.map, id, e1, e2, List.getElem?_map]
  by_cases h : r.fiber < 0
  · simp [h, Except.map]
  · simp only [h, if_false]
    cases fs[r.fiber.toNat]? with
    | none => rfl
    | some f =>
      cases rows[r.beam.toNat]? with
      | none => rfl
      | some q =>
        simp only [Option.map, Except.map, CoordMap.mesh, hφ.s, mul_sub]

theorem zip_map_both {α β γ δ : Type} (f : α → γ) (g : β → δ) (l : List α) (l' : List β) :
    (l.map f).zip (l'.map g) = (l.zip l').map (Prod.map f g) := by
  rw [List.zip_map]

theorem stiffnessCore_map {α μ : K} (hα : 0 < α) (hμ : 0 < μ) {φ : CoordMap K} (hφ : φ.Scales α) {ψ : Fiber K → Fiber K}
    (hψ : ∀ f, SameIn α μ f (ψ f)) (fs : List (Fiber K)) (rows : List (MeshRow K)) (lmin lmax : Option K) (coupling : K) :
    stiffnessCore (fs.map ψ) (rows.map φ.mesh) (lmin.map (fun x => α * x)) (lmax.map (fun x => α * x)) coupling =
      (stiffnessCore fs rows lmin lmax coupling).map (scaleCoo α μ) := by
  unfold stiffnessCore
  rw [beams_map hφ]
  cases beams ⟨fs, {}⟩ rows with
  | error e => rfl
  | ok bs =>
    have e : (bs.map (fun b : Beam K => (⟨b.i, b.j, α * b.l, ψ b.fiber⟩ : Beam K))).map (fun b => b.l) =
        (bs.map (fun b => b.l)).map (fun x => α * x) := by
      rw [List.map_map, List.map_map]; rfl
    simp only [Except.map, Bind.bind, Except.bind, e, rescale_scale hα]
    cases rescale lmin lmax (bs.map (fun b => b.l)) with
    | error e => rfl
    | ok ls =>
      simp only [pure, Except.pure, scaleCoo, List.length_map]
      congr 2
      rw [zip_map_both, List.flatMap_map, List.map_flatMap]
      refine List.flatMap_congr ?_
      rintro ⟨b, l⟩ -
      simp only [Prod.map]
      rw [coeffs_scale hα hμ (hψ b.fiber), beamEntries_scale]

/-! ### Contacts -/

/-- `constraint` after its checks, without the mesh it returns. -/
def constraintCore (fs : List (Fiber K)) (rows : List (MeshRow K)) : Except Err (Coo K × List (Cell K) × List K × K) := do
  let h ← nodeThickness ⟨fs, {}⟩ rows
  let cs ← contacts rows h
  let Z ← npMax ((rows.zip h).map (fun p => p.1.z + p.2 / 2))
  return ({ nrows := 3 * cs.length
            ncols := 2 * rows.length
            entries := cs.zipIdx.flatMap (fun p => contactEntries p.2 p.1.i p.1.j) },
          cs.flatMap (contactBounds Z), cs.flatMap (fun _ => [0, 0, 1]), Z)

theorem constraint_core {mat : Mat K} {mesh : Mesh K} (h1 : matCheck mat.frame = .ok ()) (h2 : meshCheck mesh.frame = .ok ()) :
    (constraint mat mesh).map (fun cs => (cs.C, cs.H, cs.dH, cs.Z)) = constraintCore mat.fibers mesh.rows := by
  unfold constraint constraintCore
  have e : nodeThickness mat mesh.rows = nodeThickness ⟨mat.fibers, {}⟩ mesh.rows := rfl
  rw [h1, h2, e]
  simp only [Bind.bind, Except.bind]
  cases nodeThickness ⟨mat.fibers, {}⟩ mesh.rows with
  | error e => rfl
  | ok h =>
    simp only
    cases contacts mesh.rows h with
    | error e => rfl
    | ok cs =>
      simp only
      cases npMax ((mesh.rows.zip h).map (fun p => p.1.z + p.2 / 2)) <;> rfl

theorem nodeThickness_map {α : K} (φ : CoordMap K) {ψ : Fiber K → Fiber K} (hψ : ∀ f, (ψ f).h = α * f.h)
    (fs : List (Fiber K)) (rows : List (MeshRow K)) :
    nodeThickness ⟨fs.map ψ, {}⟩ (rows.map φ.mesh) = (nodeThickness ⟨fs, {}⟩ rows).map (List.map (fun x => α * x)) := by
  unfold nodeThickness
  apply mapM_map
  intro r _
  have e1 : (φ.mesh r).fiber = r.fiber := rfl
  simp only [e1, List.getElem?_map]
  by_cases h : r.fiber < 0
  · simp [h, Except.map]
  · simp only [h, if_false]
    cases fs[r.fiber.toNat]? with
    | none => rfl
    | some f => simp only [Option.map, Except.map, hψ]

/-- A contact in other units. -/
def scaleContact (α : K) (c : Contact K) : Contact K := ⟨c.i, c.j, α * c.zi, α * c.zj, α * c.hi, α * c.hj⟩

theorem contacts_map {α : K} {φ : CoordMap K} (hφ : φ.Scales α) (rows : List (MeshRow K)) (h : List K) :
    contacts (rows.map φ.mesh) (h.map (fun x => α * x)) = (contacts rows h).map (List.map (scaleContact α)) := by
  unfold contacts
  rw [zip_map_both, List.zipIdx_map, List.filter_map]
  apply mapM_map
  rintro ⟨⟨r, t⟩, i⟩ -
  have e1 : (φ.mesh r).constraint = r.constraint := rfl
  simp only [Prod.map, id, e1, List.getElem?_map]
  cases (rows.zip h)[r.constraint.toNat]? with
  | none => rfl
  | some q =>
    obtain ⟨q1, q2⟩ := q
    simp only [Option.map, Prod.map, Except.map, CoordMap.mesh, hφ.z, scaleContact]

theorem contactBounds_scale (α Z : K) (c : Contact K) :
    contactBounds (α * Z) (scaleContact α c) = (contactBounds Z c).map (Cell.sc α) := by
  unfold contactBounds scaleContact
  simp only [List.map_cons, List.map_nil]
  congr 1
  · rw [Cell.sc_fin]; congr 1; ring
  · congr 1
    · split
      · rfl
      · rw [Cell.sc_fin]; congr 1; ring
    · rw [Cell.sc_fin]; congr 2; ring

theorem constraintCore_map {α : K} (hα : 0 < α) {φ : CoordMap K} (hφ : φ.Scales α) {ψ : Fiber K → Fiber K}
    (hψ : ∀ f, (ψ f).h = α * f.h) (fs : List (Fiber K)) (rows : List (MeshRow K)) :
    constraintCore (fs.map ψ) (rows.map φ.mesh) =
      (constraintCore fs rows).map (fun p => (p.1, p.2.1.map (Cell.sc α), p.2.2.1, α * p.2.2.2)) := by
  unfold constraintCore
  rw [nodeThickness_map φ hψ]
  cases nodeThickness ⟨fs, {}⟩ rows with
  | error e => rfl
  | ok h =>
    simp only [Except.map, Bind.bind, Except.bind, contacts_map hφ]
    cases contacts rows h with
    | error e => rfl
    | ok cs =>
      have e : ((rows.map φ.mesh).zip (h.map (fun x => α * x))).map (fun p => p.1.z + p.2 / 2) =
          ((rows.zip h).map (fun p => p.1.z + p.2 / 2)).map (fun x => α * x) := by
        rw [zip_map_both, List.map_map, List.map_map]
        refine List.map_congr_left ?_
        rintro ⟨r, t⟩ -
        simp only [Function.comp, Prod.map, CoordMap.mesh, hφ.z]
        ring
      simp only [e, npMax_scale hα]
      cases npMax ((rows.zip h).map (fun p => p.1.z + p.2 / 2)) with
      | error e => rfl
      | ok Z =>
        simp only [Except.map, pure, Except.pure, List.length_map, List.zipIdx_map, List.flatMap_map, List.map_flatMap, contactBounds_scale]
        rfl

end Fibermat
