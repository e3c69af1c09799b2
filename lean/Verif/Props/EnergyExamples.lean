import Verif.Props.SolverEnergy
import Verif.Props.SolverStopExamples

/-! # Concrete cases for C65-C71 -/

set_option linter.unusedSimpArgs false

namespace Fibermat
open Spec

/-- Lengths of the two crossing fibers. -/
theorem duo_lengths : BeamLengths duoMesh.rows none none (beamLength duoMesh.rows) := by
  obtain ⟨Km, h⟩ := duo_stiffness
  obtain ⟨-, ⟨L, hL⟩, -, hraw⟩ := C65_lengths h
  intro m M hb i hi
  have h1 := hraw rfl rfl L hL i hi
  have h2 := hL m M hb i hi
  rwa [h1] at h2

/-- C65: hypotheses met, and the documented entry `G A / l / (1 + (G / E) (l / h)²)` of the first beam (`l = 5`, `b = h = G = 1`, `E = 2`). -/
example : ∃ Km, stiffness duoMat duoMesh none none (1 : ℚ) = .ok Km ∧ Km.get 0 2 = .fin (- (npPi / 4 / 5 / (1 + 1 / 2 * 5 ^ 2))) ∧
    Km.get 0 2 = .fin (assembledEntry duoMat duoMesh.rows 1 (beamLength duoMesh.rows) 0 2) := by
  obtain ⟨Km, h⟩ := duo_stiffness
  refine ⟨Km, h, ?_, C65_entries h duoMat_good duoMat_tensile duoMesh_lengths duo_lengths 0 2⟩
  obtain ⟨f, hf, he⟩ := C66_transverse h duoMat_good duoMesh_lengths duo_lengths duoMesh_beam
  have hs : succNode duoMesh.rows 0 = 1 := rfl
  rw [hs] at he
  rw [he]
  congr 1
  have : f = duoMat.fibers[0]'(by decide) := by
    have h2 : nodeFiber duoMat duoMesh.rows 0 = some (duoMat.fibers[0]'(by decide)) := rfl
    rw [h2] at hf; exact (Option.some.inj hf).symm
  subst this
  have hl : beamLength duoMesh.rows 0 = 5 := by decide +kernel
  have ht : transverse (duoMat.fibers[0]'(by decide)) (5 : ℚ) = (5 / (1 * sectionArea (duoMat.fibers[0]'(by decide))) +
      5 ^ 3 / (2 * sectionArea (duoMat.fibers[0]'(by decide)) * 1 ^ 2))⁻¹ := rfl
  have hA : sectionArea (duoMat.fibers[0]'(by decide)) = npPi / 4 * (1 * 1) := rfl
  rw [hl, ht, hA]
  have : (npPi : ℚ) ≠ 0 := by decide +kernel
  field_simp
  norm_num

/-- C65: lengths rescaled to `[1, 3]`; the beams have length 5, which is mapped to the upper bound. -/
example : ∃ Km L, stiffness duoMat duoMesh (some 1) (some 3) (1 : ℚ) = .ok Km ∧ BeamLengths duoMesh.rows (some 1) (some 3) L ∧
    L 0 = 3 := by
  obtain ⟨Km, h⟩ := C35_stiffness_total (some 1) (some 3) (1 : ℚ) duoMat_good duoMesh_valid duoMesh_over.1 ⟨0, duoMesh_beam⟩
  obtain ⟨⟨m, M, hb⟩, ⟨L, hL⟩, -, -⟩ := C65_lengths h
  refine ⟨Km, L, h, hL, ?_⟩
  have hraw : ∀ i, StartsBeam duoMesh.rows i → beamLength duoMesh.rows i = 5 := by
    rintro i ⟨r, hr, hlt⟩
    have hi : i < 6 := (List.getElem?_eq_some_iff.1 hr).1
    interval_cases i <;> simp [duoMesh] at hr <;> subst hr <;> simp at hlt <;> decide +kernel
  obtain ⟨i, hi, rfl⟩ := hb.least.1
  obtain ⟨j, hj, rfl⟩ := hb.greatest.1
  have h1 := (hL _ _ hb 0 duoMesh_beam).1
  simp only [hraw i hi, hraw j hj, hraw 0 duoMesh_beam, Option.getD_some] at h1
  rw [h1 (by norm_num)]
  norm_num

/-- C65: the energy of a unit displacement of node 0 of the two crossing fibers. -/
example : ∃ Km M, stiffness duoMat duoMesh none none (1 : ℚ) = .ok Km ∧ Entries Km M ∧
    energy 12 M (fun r => if r = 0 then 1 else 0) =
      elasticEnergy duoMat duoMesh.rows 1 (beamLength duoMesh.rows) (fun r => if r = 0 then 1 else 0) := by
  obtain ⟨Km, h⟩ := duo_stiffness
  obtain ⟨M, hM, -⟩ := C31_positive h duoMat_good duoMat_tensile duoMesh_lengths (by simp)
  exact ⟨Km, M, h, hM, C65_energy h duoMat_good duoMesh_lengths duo_lengths _ M (fun r s _ _ => hM r s)⟩

/-- C66: subdivision of a fiber of infinite tensile modulus: `10 / (G A)` for two beams of length 5. -/
example : ∃ Km, stiffness rigidMat duoMesh none none (1 : ℚ) = .ok Km ∧ ∃ N : ℕ → ℕ → ℚ,
    (∀ i j, Km.get (2 * i) (2 * j) = .fin (N i j)) ∧
    ∑ i ∈ beamsOf duoMesh.rows 0, (- N i (succNode duoMesh.rows i))⁻¹ =
      (∑ i ∈ beamsOf duoMesh.rows 0, beamLength duoMesh.rows i) / (1 * (npPi / 4 * (1 * 1))) := by
  obtain ⟨Km, h⟩ := rigid_stiffness
  obtain ⟨bl, has, hpos, -, -⟩ := assembled_lengths h
  have hN : ∀ i j, Km.get (2 * i) (2 * j) = .fin (table duoMesh.rows (1 : ℚ) bl (2 * i) (2 * j)) :=
    fun i j => has.disp rigidMat_good (hpos duoMesh_lengths) (Or.inl (by omega))
  refine ⟨Km, h, _, hN, ?_⟩
  exact C66_subdivision h rigidMat_good duoMesh_lengths (k := 0) (f := ⟨10, 1, 1, 0, 0, 1 / 2, 1, 0, 0, 1, ⊤⟩) rfl rfl _ hN

/-! ## The pressed arch -/

theorem arch_lengths : BeamLengths archMesh.rows none none (beamLength archMesh.rows) := by
  obtain ⟨Km, h⟩ := C35_stiffness_total none none (1 / 2 : ℚ) duoMat_good archMesh_valid archMesh_over.1 ⟨0, archMesh_beam⟩
  obtain ⟨-, ⟨L, hL⟩, -, hraw⟩ := C65_lengths h
  intro m M hb i hi
  have h1 := hraw rfl rfl L hL i hi
  have h2 := hL m M hb i hi
  rwa [h1] at h2

set_option synthInstance.maxSize 1000 in
set_option synthInstance.maxHeartbeats 200000 in
/-- Plate positions and all contact forces of the run. -/
theorem arch_forces : ∃ S recs, solve duoMat archMesh none none (1 / 2) archOpts none = .ok (S, recs, .blocked) ∧
    recs.map (fun a => (a.Z, (List.range 15).map (fun j => a.x (12 + j)))) =
      [(11 / 4, [0, 0, 0, 0, 0, 0, 0, 0, 0, 0, 0, 0, 0, 0, 0]), (5 / 2, [0, 0, 0, 0, 0, 0, 0, 0, 0, 0, 0, 0, 0, 0, 0]),
       (2, [74456352340099331 / 15078051552436420608, 0, 0, 0, 74456352340099331 / 7539025776218210304,
            74456352340099331 / 7539025776218210304, 74456352340099331 / 15078051552436420608, 0, 0, 0, 0, 0, 0, 0, 0])] := by
  have hx : (solve duoMat archMesh none none (1 / 2) archOpts none).toOption.map (fun r =>
      (r.2.1.map (fun a => (a.Z, (List.range 15).map (fun j => a.x (12 + j)))), r.2.2)) = some (
      [(11 / 4, [0, 0, 0, 0, 0, 0, 0, 0, 0, 0, 0, 0, 0, 0, 0]), (5 / 2, [0, 0, 0, 0, 0, 0, 0, 0, 0, 0, 0, 0, 0, 0, 0]),
       (2, [74456352340099331 / 15078051552436420608, 0, 0, 0, 74456352340099331 / 7539025776218210304,
            74456352340099331 / 7539025776218210304, 74456352340099331 / 15078051552436420608, 0, 0, 0, 0, 0, 0, 0, 0])],
      .blocked) := by
    decide +kernel
  cases h : solve duoMat archMesh none none (1 / 2) archOpts none with
  | error e => rw [h] at hx; cases hx
  | ok r =>
    rw [h] at hx
    obtain ⟨S, recs, stop⟩ := r
    simp only [Except.toOption, Option.map_some, Option.some.injEq, Prod.mk.injEq] at hx
    obtain ⟨h1, rfl⟩ := hx
    exact ⟨S, recs, rfl, h1⟩

/-- C67-C71 applied to the last record: forces of both plates, energy, minimum of the energy (all contact forces are
non-negative). -/
example : ∃ S recs cs a b c, solve duoMat archMesh none none (1 / 2) archOpts none = .ok (S, recs, .blocked) ∧
    constraint duoMat archMesh = .ok cs ∧ recs[0]? = some a ∧ recs[1]? = some b ∧ recs[2]? = some c ∧ c.x 16 ≠ 0 ∧
    (∀ m, ∑ i ∈ nodesOf archMesh.rows m, contactForce cs.C (fun j => c.x (12 + j)) i = 0) ∧
    totalForce cs.C (fun j => c.x (12 + j)) 0 = totalForce cs.C (fun j => c.x (12 + j)) 2 ∧
    elasticEnergy duoMat archMesh.rows (1 / 2) (beamLength archMesh.rows) c.x -
      elasticEnergy duoMat archMesh.rows (1 / 2) (beamLength archMesh.rows) b.x =
      (totalForce cs.C (fun j => b.x (12 + j)) 2 + totalForce cs.C (fun j => c.x (12 + j)) 2) * (5 / 2 - 2) ∧
    (totalForce cs.C (fun j => b.x (12 + j)) 2 - totalForce cs.C (fun j => a.x (12 + j)) 2) / (a.Z - b.Z) ≤
      (totalForce cs.C (fun j => c.x (12 + j)) 2 - totalForce cs.C (fun j => b.x (12 + j)) 2) / (b.Z - c.Z) ∧
    (∀ w, Guided duoMat archMesh.rows w → (∀ j, j < cs.C.nrows → c.x (12 + j) ≠ 0 → rowDot cs.C j w = rowDot cs.C j c.x) →
      elasticEnergy duoMat archMesh.rows (1 / 2) (beamLength archMesh.rows) c.x ≤
        elasticEnergy duoMat archMesh.rows (1 / 2) (beamLength archMesh.rows) w) ∧
    ∀ w, Guided duoMat archMesh.rows w → NonPenetrating duoMat archMesh.rows 2 w →
      elasticEnergy duoMat archMesh.rows (1 / 2) (beamLength archMesh.rows) c.x ≤
        elasticEnergy duoMat archMesh.rows (1 / 2) (beamLength archMesh.rows) w +
          2 * (1 / 1000) * ∑ j ∈ Finset.range cs.C.nrows, c.x (12 + j) := by
  obtain ⟨S, recs, h, h2⟩ := arch_forces
  obtain ⟨cs, hC, -, hn, hadm⟩ := arch_constraint
  have hl : recs.length = 3 := by simpa using congrArg List.length h2
  have hp : PermOf S.n none := by rintro p ⟨⟩
  have ht : (0 : ℚ) ≤ archOpts.tol := by norm_num [archOpts]
  have hc1 : |(1 / 2 : ℚ)| ≤ 1 := by rw [abs_of_pos] <;> norm_num
  have h0 : recs[0]? = some (recs[0]'(by omega)) := List.getElem?_eq_getElem _
  have h1 : recs[1]? = some (recs[1]'(by omega)) := List.getElem?_eq_getElem _
  have h3 : recs[2]? = some (recs[2]'(by omega)) := List.getElem?_eq_getElem _
  generalize recs[0] = a at h0
  generalize recs[1] = b at h1
  generalize recs[2] = c at h3
  have hc := congrArg (fun l => l[2]?) h2
  have hb := congrArg (fun l => l[1]?) h2
  simp only [List.getElem?_map, h3, h1, Option.map_some, List.getElem?_cons_succ, List.getElem?_cons_zero, Option.some.injEq,
    Prod.mk.injEq] at hc hb
  obtain ⟨hcZ, hcf⟩ := hc
  have hbZ := hb.1
  have hval : ∀ j, j < 15 → c.x (12 + j) = [74456352340099331 / 15078051552436420608, 0, 0, 0, 74456352340099331 / 7539025776218210304,
      74456352340099331 / 7539025776218210304, 74456352340099331 / 15078051552436420608, 0, 0, 0, 0, 0, 0, 0, 0].getD j 0 := by
    intro j hj
    rw [← hcf]
    simp [List.getD_eq_getElem?_getD, hj]
  refine ⟨S, recs, cs, a, b, c, h, hC, h0, h1, h3, ?_, ?_, ?_, ?_, ?_, ?_, ?_⟩
  · rw [hval 4 (by omega)]; norm_num
  · exact C67_fiber h duoMat_good archMesh_valid archMesh_lengths ht (lookup_exact _) hp hC 2 c h3
  · exact C67_plates h duoMat_good archMesh_lengths ht (lookup_exact _) hp hC 2 c h3
  · have := C68_work h duoMat_good archMesh_lengths ht (lookup_exact _) hp hC arch_lengths 1 b c h1 h3
    rw [hbZ, hcZ] at this
    exact this
  · exact C69_stiffening h duoMat_good archMesh_lengths ht (lookup_exact _) hp hc1 hC 0 a b c h0 h1 h3
  · intro w hw hs
    exact C70_least_energy h duoMat_good archMesh_valid archMesh_lengths ht (lookup_exact _) hp hc1 hC arch_lengths 2 c h3 w hw hs
  · intro w hw hs
    refine C71_minimum h duoMat_good archMesh_valid archMesh_lengths ht (lookup_exact _) hp hc1 hC arch_lengths 2 c h3 ?_ w hw
      (by rw [hcZ]; exact hs)
    intro j hj
    rw [hn] at hj
    have := hval j hj
    change 0 ≤ c.x (12 + j)
    rw [this]
    interval_cases j <;> norm_num

/-! ## An executable exact linear solver -/

/-- A step of Gauss-Jordan elimination on rows `coefficients ++ [right-hand side]`: pivot on column `c`. -/
def pivotOn (c : ℕ) (done todo : List (List ℚ)) : Option (List (List ℚ) × List (List ℚ)) :=
  match todo.find? (fun r => decide (r.getD c 0 ≠ 0)) with
  | none => none
  | some p =>
    let p' := p.map (· / p.getD c 0)
    let sub := fun r : List ℚ => List.zipWith (fun a b => a - r.getD c 0 * b) r p'
    some (done.map sub ++ [p'], (todo.erase p).map sub)

/-- Elimination of `n` columns from column `c` on. -/
def eliminate : ℕ → ℕ → List (List ℚ) → List (List ℚ) → Option (List (List ℚ))
  | 0, _, done, _ => some done
  | n + 1, c, done, todo => (pivotOn c done todo).bind (fun r => eliminate n (c + 1) r.1 r.2)

def finPart : Cell ℚ → ℚ
  | .fin a => a
  | _ => 0

/-- Gauss-Jordan elimination, its answer being checked. -/
def gauss : LinSolver ℚ := fun A b =>
  match eliminate b.length 0 [] (List.zipWith (fun r c => r.map finPart ++ [c]) A b) with
  | none => none
  | some rows => lookup [rows.map (fun r => r.getD b.length 0)] A b

theorem gauss_exact : ExactLin gauss := by
  intro A b x hsq h
  unfold gauss at h
  split at h
  · cases h
  · exact lookup_exact _ A b x hsq h

/-! ## A lever: contact forces that pull -/

/-- A thin fiber and a thick one. -/
def leverMat : Mat ℚ :=
  { fibers := [⟨10, 1, 1, 0, 0, 1 / 2, 1, 0, 0, 1, ((1 : ℚ) : WithTop ℚ)⟩,
               ⟨10, 1, 3 / 2, 0, 0, 3 / 4, 0, 1, 0, 1, ((1 : ℚ) : WithTop ℚ)⟩]
    attrs := { n := some 2, size := some 20, periodic := some true } }

/-- The thin fiber lies on the floor with its first half, the end of the other half is raised; the thick fiber lies apart. -/
def leverMesh : Mesh ℚ :=
  { duoMesh with
    attrs := leverMat.attrs
    rows := [⟨0, -5, -5, 0, 1 / 2, 1, 0⟩, ⟨0, 0, 0, 0, 1 / 2, 2, 1⟩, ⟨0, 5, 5, 0, 3 / 2, 0, 2⟩,
             ⟨1, -5, 8, -5, 3 / 4, 4, 3⟩, ⟨1, 5, 8, 5, 3 / 4, 3, 4⟩] }

def leverOpts : Opts ℚ :=
  { packing := .pinf, itermax := 10, tol := 0, errtol := 0, perm := [], lin := gauss }

theorem leverMat_good : GoodMat leverMat :=
  ((matCheck_frame_iff _).1 (by decide +kernel)).resolve_left (by simp [Skipped, leverMat])

theorem leverMesh_valid : ValidMesh leverMesh.frame :=
  ((C28_meshCheck_iff _).1 (by decide +kernel)).resolve_left (by simp [Skipped, leverMesh, leverMat, Mesh.frame])

theorem leverMesh_beams {i : ℕ} (h : StartsBeam leverMesh.rows i) : i = 0 ∨ i = 1 ∨ i = 3 := by
  obtain ⟨r, hr, h⟩ := h
  have hi : i < 5 := (List.getElem?_eq_some_iff.1 hr).1
  interval_cases i <;> simp [leverMesh] at hr <;> subst hr <;> simp at h <;> simp

theorem leverMesh_lengths : PositiveLengths leverMesh.rows none none := by
  refine positiveLengths_raw ?_
  intro i h
  rcases leverMesh_beams h with rfl | rfl | rfl <;> decide +kernel

set_option synthInstance.maxSize 1000 in
set_option synthInstance.maxHeartbeats 200000 in
/-- The plate goes down to the thick fiber, bending the lever. -/
theorem lever_run : ∃ S recs, solve leverMat leverMesh none none 1 leverOpts none = .ok (S, recs, .blocked) ∧
    recs.map (fun a => (a.Z, (List.range 25).map a.x)) = [(2, List.replicate 25 0),
      (3 / 2, [0, 19 / 1120, 0, -1 / 20, -1 / 2, -131 / 1120, 0, 0, 0, 0, -934809988660901 / 1873497444986126336, 0, 0,
        934809988660901 / 936748722493063168, 0, 0, 0, 0, 934809988660901 / 1873497444986126336, 0, 0, 0, 0, 0, 0])] := by
  have hx : (solve leverMat leverMesh none none 1 leverOpts none).toOption.map (fun r =>
      (r.2.1.map (fun a => (a.Z, (List.range 25).map a.x)), r.2.2)) = some ([(2, List.replicate 25 0),
      (3 / 2, [0, 19 / 1120, 0, -1 / 20, -1 / 2, -131 / 1120, 0, 0, 0, 0, -934809988660901 / 1873497444986126336, 0, 0,
        934809988660901 / 936748722493063168, 0, 0, 0, 0, 934809988660901 / 1873497444986126336, 0, 0, 0, 0, 0, 0])],
      .blocked) := by
    decide +kernel
  cases h : solve leverMat leverMesh none none 1 leverOpts none with
  | error e => rw [h] at hx; cases hx
  | ok r =>
    rw [h] at hx
    obtain ⟨S, recs, stop⟩ := r
    simp only [Except.toOption, Option.map_some, Option.some.injEq, Prod.mk.injEq] at hx
    obtain ⟨h1, rfl⟩ := hx
    exact ⟨S, recs, rfl, h1⟩

theorem lever_lengths : BeamLengths leverMesh.rows none none (beamLength leverMesh.rows) := by
  obtain ⟨S, recs, h, -⟩ := lever_run
  obtain ⟨Km, -, hK, -⟩ := solve_run h
  obtain ⟨-, ⟨L, hL⟩, -, hraw⟩ := C65_lengths hK
  intro m M hb i hi
  have h1 := hraw rfl rfl L hL i hi
  have h2 := hL m M hb i hi
  rwa [h1] at h2

/-- The hypothesis of C71 that no contact force is negative cannot be dropped, even with `tol = 0`: the floor holds down the end of
the lever, while turning the lever about its middle would be admissible and cost no energy.  So the recorded displacements do not
minimise the energy, and the contact forces pull. -/
theorem C71_pulling : ∃ (mat : Mat ℚ) (mesh : Mesh ℚ) (o : Opts ℚ) (S : Sys ℚ) (recs : List (Rec ℚ)) (stop : Stop)
    (cs : ConstraintSys ℚ) (L : ℕ → ℚ) (a : Rec ℚ) (w : ℕ → ℚ), solve mat mesh none none 1 o none = .ok (S, recs, stop) ∧
    GoodMat mat ∧ ValidMesh mesh.frame ∧ PositiveLengths mesh.rows none none ∧ o.tol = 0 ∧ ExactLin o.lin ∧
    constraint mat mesh = .ok cs ∧ BeamLengths mesh.rows none none L ∧ recs[1]? = some a ∧
    (∃ j, j < cs.C.nrows ∧ a.x (2 * mesh.rows.length + j) < 0) ∧ Guided mat mesh.rows w ∧
    NonPenetrating mat mesh.rows a.Z w ∧ elasticEnergy mat mesh.rows 1 L w < elasticEnergy mat mesh.rows 1 L a.x := by
  obtain ⟨S, recs, h, hr⟩ := lever_run
  obtain ⟨Km, cs, hK, hC, -⟩ := solve_run h
  have hl : recs.length = 2 := by simpa using congrArg List.length hr
  have hp : PermOf S.n none := by rintro p ⟨⟩
  have h0 : recs[0]? = some (recs[0]'(by omega)) := List.getElem?_eq_getElem _
  have h1 : recs[1]? = some (recs[1]'(by omega)) := List.getElem?_eq_getElem _
  generalize recs[0] = a at h0
  generalize recs[1] = b at h1
  have ha := congrArg (fun l => l[0]?) hr
  have hb := congrArg (fun l => l[1]?) hr
  simp only [List.getElem?_map, h0, h1, Option.map_some, List.getElem?_cons_succ, List.getElem?_cons_zero, Option.some.injEq,
    Prod.mk.injEq] at ha hb
  obtain ⟨haZ, haf⟩ := ha
  obtain ⟨hbZ, hbf⟩ := hb
  have hav : ∀ j, j < 25 → a.x j = 0 := by
    intro j hj
    have := congrArg (fun l => l[j]?) haf
    simp only [List.getElem?_map, List.getElem?_range hj, Option.map_some, List.getElem?_replicate, hj, if_true,
      Option.some.injEq] at this
    exact this
  have hbv : ∀ j, j < 25 → b.x j = [0, 19 / 1120, 0, -1 / 20, -1 / 2, -131 / 1120, 0, 0, 0, 0,
      -934809988660901 / 1873497444986126336, 0, 0, 934809988660901 / 936748722493063168, 0, 0, 0, 0,
      934809988660901 / 1873497444986126336, 0, 0, 0, 0, 0, 0].getD j 0 := by
    intro j hj
    rw [← hbf]
    simp [List.getD_eq_getElem?_getD, hj]
  have hnr : cs.C.nrows = 15 := by
    have hx : (constraint leverMat leverMesh).toOption.map (fun c => c.C.nrows) = some 15 := by decide +kernel
    rw [hC] at hx
    simpa [Except.toOption] using hx
  have hw := C68_work h leverMat_good leverMesh_lengths (le_refl 0) gauss_exact hp hC lever_lengths 0 a b h0 h1
  have hnn := (C68_energy h leverMat_good leverMesh_lengths (le_refl 0) gauss_exact hp (by simp) lever_lengths 0 a b h0 h1).1
  refine ⟨leverMat, leverMesh, leverOpts, S, recs, .blocked, cs, beamLength leverMesh.rows, b,
    fun r => [1 / 2, -1 / 10, 0, -1 / 10, -1 / 2, -1 / 10].getD r 0, h, leverMat_good, leverMesh_valid, leverMesh_lengths, rfl,
    gauss_exact, hC, lever_lengths, h1, ⟨0, by omega, ?_⟩, ?_, ?_, ?_⟩
  · change b.x 10 < 0
    rw [hbv 10 (by omega)]
    norm_num
  · intro i f hf hE
    exfalso
    have : f ∈ leverMat.fibers := by
      unfold nodeFiber at hf
      cases hi : leverMesh.rows[i]? with
      | none => rw [hi] at hf; cases hf
      | some r => rw [hi] at hf; exact List.mem_of_getElem? hf
    simp only [leverMat, List.mem_cons, List.not_mem_nil, or_false] at this
    rcases this with rfl | rfl <;> exact absurd hE WithTop.coe_ne_top
  · rw [hbZ]
    refine ⟨?_, ?_, ?_⟩
    · intro i hi
      have hi : i < 5 := hi
      interval_cases i <;> norm_num [nodeThick, nodeHeight, leverMesh, leverMat]
    · intro i hi
      have hi : i < 5 := hi
      interval_cases i <;> norm_num [nodeThick, nodeHeight, leverMesh, leverMat]
    · intro i j r hr hj hij
      have hi : i < 5 := (List.getElem?_eq_some_iff.1 hr).1
      interval_cases i <;> simp [leverMesh] at hr <;> subst hr <;> simp at hj <;> omega
  · have hz : elasticEnergy leverMat leverMesh.rows 1 (beamLength leverMesh.rows)
        (fun r => [1 / 2, -1 / 10, 0, -1 / 10, -1 / 2, -1 / 10].getD r 0) = 0 := by
      unfold elasticEnergy
      apply Finset.sum_eq_zero
      intro i _
      split_ifs with hs
      · have hl : beamLength leverMesh.rows 0 = 5 ∧ beamLength leverMesh.rows 1 = 5 := by decide +kernel
        rcases leverMesh_beams hs with rfl | rfl | rfl
        · have e1 : nodeFiber leverMat leverMesh.rows 0 = some (leverMat.fibers[0]'(by decide)) := rfl
          have e2 : succNode leverMesh.rows 0 = 1 := rfl
          rw [e1, e2, hl.1]
          simp only [elementEnergy]
          norm_num
        · have e1 : nodeFiber leverMat leverMesh.rows 1 = some (leverMat.fibers[0]'(by decide)) := rfl
          have e2 : succNode leverMesh.rows 1 = 2 := rfl
          rw [e1, e2, hl.2]
          simp only [elementEnergy]
          norm_num
        · have e1 : nodeFiber leverMat leverMesh.rows 3 = some (leverMat.fibers[1]'(by decide)) := rfl
          have e2 : succNode leverMesh.rows 3 = 4 := rfl
          rw [e1, e2]
          simp [elementEnergy]
      · rfl
    rw [hz]
    have hR : ∀ c : Rec ℚ, totalForce cs.C (fun j => c.x (2 * leverMesh.rows.length + j)) 2 =
        c.x 12 + c.x 15 + c.x 18 + c.x 21 + c.x 24 := by
      intro c
      unfold totalForce
      rw [hnr]
      simp [Finset.sum_range_succ, leverMesh]
    rw [hR, hR, haZ, hbZ] at hw
    simp only [hav 12 (by omega), hav 15 (by omega), hav 18 (by omega), hav 21 (by omega), hav 24 (by omega),
      hbv 12 (by omega), hbv 15 (by omega), hbv 18 (by omega), hbv 21 (by omega), hbv 24 (by omega)] at hw
    norm_num at hw
    linarith

/-- C67: the moments of the contact forces on the lever add up to zero, its forces being `-F`, `2 F`, `-F`. -/
example : ∃ S recs cs a, solve leverMat leverMesh none none 1 leverOpts none = .ok (S, recs, .blocked) ∧
    constraint leverMat leverMesh = .ok cs ∧ recs[1]? = some a ∧
    ∑ i ∈ nodesOf leverMesh.rows (0 : ℕ), abscissa leverMesh.rows i *
      contactForce cs.C (fun j => a.x (2 * leverMesh.rows.length + j)) i = 0 := by
  obtain ⟨S, recs, h, hr⟩ := lever_run
  obtain ⟨Km, cs, hK, hC, -⟩ := solve_run h
  have hl : recs.length = 2 := by simpa using congrArg List.length hr
  have hp : PermOf S.n none := by rintro p ⟨⟩
  have h1 : recs[1]? = some (recs[1]'(by omega)) := List.getElem?_eq_getElem _
  exact ⟨S, recs, cs, _, h, hC, h1, C67_moment h leverMat_good leverMesh_valid leverMesh_lengths (le_refl 0) gauss_exact hp hC 1 _
    h1 0 _ rfl WithTop.coe_ne_top⟩

end Fibermat
