import Verif.Props.Monotone
import Verif.Spec.Stiffer

/-! # Stiffer fibers make a stiffer mat (C114) -/

set_option linter.unusedSectionVars false
set_option linter.unusedSimpArgs false

namespace Fibermat
variable {K : Type} [Field K] [LinearOrder K] [IsStrictOrderedRing K]
open Spec

/-! ## One beam -/

theorem fiberArea_pos {size : K} {f : Fiber K} (hf : GoodFiber size f) : 0 < sectionArea f := by
  have := npPi_pos' (K := K)
  have := hf.b
  have := hf.h
  unfold sectionArea
  positivity

theorem tensile_pos {size E : K} {f : Fiber K} (hf : GoodFiber size f) (hE : f.E = some E) : 0 < E := by
  have := hf.E
  rw [hE] at this
  exact WithTop.coe_pos.1 this

theorem fiberArea_le {size : K} {f f' : Fiber K} (hf : GoodFiber size f) (hh : f'.h = f.h) (hb : f.b ≤ f'.b) :
    sectionArea f ≤ sectionArea f' := by
  have := npPi_pos' (K := K)
  have := hf.h
  unfold sectionArea
  rw [hh]
  gcongr

theorem transverse_pos' {size l : K} {f : Fiber K} (hf : GoodFiber size f) (hl : 0 < l) : 0 < transverse f l := by
  have hA := fiberArea_pos hf
  have hG := hf.G
  have hh := hf.h
  unfold transverse
  rcases hE : f.E with _ | E
  · simp only; positivity
  · have := tensile_pos hf hE
    simp only; positivity

theorem transverse_le {size size' l : K} {f f' : Fiber K} (hf : GoodFiber size f) (hf' : GoodFiber size' f') (hl : 0 < l)
    (hh : f'.h = f.h) (hb : f.b ≤ f'.b) (hG : f.G ≤ f'.G) (hE : f.E ≤ f'.E) : transverse f l ≤ transverse f' l := by
  have hA := fiberArea_pos hf
  have hA' := fiberArea_pos hf'
  have hAA := fiberArea_le hf hh hb
  have g := hf.G
  have g' := hf'.G
  have h0 := hf.h
  unfold transverse
  rw [hh]
  rcases hE' : f'.E with _ | E'
  · rcases hE0 : f.E with _ | E
    · simp only; gcongr
    · have e0 := tensile_pos hf hE0
      simp only
      apply inv_anti₀ (by positivity)
      have : l / (f'.G * sectionArea f') ≤ l / (f.G * sectionArea f) := by gcongr
      have : 0 ≤ l ^ 3 / (E * sectionArea f * f.h ^ 2) := by positivity
      linarith
  · rcases hE0 : f.E with _ | E
    · rw [hE0, hE'] at hE
      exact absurd (top_le_iff.1 hE) (WithTop.coe_ne_top)
    · have e0 := tensile_pos hf hE0
      have e1 := tensile_pos hf' hE'
      rw [hE0, hE'] at hE
      have hEE : E ≤ E' := WithTop.coe_le_coe.1 hE
      simp only
      gcongr

theorem bending_le {size size' l E E' : K} {f f' : Fiber K} (hf : GoodFiber size f) (hf' : GoodFiber size' f') (hl : 0 < l)
    (hh : f'.h = f.h) (hb : f.b ≤ f'.b) (hG : f.G = f'.G) (hE0 : f.E = some E) (hE' : f'.E = some E') (hE : E ≤ E') :
    transverse f l * (E / f.G * f.h ^ 2) ≤ transverse f' l * (E' / f'.G * f'.h ^ 2) := by
  have hA := fiberArea_pos hf
  have hA' := fiberArea_pos hf'
  have hAA := fiberArea_le hf hh hb
  have g := hf.G
  have h0 := hf.h
  have e0 := tensile_pos hf hE0
  have e1 := tensile_pos hf' hE'
  have key : ∀ A E : K, 0 < A → 0 < E → (l / (f.G * A) + l ^ 3 / (E * A * f.h ^ 2))⁻¹ * (E / f.G * f.h ^ 2) =
      (l / (A * E * f.h ^ 2) + f.G * l ^ 3 / (E ^ 2 * A * f.h ^ 4))⁻¹ := by
    intro A E hA hE
    have h1 : l / (f.G * A) + l ^ 3 / (E * A * f.h ^ 2) ≠ 0 := by positivity
    have h2 : l / (A * E * f.h ^ 2) + f.G * l ^ 3 / (E ^ 2 * A * f.h ^ 4) ≠ 0 := by positivity
    apply eq_inv_of_mul_eq_one_left
    rw [mul_assoc, inv_mul_eq_one₀ h1]
    field_simp
  unfold transverse
  rw [hE0, hE']
  simp only
  rw [hh, ← hG, key _ _ hA e0, key _ _ hA' e1]
  gcongr

theorem bracket_nonneg {c l d s : K} (hc : |c| ≤ 1) : 0 ≤ d ^ 2 + c * l * d * s + l ^ 2 / 4 * s ^ 2 := by
  have h1 : c ^ 2 ≤ 1 := by
    rw [← sq_abs]
    have := abs_nonneg c
    nlinarith
  nlinarith [sq_nonneg (d + c * l * s / 2), mul_nonneg (sub_nonneg.2 h1) (sq_nonneg (l * s))]

/-- A stiffer beam with less coupling needs at least the energy of the beam with reduced rotations. -/
theorem elementEnergy_le {size size' l c c' : K} {f f' : Fiber K} (hf : GoodFiber size f) (hf' : GoodFiber size' f') (hl : 0 < l)
    (hh : f'.h = f.h) (hb : f.b ≤ f'.b) (hG : f.G ≤ f'.G) (hE : f.E ≤ f'.E) (hc : |c'| ≤ |c|) (hc1 : |c| ≤ 1)
    (hS : c' = 0 ∨ f.G = f'.G) (ui ti uj tj : K) (hz : f'.E = ⊤ → ti = 0 ∧ tj = 0) :
    elementEnergy f l c ui (c' / c * ti) uj (c' / c * tj) ≤ elementEnergy f' l c' ui ti uj tj := by
  have hT := transverse_pos' hf hl
  have hT' := transverse_le hf hf' hl hh hb hG hE
  have hcc : c * (c' / c) = c' := by
    by_cases h0 : c = 0
    · rw [h0, abs_zero] at hc
      rw [h0, abs_nonpos_iff.1 hc]; simp
    · field_simp
  have hr : (c' / c) ^ 2 ≤ 1 := by
    by_cases h0 : c = 0
    · rw [h0]; simp
    · rw [← sq_abs, abs_div]
      have : |c'| / |c| ≤ 1 := (div_le_one (abs_pos.2 h0)).2 hc
      have h2 : 0 ≤ |c'| / |c| := by positivity
      nlinarith
  have hr0 := sq_nonneg (c' / c)
  rcases hE' : f'.E with _ | E'
  · obtain ⟨rfl, rfl⟩ := hz hE'
    unfold elementEnergy
    simp only [mul_zero, add_zero, sub_zero, zero_pow (two_ne_zero)]
    exact mul_le_mul_of_nonneg_right hT' (sq_nonneg _)
  · rcases hE0 : f.E with _ | E
    · rw [hE0, hE'] at hE
      exact absurd (top_le_iff.1 hE) (WithTop.coe_ne_top)
    · have hEE : E ≤ E' := by rw [hE0, hE'] at hE; exact WithTop.coe_le_coe.1 hE
      have e1 := tensile_pos hf' hE'
      have g' := hf'.G
      have hbr : (ui - uj) ^ 2 + c * l * (ui - uj) * (c' / c * ti + c' / c * tj) + l ^ 2 / 4 * (c' / c * ti + c' / c * tj) ^ 2 ≤
          (ui - uj) ^ 2 + c' * l * (ui - uj) * (ti + tj) + l ^ 2 / 4 * (ti + tj) ^ 2 := by
        have e : c * l * (ui - uj) * (c' / c * ti + c' / c * tj) = c' * l * (ui - uj) * (ti + tj) := by
          rw [← hcc]; simp only [hcc]; linear_combination (l * (ui - uj) * (ti + tj)) * hcc
        have e2 : l ^ 2 / 4 * (c' / c * ti + c' / c * tj) ^ 2 = (c' / c) ^ 2 * (l ^ 2 / 4 * (ti + tj) ^ 2) := by ring
        rw [e, e2]
        have : 0 ≤ l ^ 2 / 4 * (ti + tj) ^ 2 := by positivity
        nlinarith
      have hbn := bracket_nonneg (c := c') (l := l) (d := ui - uj) (s := ti + tj) (hc.trans hc1)
      have hq : transverse f l * ((l ^ 2 / 12 + E / f.G * f.h ^ 2) * (c' / c * ti - c' / c * tj) ^ 2) ≤
          transverse f' l * ((l ^ 2 / 12 + E' / f'.G * f'.h ^ 2) * (ti - tj) ^ 2) := by
        have h0 : 0 ≤ transverse f' l * ((l ^ 2 / 12 + E' / f'.G * f'.h ^ 2) * (ti - tj) ^ 2) :=
          mul_nonneg (hT.le.trans hT') (by positivity)
        rcases hS with h | h
        · rw [h]; simpa [h] using h0
        · have hk := bending_le hf hf' hl hh hb h hE0 hE' hEE
          have hk0 : 0 ≤ transverse f' l * (E' / f'.G * f'.h ^ 2) := mul_nonneg (hT.le.trans hT') (by positivity)
          have e : transverse f l * ((l ^ 2 / 12 + E / f.G * f.h ^ 2) * (c' / c * ti - c' / c * tj) ^ 2) =
              (c' / c) ^ 2 * ((transverse f l * (l ^ 2 / 12) + transverse f l * (E / f.G * f.h ^ 2)) * (ti - tj) ^ 2) := by ring
          have e' : transverse f' l * ((l ^ 2 / 12 + E' / f'.G * f'.h ^ 2) * (ti - tj) ^ 2) =
              (transverse f' l * (l ^ 2 / 12) + transverse f' l * (E' / f'.G * f'.h ^ 2)) * (ti - tj) ^ 2 := by ring
          rw [e, e']
          have h3 : (transverse f l * (l ^ 2 / 12) + transverse f l * (E / f.G * f.h ^ 2)) * (ti - tj) ^ 2 ≤
              (transverse f' l * (l ^ 2 / 12) + transverse f' l * (E' / f'.G * f'.h ^ 2)) * (ti - tj) ^ 2 := by gcongr
          have h4 : 0 ≤ (transverse f' l * (l ^ 2 / 12) + transverse f' l * (E' / f'.G * f'.h ^ 2)) * (ti - tj) ^ 2 := by
            rw [← e']; exact h0
          nlinarith
      unfold elementEnergy
      rw [hE0, hE']
      simp only
      rw [mul_add, mul_add (transverse f' l)]
      refine add_le_add ?_ hq
      exact (mul_le_mul_of_nonneg_left hbr hT.le).trans (mul_le_mul_of_nonneg_right hT' hbn)

/-! ## The whole mat -/

section
variable {mat mat' : Mat K} {rows : List (MeshRow K)}

/-- A motion with the rotations multiplied by `r`. -/
def turnLess (r : K) (w : ℕ → K) : ℕ → K := fun k => if k % 2 = 1 then r * w k else w k

theorem turnLess_even (r : K) (w : ℕ → K) (i : ℕ) : turnLess r w (2 * i) = w (2 * i) := by
  unfold turnLess; rw [if_neg (by omega)]

theorem turnLess_odd (r : K) (w : ℕ → K) (i : ℕ) : turnLess r w (2 * i + 1) = r * w (2 * i + 1) := by
  unfold turnLess; rw [if_pos (by omega)]

theorem Spec.StifferMat.node (hs : StifferMat mat mat') {i : ℕ} {f : Fiber K} (hf : nodeFiber mat rows i = some f) :
    ∃ f', nodeFiber mat' rows i = some f' ∧ f'.h = f.h ∧ f.b ≤ f'.b ∧ f.G ≤ f'.G ∧ f.E ≤ f'.E := by
  unfold nodeFiber at hf ⊢
  cases hr : rows[i]? with
  | none => rw [hr] at hf; cases hf
  | some r =>
    rw [hr] at hf
    simp only [Option.bind_some] at hf ⊢
    have hk : r.fiber.toNat < mat.fibers.length := (List.getElem?_eq_some_iff.1 hf).1
    have h' : mat'.fibers[r.fiber.toNat]? = some (mat'.fibers[r.fiber.toNat]'(by rw [hs.number]; exact hk)) :=
      List.getElem?_eq_getElem _
    exact ⟨_, h', hs.fiber _ _ _ hf h'⟩

theorem nodeFiber_mem {i : ℕ} {f : Fiber K} (hf : nodeFiber mat rows i = some f) : f ∈ mat.fibers := by
  unfold nodeFiber at hf
  cases hr : rows[i]? with
  | none => rw [hr] at hf; cases hf
  | some r => rw [hr] at hf; exact List.mem_of_getElem? hf

theorem Spec.SameShear.node (hs : SameShear mat mat') {i : ℕ} {f f' : Fiber K} (hf : nodeFiber mat rows i = some f)
    (hf' : nodeFiber mat' rows i = some f') : f.G = f'.G := by
  unfold nodeFiber at hf hf'
  cases hr : rows[i]? with
  | none => rw [hr] at hf; cases hf
  | some r => rw [hr] at hf hf'; exact hs _ _ _ hf hf'

theorem Spec.StifferMat.guided (hs : StifferMat mat mat') {w : ℕ → K} (hw : Guided mat' rows w) (r : K) :
    Guided mat rows (turnLess r w) := by
  intro i f hf hE hon
  obtain ⟨f', hf', -, -, -, hEE⟩ := hs.node hf
  rw [turnLess_odd, hw i f' hf' (top_le_iff.1 (hE ▸ hEE)) hon, mul_zero]

/-- Energy of the same motion, rotations reduced, in the softer mat. -/
theorem Spec.StifferMat.energy_le (hs : StifferMat mat mat') (hm : GoodMat mat) (hm' : GoodMat mat')
    (hsame : ∀ i, StartsBeam rows i → nodeFiber mat' rows (succNode rows i) = nodeFiber mat' rows i)
    {L : ℕ → K} (hL : ∀ i, StartsBeam rows i → 0 < L i) {c c' : K} (hc : |c'| ≤ |c|) (hc1 : |c| ≤ 1)
    (hS : c' = 0 ∨ SameShear mat mat') {w : ℕ → K} (hw : Guided mat' rows w) :
    elasticEnergy mat rows c L (turnLess (c' / c) w) ≤ elasticEnergy mat' rows c' L w := by
  obtain ⟨size, -, hg⟩ := hm.size
  obtain ⟨size', -, hg'⟩ := hm'.size
  unfold elasticEnergy
  apply Finset.sum_le_sum
  intro i _
  by_cases hst : StartsBeam rows i
  · rw [if_pos hst, if_pos hst]
    cases hf : nodeFiber mat rows i with
    | none =>
      have : nodeFiber mat' rows i = none := by
        unfold nodeFiber at hf ⊢
        cases hr : rows[i]? with
        | none => rfl
        | some r =>
          rw [hr] at hf
          simp only [Option.bind_some, List.getElem?_eq_none_iff] at hf ⊢
          rw [hs.number]; exact hf
      rw [this]
    | some f =>
      obtain ⟨f', hf', k1, k2, k3, k4⟩ := hs.node hf
      rw [hf']
      simp only [turnLess_even, turnLess_odd]
      refine elementEnergy_le (hg f (nodeFiber_mem hf)) (hg' f' (nodeFiber_mem hf')) (hL i hst) k1 k2 k3 k4 hc hc1
        (hS.imp_right (fun h => h.node hf hf')) _ _ _ _ ?_
      intro hE
      exact ⟨hw i f' hf' hE (Or.inl hst), hw _ f' ((hsame i hst).trans hf') hE (Or.inr ⟨i, hst, rfl⟩)⟩
  · rw [if_neg hst, if_neg hst]

theorem Spec.StifferMat.thick (hs : StifferMat mat mat') (i : ℕ) : nodeThick mat' rows i = nodeThick mat rows i := by
  unfold nodeThick
  cases hr : rows[i]? with
  | none => rfl
  | some r =>
    simp only [Option.bind_some]
    by_cases hk : r.fiber.toNat < mat.fibers.length
    · have h0 : mat.fibers[r.fiber.toNat]? = some (mat.fibers[r.fiber.toNat]) := List.getElem?_eq_getElem _
      have h' : mat'.fibers[r.fiber.toNat]? = some (mat'.fibers[r.fiber.toNat]'(by rw [hs.number]; exact hk)) :=
        List.getElem?_eq_getElem _
      rw [h0, h', Option.map_some, Option.map_some, (hs.fiber _ _ _ h0 h').1]
    · rw [List.getElem?_eq_none (l := mat'.fibers) (by rw [hs.number]; omega), List.getElem?_eq_none (l := mat.fibers) (by omega)]

theorem Spec.StifferMat.thickness (hs : StifferMat mat mat') : nodeThickness mat' rows = nodeThickness mat rows := by
  unfold nodeThickness
  congr 1
  funext r
  by_cases hneg : r.fiber < 0
  · simp only [hneg, if_true]
  · simp only [hneg, if_false]
    by_cases hk : r.fiber.toNat < mat.fibers.length
    · have h0 : mat.fibers[r.fiber.toNat]? = some (mat.fibers[r.fiber.toNat]) := List.getElem?_eq_getElem _
      have h' : mat'.fibers[r.fiber.toNat]? = some (mat'.fibers[r.fiber.toNat]'(by rw [hs.number]; exact hk)) :=
        List.getElem?_eq_getElem _
      rw [h0, h']
      simp only [(hs.fiber _ _ _ h0 h').1]
    · rw [List.getElem?_eq_none (l := mat'.fibers) (by rw [hs.number]; omega), List.getElem?_eq_none (l := mat.fibers) (by omega)]

theorem Spec.StifferMat.constraint (hs : StifferMat mat mat') (hm : GoodMat mat) (hm' : GoodMat mat') (mesh : Mesh K) :
    Fibermat.constraint mat' mesh = Fibermat.constraint mat mesh := by
  unfold Fibermat.constraint
  rw [(matCheck_frame_iff _).2 (Or.inr hm), (matCheck_frame_iff _).2 (Or.inr hm'), hs.thickness]

end

variable {mat mat' : Mat K} {mesh : Mesh K} {lmin lmax : Option K} {coupling coupling' : K} {o o' : Opts K}
  {perm perm' : Option (List ℕ)} {S S' : Sys K} {recs recs' : List (Rec K)} {stop stop' : Stop}

/-- The beams of a run have positive lengths, and join nodes of the same fiber. -/
theorem run_beams (h : solve mat mesh lmin lmax coupling o perm = .ok (S, recs, stop)) (hm : GoodMat mat)
    (hv : ValidMesh mesh.frame) (hp : PositiveLengths mesh.rows lmin lmax) {L : ℕ → K} (hL : BeamLengths mesh.rows lmin lmax L) :
    (∀ i, StartsBeam mesh.rows i → 0 < L i) ∧
      ∀ i, StartsBeam mesh.rows i → nodeFiber mat mesh.rows (succNode mesh.rows i) = nodeFiber mat mesh.rows i := by
  have hbeams : BeamsCyclic mesh.rows := by have := hv.beams; rwa [rows_meshFrame] at this
  obtain ⟨-, cs, -, hC, -, -⟩ := solve_run h
  obtain ⟨Km, bl, hs, l, has, hpos, hbl, -⟩ := solve_lengths h hm hp hC
  constructor
  · intro i hi
    obtain ⟨p, hpm, rfl⟩ := has.all i hi
    rw [← (hbl L).1 hL p hpm]
    exact hpos p hpm
  · intro i hi
    obtain ⟨p, hpm, rfl⟩ := has.all i hi
    obtain ⟨d1, d2, d3⟩ := (has.beam p hpm).data
    rw [d2, d3]
    obtain ⟨r, q, h1, h2, h3, -, -, hf⟩ := (has.beam p hpm).rows
    obtain ⟨-, q', hq', hfib⟩ := beam_next hbeams h1 h3 (has.beam p hpm).lt
    rw [h2] at hq'; cases hq'
    simp [nodeFiber, h2, hfib, hf]

/-! ## C114 -/

/-- The slope of the curve force against plate displacement is twice the elastic energy of the motion of the step, per unit descent
of the plate. -/
theorem C114_slope (h : solve mat mesh lmin lmax coupling o perm = .ok (S, recs, stop)) (hm : GoodMat mat)
    (hp : PositiveLengths mesh.rows lmin lmax) {L : ℕ → K}
    (hL : BeamLengths mesh.rows lmin lmax L) (htol : 0 ≤ o.tol) (hlin : ExactLin o.lin) (hperm : PermOf S.n perm)
    {cs : ConstraintSys K} (hC : constraint mat mesh = .ok cs)
    (k : ℕ) (a b : Rec K) (ha : recs[k]? = some a) (hb : recs[k + 1]? = some b) (v : ℕ → K)
    (hx : ∀ r, b.x r = a.x r - (a.Z - b.Z) * v r) :
    (totalForce cs.C (fun j => b.x (2 * mesh.rows.length + j)) 2 -
      totalForce cs.C (fun j => a.x (2 * mesh.rows.length + j)) 2) / (a.Z - b.Z) = elasticEnergy mat mesh.rows coupling L v := by
  obtain ⟨Km, bl, hs, l, has, hpos, hbl, hc, rfl, hN, hnK, hn, hnC, hcols, hZ, hsd, rfl⟩ := solve_lengths h hm hp hC
  set o' : Opts K := { o with perm := perm.getD (List.range (assemble Km cs).n) } with ho'
  obtain ⟨dx, t, s, hst⟩ := hsd.next ha hb
  have ht := hst.pos htol
  obtain ⟨-, p1⟩ := step_power (o := o') hc hN (table_symm mesh.rows coupling bl) hsd hn htol hlin (permOf_getD hperm) ha hst.dir
  have htt : a.Z - b.Z = t := by rw [hst.Z]; ring
  have hvd : v = dx := by
    funext r
    have h1 := hst.x r
    rw [hx r, htt] at h1
    have h2 : t * (v r - dx r) = 0 := by linarith
    have := (mul_eq_zero.1 h2).resolve_left ht.ne'
    linarith
  subst hvd
  rw [← has.energy_doc hm hpos ((hbl L).1 hL), totalForce_step (C := cs.C) hst.x, htt, p1, hnC, div_eq_iff ht.ne']
  ring

/-- Wherever a step of the softer mat keeps no gap closed that the step of the stiffer one does not keep closed, the slope of the
curve force against plate displacement is at most that of the stiffer mat.  Larger widths and tensile moduli, and a smaller coupling,
make the mat stiffer; so do larger shear moduli when the coupling of the stiffer mat is zero. -/
theorem C114_step (h : solve mat mesh lmin lmax coupling o perm = .ok (S, recs, stop)) (hm : GoodMat mat)
    (h' : solve mat' mesh lmin lmax coupling' o' perm' = .ok (S', recs', stop')) (hm' : GoodMat mat')
    (hv : ValidMesh mesh.frame) (hp : PositiveLengths mesh.rows lmin lmax)
    (htol : 0 ≤ o.tol) (hlin : ExactLin o.lin) (hperm : PermOf S.n perm)
    (htol' : 0 ≤ o'.tol) (hlin' : ExactLin o'.lin) (hperm' : PermOf S'.n perm')
    {cs cs' : ConstraintSys K} (hC : constraint mat mesh = .ok cs) (hC' : constraint mat' mesh = .ok cs')
    (hs : StifferMat mat mat') (hc : |coupling'| ≤ |coupling|) (hc1 : |coupling| ≤ 1) (hS : coupling' = 0 ∨ SameShear mat mat')
    (k k' : ℕ) (a b a' b' : Rec K) (ha : recs[k]? = some a) (hb : recs[k + 1]? = some b)
    (ha' : recs'[k']? = some a') (hb' : recs'[k' + 1]? = some b')
    (hkeep : ∀ w, Follows mat' mesh.rows o'.tol a'.Z a'.x w → Follows mat mesh.rows o.tol a.Z a.x w) :
    (totalForce cs.C (fun j => b.x (2 * mesh.rows.length + j)) 2 -
      totalForce cs.C (fun j => a.x (2 * mesh.rows.length + j)) 2) / (a.Z - b.Z) ≤
    (totalForce cs'.C (fun j => b'.x (2 * mesh.rows.length + j)) 2 -
      totalForce cs'.C (fun j => a'.x (2 * mesh.rows.length + j)) 2) / (a'.Z - b'.Z) := by
  obtain ⟨Km, -, hK, -⟩ := solve_run h
  obtain ⟨-, ⟨L, hL⟩, -, -⟩ := C65_lengths hK
  obtain ⟨v, v1, -, -, vmin⟩ := C76_least h hm hv hp hc1 hL htol hlin hperm k a b ha hb
  obtain ⟨v', v1', v2', v3', -⟩ := C76_least h' hm' hv hp (hc.trans hc1) hL htol' hlin' hperm' k' a' b' ha' hb'
  rw [C114_slope h hm hp hL htol hlin hperm hC k a b ha hb v v1,
    C114_slope h' hm' hp hL htol' hlin' hperm' hC' k' a' b' ha' hb' v' v1']
  obtain ⟨b1, b2⟩ := run_beams h' hm' hv hp hL
  refine (vmin (turnLess (coupling' / coupling) v') ?_ (hs.guided v3' _)).trans (hs.energy_le hm hm' b2 b1 hc hc1 hS v3')
  intro i j hij
  obtain ⟨q0, q1, q2⟩ := hkeep v' v2' i j hij
  simp only [turnLess_even]
  exact ⟨q0, q1, q2⟩

/-- The initial slope of the curve of a stiffer mat is at least that of the softer one. -/
theorem C114_start (h : solve mat mesh lmin lmax coupling o perm = .ok (S, recs, stop)) (hm : GoodMat mat)
    (h' : solve mat' mesh lmin lmax coupling' o' perm' = .ok (S', recs', stop')) (hm' : GoodMat mat')
    (hv : ValidMesh mesh.frame) (hp : PositiveLengths mesh.rows lmin lmax)
    (htol : 0 ≤ o.tol) (hlin : ExactLin o.lin) (hperm : PermOf S.n perm)
    (htol' : o'.tol = o.tol) (hlin' : ExactLin o'.lin) (hperm' : PermOf S'.n perm')
    {cs cs' : ConstraintSys K} (hC : constraint mat mesh = .ok cs) (hC' : constraint mat' mesh = .ok cs')
    (hs : StifferMat mat mat') (hc : |coupling'| ≤ |coupling|) (hc1 : |coupling| ≤ 1) (hS : coupling' = 0 ∨ SameShear mat mat')
    (b b' : Rec K) (hb : recs[1]? = some b) (hb' : recs'[1]? = some b') :
    totalForce cs.C (fun j => b.x (2 * mesh.rows.length + j)) 2 / (cs.Z - b.Z) ≤
      totalForce cs'.C (fun j => b'.x (2 * mesh.rows.length + j)) 2 / (cs'.Z - b'.Z) := by
  obtain ⟨-, a, ha, hx, -, hZ, -⟩ := C40_itermax h
  obtain ⟨-, a', ha', hx', -, hZ', -⟩ := C40_itermax h'
  obtain ⟨_, cs1, _, hC1, hS1, _⟩ := solve_run h
  obtain ⟨_, cs2, _, hC2, hS2, _⟩ := solve_run h'
  rw [hC] at hC1; cases hC1
  rw [hC'] at hC2; cases hC2
  have hZ0 : S.Z0 = cs.Z := by rw [hS1]; rfl
  have hZ0' : S'.Z0 = cs'.Z := by rw [hS2]; rfl
  have hcs : cs' = cs := by
    have := hs.constraint hm hm' mesh
    rw [hC, hC'] at this
    cases this; rfl
  have hzero : ∀ (d : Rec K), (∀ r, d.x r = 0) → totalForce cs.C (fun j => d.x (2 * mesh.rows.length + j)) 2 = 0 := by
    intro d hd
    unfold totalForce
    simp [hd]
  subst hcs
  have e : a.x = a'.x := by funext r; rw [hx, hx']
  have := C114_step h hm h' hm' hv hp htol hlin hperm (htol' ▸ htol) hlin' hperm' hC hC' hs hc hc1 hS 0 0 a b a' b' ha hb ha' hb' (by
    intro w hw i j hij
    obtain ⟨q0, q1, q2⟩ := hw i j hij
    have hZZ : a.Z = a'.Z := by rw [hZ, hZ', hZ0, hZ0']
    unfold floorGap pairGap roofGap at *
    simp only [hs.thick, htol', ← e, ← hZZ] at q0 q1 q2
    exact ⟨q0, q1, q2⟩)
  rw [hzero a hx, hzero a' hx', sub_zero, sub_zero, hZ, hZ', hZ0, hZ0'] at this
  exact this

/-- At a given height of the plate, or lower, the stiffer mat has stored at least the elastic energy of the softer one (up to `tol`
times the sum of the contact forces), when no contact of the softer one pulls. -/
theorem C114_work (h : solve mat mesh lmin lmax coupling o perm = .ok (S, recs, stop)) (hm : GoodMat mat)
    (h' : solve mat' mesh lmin lmax coupling' o' perm' = .ok (S', recs', stop')) (hm' : GoodMat mat')
    (hv : ValidMesh mesh.frame) (hp : PositiveLengths mesh.rows lmin lmax) {L : ℕ → K} (hL : BeamLengths mesh.rows lmin lmax L)
    (htol : 0 ≤ o.tol) (hlin : ExactLin o.lin) (hperm : PermOf S.n perm)
    (htol' : 0 ≤ o'.tol) (hlin' : ExactLin o'.lin) (hperm' : PermOf S'.n perm')
    {cs : ConstraintSys K} (hC : constraint mat mesh = .ok cs) (hadm : Admissible cs (fun _ => 0))
    (hs : StifferMat mat mat') (hc : |coupling'| ≤ |coupling|) (hc1 : |coupling| ≤ 1) (hS : coupling' = 0 ∨ SameShear mat mat')
    (k k' : ℕ) (a a' : Rec K) (ha : recs[k]? = some a) (ha' : recs'[k']? = some a') (hZ : a'.Z ≤ a.Z)
    (hpush : ∀ j, j < cs.C.nrows → 0 ≤ a.x (2 * mesh.rows.length + j)) :
    elasticEnergy mat mesh.rows coupling L a.x ≤ elasticEnergy mat' mesh.rows coupling' L a'.x +
      2 * o.tol * ∑ j ∈ Finset.range cs.C.nrows, a.x (2 * mesh.rows.length + j) := by
  have hcr : ConstraintsReciprocal mesh.rows := by have := hv.constraints; rwa [rows_meshFrame] at this
  have hC' : constraint mat' mesh = .ok cs := by rw [hs.constraint hm hm', hC]
  have hnp := C46_nonPenetrating h' hm' hp htol' hlin' hperm' hC' hadm hcr k' a' ha'
  have hg := C70_guided h' hm' hv hp k' a' ha'
  obtain ⟨b1, b2⟩ := run_beams h' hm' hv hp hL
  have hle := hs.energy_le hm hm' b2 b1 hc hc1 hS hg
  have := C71_minimum h hm hv hp htol hlin hperm hc1 hC hL k a ha hpush (turnLess (coupling' / coupling) a'.x) (hs.guided hg _) (by
    refine ⟨fun i hi => ?_, fun i hi => ?_, fun i j r hr hj hij => ?_⟩
    · have := hnp.floor i hi
      rw [turnLess_even, ← hs.thick]; exact this
    · have := hnp.roof i hi
      rw [hs.thick] at this
      rw [turnLess_even]; linarith
    · have := hnp.pair i j r hr hj hij
      rw [hs.thick, hs.thick] at this
      rw [turnLess_even, turnLess_even]; exact this)
  linarith

end Fibermat
