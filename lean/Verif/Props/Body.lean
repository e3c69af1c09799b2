import Verif.Props.Continuum
import Verif.Props.Stiffer
import Verif.Props.Monotone

/-! # The force of the plate compared with that of continuous beams (C141) -/

set_option linter.unusedSectionVars false
set_option linter.unusedSimpArgs false

namespace Fibermat
open Spec Real
variable {K : Type} [Field K] [LinearOrder K] [IsStrictOrderedRing K]

theorem element_coupling {size l E c : K} {f : Fiber K} (hf : GoodFiber size f) (hE : f.E = (E : WithTop K)) (hl : 0 < l)
    (h1 : c ≤ 1) (ui ti uj tj : K) :
    c * elementEnergy f l 1 ui ti uj tj ≤ elementEnergy f l c ui ti uj tj := by
  have hA := fiberArea_pos hf
  have g := hf.G
  have h0 := hf.h
  have e0 : 0 < E := tensile_pos hf hE
  have hT : 0 < transverse f l := by
    unfold transverse; rw [hE]; simp only; positivity
  unfold elementEnergy
  rw [hE]
  simp only
  have h2 : 0 ≤ (l ^ 2 / 12 + E / f.G * f.h ^ 2) * (ti - tj) ^ 2 := by positivity
  generalize (l ^ 2 / 12 + E / f.G * f.h ^ 2) * (ti - tj) ^ 2 = q at h2 ⊢
  rw [mul_left_comm]
  apply mul_le_mul_of_nonneg_left _ hT.le
  have h3 : 0 ≤ (1 - c) * ((ui - uj) ^ 2 + l ^ 2 / 4 * (ti + tj) ^ 2 + q) := mul_nonneg (by linarith) (by positivity)
  linear_combination h3

section
variable {mat : Mat K} {rows : List (MeshRow K)} {L : ℕ → K}

theorem mat_lower (φ : K →+* ℝ) (hφ : StrictMono φ) (hm : GoodMat mat)
    (hb : ∀ i, StartsBeam rows i → 0 < L i ∧ ∃ f, nodeFiber mat rows i = some f) (E : Fiber K → K)
    (hE : ∀ f ∈ mat.fibers, f.E = (E f : WithTop K)) {c : K} (h0 : 0 ≤ c) (h1 : c ≤ 1) (v : ℕ → K) :
    ∃ w t w' t', MatField φ rows L v w t w' t' ∧
      φ c * (npPi / π * matFieldEnergy φ mat rows L E t w' t') ≤ φ (elasticEnergy mat rows c L v) := by
  classical
  obtain ⟨size, -, hg⟩ := hm.size
  have key : ∀ i, ∃ q : (ℝ → ℝ) × (ℝ → ℝ) × (ℝ → ℝ) × (ℝ → ℝ), StartsBeam rows i → ∀ f, nodeFiber mat rows i = some f →
      BeamField (φ (L i)) (φ (v (2 * i))) (φ (v (2 * i + 1))) (φ (v (2 * succNode rows i)))
        (φ (v (2 * succNode rows i + 1))) q.1 q.2.1 q.2.2.1 q.2.2.2 ∧
      φ c * (npPi / π * fieldEnergy (φ (E f) * ellipseInertia (φ f.b) (φ f.h)) (φ f.G * ellipseArea (φ f.b) (φ f.h)) (φ (L i)) q.2.1
        q.2.2.1 q.2.2.2) ≤ φ (elementEnergy f (L i) c (v (2 * i)) (v (2 * i + 1)) (v (2 * succNode rows i)) (v (2 * succNode rows i + 1))) := by
    intro i
    by_cases hi : StartsBeam rows i
    swap
    · exact ⟨⟨0, 0, 0, 0⟩, fun h => absurd h hi⟩
    obtain ⟨hl, f, hf⟩ := hb i hi
    have hgf := hg f (nodeFiber_mem hf)
    have hEf := hE f (nodeFiber_mem hf)
    have hB := pos_of_mono hφ hgf.b
    have hH := pos_of_mono hφ hgf.h
    have hG := pos_of_mono hφ hgf.G
    have he := pos_of_mono hφ (tensile_pos hgf hEf)
    have hpi := pi_pos
    have hA : 0 < ellipseArea (φ f.b) (φ f.h) := by rw [C139_area hB hH]; positivity
    have hI : 0 < ellipseInertia (φ f.b) (φ f.h) := by rw [C139_inertia hB hH]; positivity
    have hle := C140_least (B := φ (E f) * ellipseInertia (φ f.b) (φ f.h)) (S := φ f.G * ellipseArea (φ f.b) (φ f.h)) (by positivity)
      (by positivity) (pos_of_mono hφ hl) (φ (v (2 * i))) (φ (v (2 * i + 1))) (φ (v (2 * succNode rows i)))
      (φ (v (2 * succNode rows i + 1)))
    obtain ⟨w, t, w', t', hq, hen⟩ := hle.1
    refine ⟨⟨w, t, w', t'⟩, fun _ f' hf' => ⟨hq, ?_⟩⟩
    rw [hf] at hf'; cases hf'
    have h2 := (C140_element φ hφ hgf hEf hl _ _ _ _ hle).1
    rw [hen] at h2
    have h3 := hφ.monotone (element_coupling hgf hEf hl h1 (v (2 * i)) (v (2 * i + 1)) (v (2 * succNode rows i)) (v (2 * succNode rows i + 1)))
    rw [map_mul] at h3
    have h4 : 0 ≤ φ c := by have := hφ.monotone h0; rwa [map_zero] at this
    exact (mul_le_mul_of_nonneg_left h2 h4).trans h3
  choose q hq using key
  refine ⟨fun i => (q i).1, fun i => (q i).2.1, fun i => (q i).2.2.1, fun i => (q i).2.2.2, fun i hi => ?_, ?_⟩
  · obtain ⟨-, f, hf⟩ := hb i hi
    exact (hq i hi f hf).1
  · unfold matFieldEnergy elasticEnergy
    rw [← Finset.sum_filter, map_sum, Finset.mul_sum, Finset.mul_sum]
    refine Finset.sum_le_sum (fun i hi => ?_)
    have hi := (Finset.mem_filter.1 hi).2
    obtain ⟨-, f, hf⟩ := hb i hi
    rw [hf]
    exact (hq i hi f hf).2

theorem mat_upper (φ : K →+* ℝ) (hφ : StrictMono φ) (hm : GoodMat mat)
    (hb : ∀ i, StartsBeam rows i → 0 < L i ∧ ∃ f, nodeFiber mat rows i = some f) (E : Fiber K → K)
    (hE : ∀ f ∈ mat.fibers, f.E = (E f : WithTop K)) {v : ℕ → K} {w t w' t' : ℕ → ℝ → ℝ} (hF : MatField φ rows L v w t w' t') :
    φ (elasticEnergy mat rows 1 L v) ≤ 16 * (npPi / π * matFieldEnergy φ mat rows L E t w' t') := by
  classical
  obtain ⟨size, -, hg⟩ := hm.size
  unfold matFieldEnergy elasticEnergy
  rw [← Finset.sum_filter, map_sum, Finset.mul_sum, Finset.mul_sum]
  refine Finset.sum_le_sum (fun i hi => ?_)
  have hi := (Finset.mem_filter.1 hi).2
  obtain ⟨hl, f, hf⟩ := hb i hi
  rw [hf]
  have hgf := hg f (nodeFiber_mem hf)
  have hEf := hE f (nodeFiber_mem hf)
  have hB := pos_of_mono hφ hgf.b
  have hH := pos_of_mono hφ hgf.h
  have hG := pos_of_mono hφ hgf.G
  have he := pos_of_mono hφ (tensile_pos hgf hEf)
  have hpi := pi_pos
  have hn : (0 : ℝ) < npPi := npPi_pos
  have hA : 0 < ellipseArea (φ f.b) (φ f.h) := by rw [C139_area hB hH]; positivity
  have hI : 0 < ellipseInertia (φ f.b) (φ f.h) := by rw [C139_inertia hB hH]; positivity
  have hle := C140_least (B := φ (E f) * ellipseInertia (φ f.b) (φ f.h)) (S := φ f.G * ellipseArea (φ f.b) (φ f.h)) (by positivity)
    (by positivity) (pos_of_mono hφ hl) (φ (v (2 * i))) (φ (v (2 * i + 1))) (φ (v (2 * succNode rows i)))
    (φ (v (2 * succNode rows i + 1)))
  refine (C140_element φ hφ hgf hEf hl _ _ _ _ hle).2.trans ?_
  have := hle.2 ⟨_, _, _, _, hF i hi, rfl⟩
  gcongr

end

variable {mat : Mat K} {mesh : Mesh K} {lmin lmax : Option K} {coupling : K} {o : Opts K} {perm : Option (List Nat)} {S : Sys K}
  {recs : List (Rec K)} {stop : Stop}

/-- C141: in every step the force of the plate grows at least as fast, but for the factor `coupling` and the last digit of π, as that of
continuous elliptic beams which deform in some way that follows the contacts. -/
theorem C141_lower (φ : K →+* ℝ) (hφ : StrictMono φ) (h : solve mat mesh lmin lmax coupling o perm = .ok (S, recs, stop)) (hm : GoodMat mat)
    (hv : ValidMesh mesh.frame) (hp : PositiveLengths mesh.rows lmin lmax) (h0 : 0 ≤ coupling) (h1 : coupling ≤ 1) {L : ℕ → K}
    (hL : BeamLengths mesh.rows lmin lmax L) (htol : 0 ≤ o.tol) (hlin : ExactLin o.lin) (hperm : PermOf S.n perm)
    {cs : ConstraintSys K} (hC : constraint mat mesh = .ok cs) (E : Fiber K → K) (hE : ∀ f ∈ mat.fibers, f.E = (E f : WithTop K))
    (k : ℕ) (a b : Rec K) (ha : recs[k]? = some a) (hb : recs[k + 1]? = some b) :
    ∃ v w t w' t', Follows mat mesh.rows o.tol a.Z a.x v ∧ MatField φ mesh.rows L v w t w' t' ∧
      φ coupling * (npPi / π * matFieldEnergy φ mat mesh.rows L E t w' t') ≤
        φ ((totalForce cs.C (fun j => b.x (2 * mesh.rows.length + j)) 2 -
          totalForce cs.C (fun j => a.x (2 * mesh.rows.length + j)) 2) / (a.Z - b.Z)) := by
  obtain ⟨v, hx, hfol, -, -⟩ := C76_least h hm hv hp (by rw [abs_of_nonneg h0]; exact h1) hL htol hlin hperm k a b ha hb
  rw [C114_slope h hm hp hL htol hlin hperm hC k a b ha hb v hx]
  obtain ⟨Km, -, hK, -⟩ := solve_run h
  obtain ⟨bl, has, hpos, -, hbl⟩ := assembled_lengths hK
  have hbeam : ∀ i, StartsBeam mesh.rows i → 0 < L i ∧ ∃ f, nodeFiber mat mesh.rows i = some f := by
    intro i hi
    obtain ⟨p, hpm, rfl⟩ := has.all i hi
    exact ⟨by rw [← (hbl L).1 hL p hpm]; exact hpos hp p hpm, _, (has.beam p hpm).data.2.2⟩
  obtain ⟨w, t, w', t', hF, hle⟩ := mat_lower φ hφ hm hbeam E hE h0 h1 v
  exact ⟨v, w, t, w', t', hfol, hF, hle⟩

/-- C141: with `coupling = 1`, in every step the force of the plate grows at most 16 times as fast as that of continuous elliptic beams,
however they deform while following the contacts. -/
theorem C141_upper (φ : K →+* ℝ) (hφ : StrictMono φ) (h : solve mat mesh lmin lmax 1 o perm = .ok (S, recs, stop)) (hm : GoodMat mat)
    (hv : ValidMesh mesh.frame) (hp : PositiveLengths mesh.rows lmin lmax) {L : ℕ → K}
    (hL : BeamLengths mesh.rows lmin lmax L) (htol : 0 ≤ o.tol) (hlin : ExactLin o.lin) (hperm : PermOf S.n perm)
    {cs : ConstraintSys K} (hC : constraint mat mesh = .ok cs) (E : Fiber K → K) (hE : ∀ f ∈ mat.fibers, f.E = (E f : WithTop K))
    (k : ℕ) (a b : Rec K) (ha : recs[k]? = some a) (hb : recs[k + 1]? = some b)
    (v : ℕ → K) (w t w' t' : ℕ → ℝ → ℝ) (hfol : Follows mat mesh.rows o.tol a.Z a.x v) (hF : MatField φ mesh.rows L v w t w' t') :
    φ ((totalForce cs.C (fun j => b.x (2 * mesh.rows.length + j)) 2 -
        totalForce cs.C (fun j => a.x (2 * mesh.rows.length + j)) 2) / (a.Z - b.Z)) ≤
      16 * (npPi / π * matFieldEnergy φ mat mesh.rows L E t w' t') := by
  obtain ⟨v', hx, -, -, hmin⟩ := C76_least h hm hv hp (by simp) hL htol hlin hperm k a b ha hb
  rw [C114_slope h hm hp hL htol hlin hperm hC k a b ha hb v' hx]
  obtain ⟨Km, -, hK, -⟩ := solve_run h
  obtain ⟨bl, has, hpos, -, hbl⟩ := assembled_lengths hK
  have hbeam : ∀ i, StartsBeam mesh.rows i → 0 < L i ∧ ∃ f, nodeFiber mat mesh.rows i = some f := by
    intro i hi
    obtain ⟨p, hpm, rfl⟩ := has.all i hi
    exact ⟨by rw [← (hbl L).1 hL p hpm]; exact hpos hp p hpm, _, (has.beam p hpm).data.2.2⟩
  have hg : Guided mat mesh.rows v := by
    intro i f hf hT
    rw [hE f (nodeFiber_mem hf)] at hT
    exact absurd hT WithTop.coe_ne_top
  exact (hφ.monotone (hmin v hfol hg)).trans (mat_upper φ hφ hm hbeam E hE hF)

end Fibermat
