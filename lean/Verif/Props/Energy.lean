import Verif.Lemmas.Energy
import Verif.Props.Stiffness

/-! # Theorems on the coefficients of the stiffness matrix (C65, C66) -/

set_option linter.unusedSectionVars false
set_option linter.unusedSimpArgs false

namespace Fibermat
variable {K : Type} [Field K] [LinearOrder K] [IsStrictOrderedRing K]
open Spec

variable {mat : Mat K} {mesh : Mesh K} {lmin lmax : Option K} {coupling : K} {Km : Coo (Cell K)}

/-! ## C65 -/

/-- Lengths of the beams exist, are determined on the nodes that start a beam, and are the distances between nodes when no bound
is given. -/
theorem C65_lengths (h : stiffness mat mesh lmin lmax coupling = .ok Km) :
    (∃ m M, RawBounds mesh.rows m M) ∧ (∃ L, BeamLengths mesh.rows lmin lmax L) ∧
      (∀ L L', BeamLengths mesh.rows lmin lmax L → BeamLengths mesh.rows lmin lmax L' →
        ∀ i, StartsBeam mesh.rows i → L i = L' i) ∧
      (lmin = none → lmax = none → ∀ L, BeamLengths mesh.rows lmin lmax L → ∀ i, StartsBeam mesh.rows i →
        L i = beamLength mesh.rows i) := by
  obtain ⟨bl, has, -, hb, hL⟩ := assembled_lengths h
  refine ⟨hb, ⟨fun i => ((bl.find? (fun p => p.1.i == i)).map (·.2)).getD 0, ?_⟩, ?_, ?_⟩
  · rw [hL]
    intro p hp
    cases hf : bl.find? (fun q => q.1.i == p.1.i) with
    | none =>
      have := List.find?_eq_none.1 hf p hp
      simp at this
    | some q =>
      have h1 := List.find?_some hf
      have h2 := List.mem_of_find?_eq_some hf
      have : q = p := List.inj_on_of_nodup_map has.nodup h2 hp (by simpa using h1)
      simp [hf, this]
  · intro L L' h1 h2 i hi
    rw [hL] at h1 h2
    obtain ⟨p, hp, rfl⟩ := has.all i hi
    rw [← h1 p hp, ← h2 p hp]
  · rintro rfl rfl L h1 i hi
    obtain ⟨m, M, hmM⟩ := hb
    obtain ⟨h1, h2⟩ := h1 m M hmM i hi
    simp only [Option.getD_none, min_self, max_self] at h1 h2
    have hle : m ≤ beamLength mesh.rows i := hmM.least.2 ⟨i, hi, rfl⟩
    have hge : beamLength mesh.rows i ≤ M := hmM.greatest.2 ⟨i, hi, rfl⟩
    rcases lt_or_eq_of_le (hle.trans hge) with hlt | heq
    · rw [h1 hlt]
      have : M - m ≠ 0 := by linarith
      field_simp; ring
    · rw [h2 heq]
      subst heq
      exact le_antisymm hle hge

/-- The stiffness matrix is the assembly of the documented element matrices (finite tensile moduli). -/
theorem C65_entries (h : stiffness mat mesh lmin lmax coupling = .ok Km) (hm : GoodMat mat) (ht : FiniteTensile mat)
    (hp : PositiveLengths mesh.rows lmin lmax) {L : ℕ → K} (hL : BeamLengths mesh.rows lmin lmax L) (r s : ℕ) :
    Km.get r s = .fin (assembledEntry mat mesh.rows coupling L r s) := by
  obtain ⟨bl, has, hpos, -, hbl⟩ := assembled_lengths h
  rw [← has.table_doc hm ht ((hbl L).1 hL)]
  exact has.entries hm ht (hpos hp) r s

/-- The quadratic form of the stiffness matrix is the elastic energy, for displacements that only involve finite entries of the
matrix. -/
theorem C65_energy (h : stiffness mat mesh lmin lmax coupling = .ok Km) (hm : GoodMat mat)
    (hp : PositiveLengths mesh.rows lmin lmax) {L : ℕ → K} (hL : BeamLengths mesh.rows lmin lmax L) (u : ℕ → K)
    (M : ℕ → ℕ → K) (hM : ∀ r s, u r ≠ 0 → u s ≠ 0 → Km.get r s = .fin (M r s)) :
    energy (2 * mesh.rows.length) M u = elasticEnergy mat mesh.rows coupling L u := by
  obtain ⟨bl, has, hpos, -, hbl⟩ := assembled_lengths h
  rw [← has.energy_doc hm (hpos hp) ((hbl L).1 hL)]
  unfold energy
  apply Finset.sum_congr rfl
  intro r _
  apply Finset.sum_congr rfl
  intro s _
  by_cases h1 : u r = 0
  · simp [h1]
  · by_cases h2 : u s = 0
    · simp [h2]
    · rw [has.of_fin hm (hpos hp) (hM r s h1 h2)]

/-! ## C66 -/

/-- The coupling of the displacements of the ends of a beam is minus its transverse stiffness: shear and bending in series. -/
theorem C66_transverse (h : stiffness mat mesh lmin lmax coupling = .ok Km) (hm : GoodMat mat)
    (hp : PositiveLengths mesh.rows lmin lmax) {L : ℕ → K} (hL : BeamLengths mesh.rows lmin lmax L) {i : ℕ}
    (hi : StartsBeam mesh.rows i) : ∃ f, nodeFiber mat mesh.rows i = some f ∧
      Km.get (2 * i) (2 * succNode mesh.rows i) = .fin (- transverse f (L i)) := by
  obtain ⟨bl, has, hpos, -, hbl⟩ := assembled_lengths h
  obtain ⟨p, hpm, rfl⟩ := has.all i hi
  obtain ⟨-, h2, h3⟩ := (has.beam p hpm).data
  refine ⟨p.1.fiber, h3, ?_⟩
  rw [has.disp hm (hpos hp) (Or.inl (by omega)), ← (hbl L).1 hL p hpm, ← stiff0_eq (has.solid hm p hpm) (hpos hp p hpm), h2]
  congr 1
  classical
  unfold table allEntries
  rw [get_sum_ite, sum_map_flatMap]
  have hlt := (has.beam p hpm).lt
  rw [← List.sum_toFinset _ (List.Nodup.of_map _ has.nodup), Finset.sum_eq_single p]
  · have x1 : ¬ (2 * p.1.i = 2 * p.1.j) := by omega
    have x2 : ¬ (2 * p.1.j = 2 * p.1.i) := by omega
    have x3 : ¬ (2 * p.1.i + 1 = 2 * p.1.j) := by omega
    have x4 : ¬ (2 * p.1.j + 1 = 2 * p.1.i) := by omega
    have x5 : ¬ (2 * p.1.i + 1 = 2 * p.1.i) := by omega
    have x6 : ¬ (2 * p.1.j + 1 = 2 * p.1.j) := by omega
    simp [numEntries, x1, x2, x3, x4]
  · intro q hq hne
    have hq := List.mem_toFinset.1 hq
    have hqi : q.1.i ≠ p.1.i := fun e => hne (List.inj_on_of_nodup_map has.nodup hq hpm e)
    have hqlt := (has.beam q hq).lt
    apply List.sum_eq_zero
    intro x hx
    obtain ⟨e, he, rfl⟩ := List.mem_map.1 hx
    apply if_neg
    simp only [numEntries, List.mem_cons, List.not_mem_nil, or_false] at he
    rcases he with rfl | rfl | rfl | rfl | rfl | rfl | rfl | rfl | rfl | rfl | rfl | rfl | rfl | rfl | rfl | rfl <;>
      simp only <;> omega
  · intro hn
    exact absurd (List.mem_toFinset.2 hpm) hn

/-- The transverse stiffness is positive, at most the shear stiffness `G A / l` and the bending stiffness `E A h² / l³`, and at
least half of one of them. -/
theorem C66_bounds (h : stiffness mat mesh lmin lmax coupling = .ok Km) (hm : GoodMat mat)
    (hp : PositiveLengths mesh.rows lmin lmax) {L : ℕ → K} (hL : BeamLengths mesh.rows lmin lmax L) {i : ℕ}
    (hi : StartsBeam mesh.rows i) {f : Fiber K} (hf : nodeFiber mat mesh.rows i = some f) :
    ∃ k, Km.get (2 * i) (2 * succNode mesh.rows i) = .fin (-k) ∧ 0 < k ∧ k ≤ f.G * sectionArea f / L i ∧
      (∀ E : K, f.E = (E : WithTop K) → k ≤ E * sectionArea f * f.h ^ 2 / L i ^ 3 ∧
        min (f.G * sectionArea f / L i) (E * sectionArea f * f.h ^ 2 / L i ^ 3) ≤ 2 * k) ∧
      (f.E = ⊤ → k = f.G * sectionArea f / L i) := by
  obtain ⟨f', hf', he⟩ := C66_transverse h hm hp hL hi
  rw [hf] at hf'; cases hf'
  obtain ⟨bl, has, hpos, -, hbl⟩ := assembled_lengths h
  obtain ⟨p, hpm, rfl⟩ := has.all i hi
  obtain ⟨-, h2, h3⟩ := (has.beam p hpm).data
  rw [hf] at h3; cases h3
  have hs := has.solid hm p hpm
  have hl := hpos hp p hpm
  rw [(hbl L).1 hL p hpm] at hl
  refine ⟨_, he, ?_⟩
  generalize L p.1.i = l at hl ⊢
  have hA := sectionArea_pos hs
  have hG := hs.G
  have hh := hs.h
  generalize hf0 : p.1.fiber = f at hs hA hG hh ⊢
  set a := l / (f.G * sectionArea f) with ha
  have ha0 : 0 < a := by positivity
  have hea : f.G * sectionArea f / l = a⁻¹ := by rw [ha, inv_div]
  rw [hea]
  unfold transverse
  rcases hE : f.E with _ | e
  · simp only [← ha]
    refine ⟨by positivity, le_rfl, fun E hE' => ?_, fun _ => trivial⟩
    exact absurd hE' (by exact WithTop.top_ne_coe)
  · have hem := hs.E_pos hE
    simp only [← ha]
    set b := l ^ 3 / (e * sectionArea f * f.h ^ 2) with hb
    have hb0 : 0 < b := by positivity
    have heb : e * sectionArea f * f.h ^ 2 / l ^ 3 = b⁻¹ := by rw [hb, inv_div]
    refine ⟨by positivity, inv_anti₀ ha0 (by linarith), fun E hE' => ?_, fun hE' => ?_⟩
    · have : e = E := WithTop.coe_injective hE'
      subst this
      rw [heb]
      refine ⟨inv_anti₀ hb0 (by linarith), ?_⟩
      rcases le_total a b with hab | hab
      · refine (min_le_right _ _).trans ?_
        rw [inv_le_iff_one_le_mul₀ hb0, mul_comm, ← mul_assoc, ← div_eq_mul_inv, le_div_iff₀ (by linarith)]
        linarith
      · refine (min_le_left _ _).trans ?_
        rw [inv_le_iff_one_le_mul₀ ha0, mul_comm, ← mul_assoc, ← div_eq_mul_inv, le_div_iff₀ (by linarith)]
        linarith
    · exact absurd hE' (by exact WithTop.coe_ne_top)

/-- Along a fiber of infinite tensile modulus the compliances of the beams add up to `length / (G A)`, whatever the nodes. -/
theorem C66_subdivision (h : stiffness mat mesh none none coupling = .ok Km) (hm : GoodMat mat)
    (hp : PositiveLengths mesh.rows none none) {k : ℕ} {f : Fiber K} (hk : mat.fibers[k]? = some f) (hE : f.E = ⊤)
    (N : ℕ → ℕ → K) (hN : ∀ i j, Km.get (2 * i) (2 * j) = .fin (N i j)) :
    ∑ i ∈ beamsOf mesh.rows k, (- N i (succNode mesh.rows i))⁻¹ =
      (∑ i ∈ beamsOf mesh.rows k, beamLength mesh.rows i) / (f.G * sectionArea f) := by
  obtain ⟨-, ⟨L, hL⟩, -, hraw⟩ := C65_lengths h
  have hraw := hraw rfl rfl L hL
  rw [div_eq_mul_inv, Finset.sum_mul]
  simp only [← div_eq_mul_inv]
  apply Finset.sum_congr rfl
  intro i hi
  simp only [beamsOf, nodesOf, Finset.mem_filter, Finset.mem_range] at hi
  obtain ⟨⟨-, r, hr, hfk⟩, r', hr', hlt⟩ := hi
  have hs : StartsBeam mesh.rows i := ⟨r', hr', hlt⟩
  have hnf : nodeFiber mat mesh.rows i = some f := by simp [nodeFiber, hr, hfk, hk]
  obtain ⟨f', hf', he⟩ := C66_transverse h hm hp hL hs
  rw [hnf] at hf'; cases hf'
  rw [hN] at he
  have he := Cell.fin.inj he
  rw [he, neg_neg, hraw i hs]
  unfold transverse
  have hE' : f.E = none := hE
  rw [hE']
  simp only [inv_inv]

end Fibermat
