import Verif.Lemmas.Refined
import Verif.Props.Mirror

/-! # Finer and finer meshes of a smooth deformation (C142) -/

set_option linter.unusedSectionVars false

namespace Fibermat
open Spec Real
variable {K : Type} [Field K] [LinearOrder K] [IsStrictOrderedRing K]

theorem spans_telescope (F : K → ℝ) {rows : List (MeshRow K)} (hs : NodesSorted rows) (hb : BeamsCyclic rows) {k : ℕ} {l : K} (hl : 0 < l)
    (h : SpansFiber rows k l) :
    ∑ i ∈ beamsOf rows k, (F (abscissa rows (succNode rows i)) - F (abscissa rows i)) = F (l / 2) - F (-(l / 2)) := by
  obtain ⟨⟨i0, hi0, e0⟩, ⟨i1, hi1, e1⟩, hall⟩ := h
  obtain ⟨a0, h0, k0⟩ := mem_nodesOf.1 hi0
  obtain ⟨a1, h1, k1⟩ := mem_nodesOf.1 hi1
  have s0 : a0.s = -(l / 2) := by rw [← e0]; simp [abscissa, h0]
  have s1 : a1.s = l / 2 := by rw [← e1]; simp [abscissa, h1]
  have hbd : ∀ (i : Nat) (r : MeshRow K), rows[i]? = some r → r.fiber = k → |r.s| ≤ l / 2 := by
    intro i r hr hk
    have := hall i (mem_nodesOf.2 ⟨r, hr, hk⟩)
    simpa [abscissa, hr] using this
  have := beam_telescope F hs hb h0 h1 k0 k1 (by rw [s0, s1]; linarith)
    (fun i r hr hk => by rw [s0]; exact (abs_le.1 (hbd i r hr hk)).1) (fun i r hr hk => by rw [s1]; exact (abs_le.1 (hbd i r hr hk)).2)
  rwa [s0, s1] at this

theorem cyclic_same {rows : List (MeshRow K)} (hb : BeamsCyclic rows) {i : ℕ} {k : Int} (hi : i < rows.length) :
    succNode rows i ∈ nodesOf rows k ↔ i ∈ nodesOf rows k := by
  obtain ⟨r, hr⟩ : ∃ r, rows[i]? = some r := ⟨_, List.getElem?_eq_getElem hi⟩
  obtain ⟨j, hj, r', p, hr', hp, he, -⟩ := hb i r hr
  rw [hr] at hr'; cases hr'
  have e : succNode rows i = j := by simp [succNode, hr, hj]
  rw [e, mem_nodesOf, mem_nodesOf]
  constructor
  · rintro ⟨p', hp', hk⟩
    rw [hp] at hp'; cases hp'
    exact ⟨r, hr, he ▸ hk⟩
  · rintro ⟨r', hr', hk⟩
    rw [hr] at hr'; cases hr'
    exact ⟨p, hp, he.trans hk⟩

theorem mem_beamsOf_iff {rows : List (MeshRow K)} {i : ℕ} {k : Int} : i ∈ beamsOf rows k ↔ i ∈ nodesOf rows k ∧ StartsBeam rows i := by
  unfold beamsOf StartsBeam
  rw [Finset.mem_filter]

/-- A deformation of one fiber only stretches the beams of this fiber. -/
theorem sampled_energy (φ : K →+* ℝ) {mat : Mat K} {rows : List (MeshRow K)} {k : ℕ} {f : Fiber K} (hf : mat.fibers[k]? = some f)
    (hb : BeamsCyclic rows) {w t : ℝ → ℝ} {u : ℕ → K} (hu : Sampled φ rows k w t u) (L : ℕ → K) :
    elasticEnergy mat rows 1 L u = ∑ i ∈ beamsOf rows k,
      elementEnergy f (L i) 1 (u (2 * i)) (u (2 * i + 1)) (u (2 * succNode rows i)) (u (2 * succNode rows i + 1)) := by
  classical
  unfold elasticEnergy
  have hsub : beamsOf rows k ⊆ Finset.range rows.length := by
    intro i hi
    obtain ⟨r, hr, -⟩ := mem_nodesOf.1 (mem_beamsOf_iff.1 hi).1
    exact Finset.mem_range.2 (List.getElem?_eq_some_iff.1 hr).1
  rw [← Finset.sum_subset hsub]
  · refine Finset.sum_congr rfl (fun i hi => ?_)
    obtain ⟨hn, hs⟩ := mem_beamsOf_iff.1 hi
    obtain ⟨r, hr, hk⟩ := mem_nodesOf.1 hn
    rw [if_pos hs]
    have : nodeFiber mat rows i = some f := by simp [nodeFiber, hr, hk, hf]
    rw [this]
  · intro i hi hnot
    split
    swap
    · rfl
    rename_i hs
    have hi1 : i ∉ nodesOf rows k := fun h => hnot (mem_beamsOf_iff.2 ⟨h, hs⟩)
    have hi2 : succNode rows i ∉ nodesOf rows k := fun h => hi1 ((cyclic_same hb (Finset.mem_range.1 hi)).1 h)
    obtain ⟨a1, a2⟩ := (hu i).2 hi1
    obtain ⟨a3, a4⟩ := (hu _).2 hi2
    rw [a1, a2, a3, a4]
    cases nodeFiber mat rows i with
    | none => rfl
    | some g => simp [elementEnergy]

/-- C142: the energy of the matrix for a smooth deformation of one fiber tends, when the beams of the fiber get short, to that of a
continuous beam with the shear stiffness of the elliptic section, but sixteen times its bending stiffness. -/
theorem C142_limit (φ : K →+* ℝ) (hφ : StrictMono φ) {f : Fiber K} {E : K} (hE : f.E = (E : WithTop K)) {w t w' t' : ℝ → ℝ}
    (hs : Smooth w t w' t') {ε : ℝ} (hε : 0 < ε) :
    ∃ d, 0 < d ∧ ∀ (mat : Mat K) (mesh : Mesh K) (k : ℕ) (Km : Coo (Cell K)) (M : ℕ → ℕ → K) (u : ℕ → K), GoodMat mat →
      mat.fibers[k]? = some f → ValidMesh mesh.frame → SpansFiber mesh.rows k f.l → PositiveLengths mesh.rows none none →
      (∀ i ∈ beamsOf mesh.rows k, φ (beamLength mesh.rows i) ≤ d) → Sampled φ mesh.rows k w t u →
      stiffness mat mesh none none 1 = .ok Km → (∀ r s, u r ≠ 0 → u s ≠ 0 → Km.get r s = .fin (M r s)) →
      |φ (energy (2 * mesh.rows.length) M u) - npPi / π * smoothEnergy (16 * (φ E * ellipseInertia (φ f.b) (φ f.h)))
        (φ f.G * ellipseArea (φ f.b) (φ f.h)) (-(φ f.l / 2)) (φ f.l / 2) t w' t'| ≤ ε := by
  classical
  by_cases hgood : ∃ size, GoodFiber size f
  swap
  · refine ⟨1, one_pos, ?_⟩
    intro mat mesh k Km M u hm hf
    obtain ⟨size, -, hg⟩ := hm.size
    exact absurd ⟨size, hg f (List.mem_of_getElem? hf)⟩ hgood
  obtain ⟨size, hgf⟩ := hgood
  have hB := pos_of_mono hφ hgf.b
  have hH := pos_of_mono hφ hgf.h
  have hG := pos_of_mono hφ hgf.G
  have hl := pos_of_mono hφ hgf.l
  have he := pos_of_mono hφ (tensile_pos hgf hE)
  have hpi := pi_pos
  have hn : (0 : ℝ) < npPi := npPi_pos
  have hA : 0 < ellipseArea (φ f.b) (φ f.h) := by rw [C139_area hB hH]; positivity
  have hI : 0 < ellipseInertia (φ f.b) (φ f.h) := by rw [C139_inertia hB hH]; positivity
  set B := npPi / π * (16 * (φ E * ellipseInertia (φ f.b) (φ f.h))) with hBdef
  set S := npPi / π * (φ f.G * ellipseArea (φ f.b) (φ f.h)) with hSdef
  obtain ⟨d, d0, hd⟩ := element_near (S := S) (B := B) (r := φ f.G / (φ E * φ f.h ^ 2)) (by positivity) (by positivity) (by positivity)
    hs (φ f.l / 2) (η := ε / φ f.l) (by positivity)
  refine ⟨d, d0, ?_⟩
  intro mat mesh k Km M u hm hf hv hspan hp hshort hu hK hM
  have hsort : NodesSorted mesh.rows := by have := hv.sorted; rwa [rows_meshFrame] at this
  have hbeams : BeamsCyclic mesh.rows := by have := hv.beams; rwa [rows_meshFrame] at this
  obtain ⟨-, ⟨L, hL⟩, -, hraw⟩ := C65_lengths hK
  rw [C65_energy hK hm hp hL u M hM, sampled_energy φ hf hbeams hu, map_sum]
  have ct : Continuous t := continuous_iff_continuousAt.2 (fun s => (hs.deriv_t s).continuousAt)
  have cw' := hs.cont_w
  have ct' := hs.cont_t
  -- the integral over the fiber is the sum of those over its beams
  have hint : npPi / π * smoothEnergy (16 * (φ E * ellipseInertia (φ f.b) (φ f.h))) (φ f.G * ellipseArea (φ f.b) (φ f.h))
      (-(φ f.l / 2)) (φ f.l / 2) t w' t' = smoothEnergy B S (-(φ f.l / 2)) (φ f.l / 2) t w' t' := by
    unfold smoothEnergy
    rw [← intervalIntegral.integral_const_mul]
    congr 1
    ext s
    rw [hBdef, hSdef]; ring
  have hii : ∀ a b, IntervalIntegrable (fun s => S * (w' s - t s) ^ 2 + B * t' s ^ 2) MeasureTheory.volume a b :=
    fun a b => Continuous.intervalIntegrable (by fun_prop) _ _
  have hsub : ∀ a b c, smoothEnergy B S a c t w' t' - smoothEnergy B S a b t w' t' = smoothEnergy B S b c t w' t' := fun a b c => by
    unfold smoothEnergy
    rw [← intervalIntegral.integral_add_adjacent_intervals (hii a b) (hii b c)]; ring
  have htel := spans_telescope (fun s => smoothEnergy B S (-(φ f.l / 2)) (φ s) t w' t') hsort hbeams hgf.l hspan
  have hlen := spans_telescope (fun s => φ s) hsort hbeams hgf.l hspan
  simp only [hsub, map_neg, map_div₀, map_ofNat] at htel hlen
  rw [hint, ← htel, ← Finset.sum_sub_distrib]
  refine (Finset.abs_sum_le_sum_abs _ _).trans ?_
  have hterm : ∀ i ∈ beamsOf mesh.rows k,
      |φ (elementEnergy f (L i) 1 (u (2 * i)) (u (2 * i + 1)) (u (2 * succNode mesh.rows i)) (u (2 * succNode mesh.rows i + 1))) -
        smoothEnergy B S (φ (abscissa mesh.rows i)) (φ (abscissa mesh.rows (succNode mesh.rows i))) t w' t'| ≤
      ε / φ f.l * (φ (abscissa mesh.rows (succNode mesh.rows i)) - φ (abscissa mesh.rows i)) := by
    intro i hi
    obtain ⟨hni, hst⟩ := mem_beamsOf_iff.1 hi
    obtain ⟨r, hr, -⟩ := mem_nodesOf.1 hni
    have hnj := (cyclic_same hbeams (k := k) (List.getElem?_eq_some_iff.1 hr).1).2 hni
    have hLi : L i = beamLength mesh.rows i := hraw rfl rfl L hL i hst
    have hpos : 0 < beamLength mesh.rows i := hp.raw rfl i hst
    have hlt := pos_of_mono hφ hpos
    have hsh := hshort i hi
    have e1 : φ (beamLength mesh.rows i) = φ (abscissa mesh.rows (succNode mesh.rows i)) - φ (abscissa mesh.rows i) := by
      rw [beamLength, map_sub]
    have habs : ∀ j ∈ nodesOf mesh.rows k, |φ (abscissa mesh.rows j)| ≤ φ f.l / 2 := by
      intro j hj
      have h1 := abs_le.1 (hspan.2.2 j hj)
      have h2 := hφ.monotone h1.1
      have h3 := hφ.monotone h1.2
      simp only [map_neg, map_div₀, map_ofNat] at h2 h3
      exact abs_le.2 ⟨h2, h3⟩
    rw [e1] at hlt hsh
    have key := hd _ _ (habs i hni) (habs _ hnj) (by linarith) hsh
    obtain ⟨a1, a2⟩ := (hu i).1 hni
    obtain ⟨a3, a4⟩ := (hu _).1 hnj
    rw [hLi, element_real φ hφ hgf hE hpos, a1, a2, a3, a4, e1]
    exact key
  refine (Finset.sum_le_sum hterm).trans ?_
  rw [← Finset.mul_sum, hlen]
  have : φ f.l / 2 - -(φ f.l / 2) = φ f.l := by ring
  rw [this]
  exact le_of_eq (by field_simp)

/-- C142: a finer mesh does not cure this: whenever the fiber is bent, on every mesh with short enough beams the energy of the matrix
exceeds that of the fiber with elliptic section by more than fourteen times its bending energy. -/
theorem C142_excess (φ : K →+* ℝ) (hφ : StrictMono φ) {f : Fiber K} {E : K} (hE : f.E = (E : WithTop K)) {w t w' t' : ℝ → ℝ}
    (hs : Smooth w t w' t') (hbent : 0 < ∫ s in -(φ f.l / 2)..(φ f.l / 2), t' s ^ 2) :
    ∃ d, 0 < d ∧ ∀ (mat : Mat K) (mesh : Mesh K) (k : ℕ) (Km : Coo (Cell K)) (M : ℕ → ℕ → K) (u : ℕ → K), GoodMat mat →
      mat.fibers[k]? = some f → ValidMesh mesh.frame → SpansFiber mesh.rows k f.l → PositiveLengths mesh.rows none none →
      (∀ i ∈ beamsOf mesh.rows k, φ (beamLength mesh.rows i) ≤ d) → Sampled φ mesh.rows k w t u →
      stiffness mat mesh none none 1 = .ok Km → (∀ r s, u r ≠ 0 → u s ≠ 0 → Km.get r s = .fin (M r s)) →
      npPi / π * (smoothEnergy (φ E * ellipseInertia (φ f.b) (φ f.h)) (φ f.G * ellipseArea (φ f.b) (φ f.h)) (-(φ f.l / 2)) (φ f.l / 2)
        t w' t' + 14 * (φ E * ellipseInertia (φ f.b) (φ f.h) * ∫ s in -(φ f.l / 2)..(φ f.l / 2), t' s ^ 2)) <
          φ (energy (2 * mesh.rows.length) M u) := by
  by_cases hgood : ∃ size, GoodFiber size f
  swap
  · refine ⟨1, one_pos, ?_⟩
    intro mat mesh k Km M u hm hf
    obtain ⟨size, -, hg⟩ := hm.size
    exact absurd ⟨size, hg f (List.mem_of_getElem? hf)⟩ hgood
  obtain ⟨size, hgf⟩ := hgood
  have hB := pos_of_mono hφ hgf.b
  have hH := pos_of_mono hφ hgf.h
  have he := pos_of_mono hφ (tensile_pos hgf hE)
  have hpi := pi_pos
  have hn : (0 : ℝ) < npPi := npPi_pos
  have hI : 0 < ellipseInertia (φ f.b) (φ f.h) := by rw [C139_inertia hB hH]; positivity
  have ct : Continuous t := continuous_iff_continuousAt.2 (fun s => (hs.deriv_t s).continuousAt)
  have cw' := hs.cont_w
  have ct' := hs.cont_t
  set J := ∫ s in -(φ f.l / 2)..(φ f.l / 2), t' s ^ 2 with hJ
  set B := φ E * ellipseInertia (φ f.b) (φ f.h) with hBd
  set S := φ f.G * ellipseArea (φ f.b) (φ f.h) with hSd
  have hB0 : 0 < B := by positivity
  have hgap : 0 < npPi / π * (B * J) := by positivity
  obtain ⟨d, d0, hd⟩ := C142_limit φ hφ hE hs (half_pos hgap)
  refine ⟨d, d0, ?_⟩
  intro mat mesh k Km M u hm hf hv hspan hp hshort hu hK hM
  have := (abs_le.1 (hd mat mesh k Km M u hm hf hv hspan hp hshort hu hK hM)).1
  rw [← hBd, ← hSd] at this
  have e : smoothEnergy (16 * B) S (-(φ f.l / 2)) (φ f.l / 2) t w' t' =
      smoothEnergy B S (-(φ f.l / 2)) (φ f.l / 2) t w' t' + 15 * (B * J) := by
    unfold smoothEnergy
    rw [hJ, ← intervalIntegral.integral_const_mul, ← intervalIntegral.integral_const_mul, ← intervalIntegral.integral_add
      (Continuous.intervalIntegrable (by fun_prop) _ _) (Continuous.intervalIntegrable (by fun_prop) _ _)]
    congr 1
    ext s
    ring
  rw [e] at this
  have h2 : npPi / π * (smoothEnergy B S (-(φ f.l / 2)) (φ f.l / 2) t w' t' + 15 * (B * J)) =
      npPi / π * (smoothEnergy B S (-(φ f.l / 2)) (φ f.l / 2) t w' t' + 14 * (B * J)) + npPi / π * (B * J) := by ring
  rw [h2] at this
  linarith

/-- C142: for a fiber of infinite tensile modulus, which can only be deflected without rotation, finer meshes do converge to the
continuous body: a string with the shear stiffness of the elliptic section. -/
theorem C142_string (φ : K →+* ℝ) (hφ : StrictMono φ) {f : Fiber K} (hE : f.E = ⊤) {w w' : ℝ → ℝ} (hw : ∀ s, HasDerivAt w (w' s) s)
    (cw' : Continuous w') {ε : ℝ} (hε : 0 < ε) :
    ∃ d, 0 < d ∧ ∀ (mat : Mat K) (mesh : Mesh K) (k : ℕ) (Km : Coo (Cell K)) (M : ℕ → ℕ → K) (u : ℕ → K), GoodMat mat →
      mat.fibers[k]? = some f → ValidMesh mesh.frame → SpansFiber mesh.rows k f.l → PositiveLengths mesh.rows none none →
      (∀ i ∈ beamsOf mesh.rows k, φ (beamLength mesh.rows i) ≤ d) → Sampled φ mesh.rows k w (fun _ => 0) u →
      stiffness mat mesh none none 1 = .ok Km → (∀ r s, u r ≠ 0 → u s ≠ 0 → Km.get r s = .fin (M r s)) →
      |φ (energy (2 * mesh.rows.length) M u) - npPi / π * (φ f.G * ellipseArea (φ f.b) (φ f.h) *
        ∫ s in -(φ f.l / 2)..(φ f.l / 2), w' s ^ 2)| ≤ ε := by
  classical
  by_cases hgood : ∃ size, GoodFiber size f
  swap
  · refine ⟨1, one_pos, ?_⟩
    intro mat mesh k Km M u hm hf
    obtain ⟨size, -, hg⟩ := hm.size
    exact absurd ⟨size, hg f (List.mem_of_getElem? hf)⟩ hgood
  obtain ⟨size, hgf⟩ := hgood
  have hB := pos_of_mono hφ hgf.b
  have hH := pos_of_mono hφ hgf.h
  have hG := pos_of_mono hφ hgf.G
  have hl := pos_of_mono hφ hgf.l
  have hpi := pi_pos
  have hn : (0 : ℝ) < npPi := npPi_pos
  have hA : 0 < ellipseArea (φ f.b) (φ f.h) := by rw [C139_area hB hH]; positivity
  set S := npPi / π * (φ f.G * ellipseArea (φ f.b) (φ f.h)) with hSdef
  obtain ⟨d, d0, hd⟩ := string_near (S := S) (by positivity) hw cw' (φ f.l / 2) (η := ε / φ f.l) (by positivity)
  refine ⟨d, d0, ?_⟩
  intro mat mesh k Km M u hm hf hv hspan hp hshort hu hK hM
  have hsort : NodesSorted mesh.rows := by have := hv.sorted; rwa [rows_meshFrame] at this
  have hbeams : BeamsCyclic mesh.rows := by have := hv.beams; rwa [rows_meshFrame] at this
  obtain ⟨-, ⟨L, hL⟩, -, hraw⟩ := C65_lengths hK
  rw [C65_energy hK hm hp hL u M hM, sampled_energy φ hf hbeams hu, map_sum]
  have hint : npPi / π * (φ f.G * ellipseArea (φ f.b) (φ f.h) * ∫ s in -(φ f.l / 2)..(φ f.l / 2), w' s ^ 2) =
      ∫ s in -(φ f.l / 2)..(φ f.l / 2), S * w' s ^ 2 := by
    rw [intervalIntegral.integral_const_mul, hSdef]; ring
  have hii : ∀ a b, IntervalIntegrable (fun s => S * w' s ^ 2) MeasureTheory.volume a b :=
    fun a b => Continuous.intervalIntegrable (by fun_prop) _ _
  have hsub : ∀ a b c, (∫ s in a..c, S * w' s ^ 2) - (∫ s in a..b, S * w' s ^ 2) = ∫ s in b..c, S * w' s ^ 2 := fun a b c => by
    rw [← intervalIntegral.integral_add_adjacent_intervals (hii a b) (hii b c)]; ring
  have htel := spans_telescope (fun s => ∫ x in -(φ f.l / 2)..φ s, S * w' x ^ 2) hsort hbeams hgf.l hspan
  have hlen := spans_telescope (fun s => φ s) hsort hbeams hgf.l hspan
  simp only [hsub, map_neg, map_div₀, map_ofNat] at htel hlen
  rw [hint, ← htel, ← Finset.sum_sub_distrib]
  refine (Finset.abs_sum_le_sum_abs _ _).trans ?_
  have hterm : ∀ i ∈ beamsOf mesh.rows k,
      |φ (elementEnergy f (L i) 1 (u (2 * i)) (u (2 * i + 1)) (u (2 * succNode mesh.rows i)) (u (2 * succNode mesh.rows i + 1))) -
        ∫ s in φ (abscissa mesh.rows i)..φ (abscissa mesh.rows (succNode mesh.rows i)), S * w' s ^ 2| ≤
      ε / φ f.l * (φ (abscissa mesh.rows (succNode mesh.rows i)) - φ (abscissa mesh.rows i)) := by
    intro i hi
    obtain ⟨hni, hst⟩ := mem_beamsOf_iff.1 hi
    obtain ⟨r, hr, -⟩ := mem_nodesOf.1 hni
    have hnj := (cyclic_same hbeams (k := k) (List.getElem?_eq_some_iff.1 hr).1).2 hni
    have hLi : L i = beamLength mesh.rows i := hraw rfl rfl L hL i hst
    have hpos : 0 < beamLength mesh.rows i := hp.raw rfl i hst
    have hlt := pos_of_mono hφ hpos
    have hsh := hshort i hi
    have e1 : φ (beamLength mesh.rows i) = φ (abscissa mesh.rows (succNode mesh.rows i)) - φ (abscissa mesh.rows i) := by
      rw [beamLength, map_sub]
    have habs : ∀ j ∈ nodesOf mesh.rows k, |φ (abscissa mesh.rows j)| ≤ φ f.l / 2 := by
      intro j hj
      have h1 := abs_le.1 (hspan.2.2 j hj)
      have h2 := hφ.monotone h1.1
      have h3 := hφ.monotone h1.2
      simp only [map_neg, map_div₀, map_ofNat] at h2 h3
      exact abs_le.2 ⟨h2, h3⟩
    rw [e1] at hlt hsh
    have key := hd _ _ (habs i hni) (habs _ hnj) (by linarith) hsh
    obtain ⟨a1, a2⟩ := (hu i).1 hni
    obtain ⟨a3, a4⟩ := (hu _).1 hnj
    have z : ∀ {x : K}, φ x = 0 → x = 0 := fun {x} hx => hφ.injective (by rw [hx, map_zero])
    rw [z a2, z a4, hLi, element_string φ hφ hgf hE hpos, a1, a3, e1]
    exact key
  refine (Finset.sum_le_sum hterm).trans ?_
  rw [← Finset.mul_sum, hlen]
  have : φ f.l / 2 - -(φ f.l / 2) = φ f.l := by ring
  rw [this]
  exact le_of_eq (by field_simp)

/-- C142: the mesh of a net spans every fiber. -/
theorem C142_spans {m : Mat K} [FloorRing K] (h : GoodMat m) {periodic : Bool} {net : Net K} {mesh : Mesh K}
    (hn : netNew m periodic = .ok net) (hm : meshNew net = .ok mesh) {k : Nat} {f : Fiber K} (hf : m.fibers[k]? = some f) :
    ValidMesh mesh.frame ∧ SpansFiber mesh.rows k f.l := by
  refine ⟨mesh_valid h hn hm, ?_⟩
  have hi := meshNew_init hm
  have he := netNew_ended h hn
  obtain ⟨q, r, hr, hA, hB, -⟩ := C07_end_row h hn hf
  obtain ⟨place, hp⟩ := C26_constraints hi
  obtain ⟨a, ha, ha1, -⟩ := hp.endA q r hr
  have hfk : a.fiber = k := ha1.fiber.trans hA
  have e : halfLength m (k : Int) = f.l / 2 := by simp [halfLength, hf]
  obtain ⟨-, -, ⟨j1, b1, hb1, hf1, hs1⟩, ⟨j0, b0, hb0, hf0, hs0⟩, -⟩ := ended_nodes he hp ha
  rw [hfk, e] at hs0 hs1
  rw [hfk] at hf0 hf1
  refine ⟨⟨j0, mem_nodesOf.2 ⟨b0, hb0, hf0⟩, by simp [abscissa, hb0, hs0]⟩, ⟨j1, mem_nodesOf.2 ⟨b1, hb1, hf1⟩, by simp [abscissa, hb1, hs1]⟩, ?_⟩
  intro i hin
  obtain ⟨b, hb, hbk⟩ := mem_nodesOf.1 hin
  have := (ended_nodes he hp hb).1
  rw [hbk, e] at this
  simpa [abscissa, hb] using this

end Fibermat
