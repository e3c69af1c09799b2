import Verif.Props.Stiffer

/-! # The beam element and the Timoshenko beam (C115)

The documentation of `stiffness` says that the element matrix is built using a Timoshenko beam law (`model.py:16`).  The element of a
Timoshenko beam with bending stiffness `B = E A h² / 12` and shear stiffness `S = G A` has the displacement entries of the code, but its
bending term is `(E/G) h² / 12` instead of `(E/G) h²`. -/

set_option linter.unusedSectionVars false
set_option linter.unusedSimpArgs false

namespace Fibermat
variable {K : Type} [Field K] [LinearOrder K] [IsStrictOrderedRing K]
open Spec

/-- Sum of three squares over positive numbers. -/
theorem squares_le {a b c x y z : K} (ha : 0 < a) (hb : 0 < b) (hc : 0 < c) :
    (x + y + z) ^ 2 / (a + b + c) ≤ x ^ 2 / a + y ^ 2 / b + z ^ 2 / c := by
  have h2 : ∀ {a b x y : K}, 0 < a → 0 < b → (x + y) ^ 2 / (a + b) ≤ x ^ 2 / a + y ^ 2 / b := by
    intro a b x y ha hb
    rw [div_add_div _ _ ha.ne' hb.ne', div_le_div_iff₀ (by positivity) (by positivity)]
    nlinarith [mul_nonneg (mul_pos ha hb).le (sq_nonneg 0), sq_nonneg (x * b - y * a)]
  have := h2 (x := x + y) (y := z) (add_pos ha hb) hc
  have := h2 (x := x) (y := y) ha hb
  linarith

section
variable {B S l1 l2 : K}

/-- The energy of a divided Timoshenko beam as sum of three squares. -/
theorem timoshenko_split (hB : 0 < B) (hS : 0 < S) (h1 : 0 < l1) (h2 : 0 < l2) (ui ti um tm uj tj : K) :
    timoshenkoEnergy B S l1 ui ti um tm + timoshenkoEnergy B S l2 um tm uj tj =
      (um - ui - l1 * ((ti + tm) / 2)) ^ 2 / (l1 ^ 3 / (12 * B) + l1 / S) +
      (uj - um - l2 * ((tm + tj) / 2)) ^ 2 / (l2 ^ 3 / (12 * B) + l2 / S) +
      ((l2 * (tm - ti) - l1 * (tj - tm)) / 2) ^ 2 / (l1 * l2 * (l1 + l2) / (4 * B)) + B / (l1 + l2) * (tj - ti) ^ 2 := by
  have h3 : 0 < l1 + l2 := by positivity
  have e : B / l1 * (tm - ti) ^ 2 + B / l2 * (tj - tm) ^ 2 =
      ((l2 * (tm - ti) - l1 * (tj - tm)) / 2) ^ 2 / (l1 * l2 * (l1 + l2) / (4 * B)) + B / (l1 + l2) * (tj - ti) ^ 2 := by
    field_simp
    ring
  unfold timoshenkoEnergy
  rw [inv_mul_eq_div, inv_mul_eq_div]
  linear_combination e

theorem timoshenko_compliance (hB : 0 < B) (hS : 0 < S) :
    (l1 ^ 3 / (12 * B) + l1 / S) + (l2 ^ 3 / (12 * B) + l2 / S) + l1 * l2 * (l1 + l2) / (4 * B) =
      (l1 + l2) ^ 3 / (12 * B) + (l1 + l2) / S := by
  field_simp
  ring

/-! ## C115 -/

/-- A Timoshenko beam may be divided anywhere: with the node in between free, the energy of the two parts is that of the whole. -/
theorem C115_timoshenko (hB : 0 < B) (hS : 0 < S) (h1 : 0 < l1) (h2 : 0 < l2) (ui ti uj tj : K) :
    IsLeast {e | ∃ um tm, e = timoshenkoEnergy B S l1 ui ti um tm + timoshenkoEnergy B S l2 um tm uj tj}
      (timoshenkoEnergy B S (l1 + l2) ui ti uj tj) := by
  have h3 : 0 < l1 + l2 := by positivity
  have p1 : 0 < l1 ^ 3 / (12 * B) + l1 / S := by positivity
  have p2 : 0 < l2 ^ 3 / (12 * B) + l2 / S := by positivity
  have p3 : 0 < l1 * l2 * (l1 + l2) / (4 * B) := by positivity
  have hc := timoshenko_compliance (l1 := l1) (l2 := l2) hB hS
  have p : 0 < (l1 + l2) ^ 3 / (12 * B) + (l1 + l2) / S := by positivity
  have hsum : ∀ um tm : K, (um - ui - l1 * ((ti + tm) / 2)) + (uj - um - l2 * ((tm + tj) / 2)) +
      (l2 * (tm - ti) - l1 * (tj - tm)) / 2 = uj - ui - (l1 + l2) * ((ti + tj) / 2) := by
    intro um tm; ring
  have hwhole : timoshenkoEnergy B S (l1 + l2) ui ti uj tj = (uj - ui - (l1 + l2) * ((ti + tj) / 2)) ^ 2 /
      ((l1 + l2) ^ 3 / (12 * B) + (l1 + l2) / S) + B / (l1 + l2) * (tj - ti) ^ 2 := by
    unfold timoshenkoEnergy
    rw [inv_mul_eq_div]
  constructor
  · set γ := uj - ui - (l1 + l2) * ((ti + tj) / 2) with hγ
    set c1 := l1 ^ 3 / (12 * B) + l1 / S with hc1
    set c2 := l2 ^ 3 / (12 * B) + l2 / S with hc2
    set c3 := l1 * l2 * (l1 + l2) / (4 * B) with hc3
    set c := (l1 + l2) ^ 3 / (12 * B) + (l1 + l2) / S with hcc
    refine ⟨ui + l1 * ((ti + (ti + (2 * (γ * c3 / c) + l1 * (tj - ti)) / (l1 + l2))) / 2) + γ * c1 / c,
      ti + (2 * (γ * c3 / c) + l1 * (tj - ti)) / (l1 + l2), ?_⟩
    rw [hwhole, timoshenko_split hB hS h1 h2]
    generalize htm : ti + (2 * (γ * c3 / c) + l1 * (tj - ti)) / (l1 + l2) = tm
    generalize hum : ui + l1 * ((ti + tm) / 2) + γ * c1 / c = um
    have e1 : um - ui - l1 * ((ti + tm) / 2) = γ * c1 / c := by rw [← hum]; ring
    have e3 : (l2 * (tm - ti) - l1 * (tj - tm)) / 2 = γ * c3 / c := by
      have : (l1 + l2) * (tm - ti) = 2 * (γ * c3 / c) + l1 * (tj - ti) := by
        rw [← htm]; field_simp; ring
      linear_combination this / 2
    have e2 : uj - um - l2 * ((tm + tj) / 2) = γ * c2 / c := by
      have := hsum um tm
      rw [e1, e3] at this
      have h4 : γ = γ * c1 / c + γ * c2 / c + γ * c3 / c := by
        rw [← add_div, ← add_div, ← mul_add, ← mul_add, hc]; field_simp
      linear_combination this + h4
    rw [e1, e2, e3]
    have : (γ * c1 / c) ^ 2 / c1 + (γ * c2 / c) ^ 2 / c2 + (γ * c3 / c) ^ 2 / c3 = γ ^ 2 * (c1 + c2 + c3) / c ^ 2 := by
      field_simp
    rw [this, hc]
    have : γ ^ 2 * c / c ^ 2 = γ ^ 2 / c := by field_simp
    rw [this]
  · rintro e ⟨um, tm, rfl⟩
    rw [hwhole, timoshenko_split hB hS h1 h2, ← hsum um tm, ← hc]
    have := squares_le (x := um - ui - l1 * ((ti + tm) / 2)) (y := uj - um - l2 * ((tm + tj) / 2))
      (z := (l2 * (tm - ti) - l1 * (tj - tm)) / 2) p1 p2 p3
    linarith

end

/-- The part of the energy of the element that a Timoshenko beam does not have. -/
theorem element_excess {size l E : K} {f : Fiber K} (hf : GoodFiber size f) (hE : f.E = some E) (hl : 0 < l) (ui ti uj tj : K) :
    elementEnergy f l 1 ui ti uj tj =
      timoshenkoEnergy (E * sectionArea f * f.h ^ 2 / 12) (f.G * sectionArea f) l ui ti uj tj +
        11 / 12 * (E * sectionArea f * f.h ^ 2 / l) / (1 + f.G / E * (l / f.h) ^ 2) * (tj - ti) ^ 2 := by
  have hA := fiberArea_pos hf
  have g := hf.G
  have h0 := hf.h
  have e0 := tensile_pos hf hE
  unfold elementEnergy timoshenkoEnergy transverse
  rw [hE]
  simp only
  have h1 : f.G * l ^ 2 + E * f.h ^ 2 ≠ 0 := by positivity
  have h2 : l / (f.G * sectionArea f) + l ^ 3 / (E * sectionArea f * f.h ^ 2) =
      l * (f.G * l ^ 2 + E * f.h ^ 2) / (f.G * sectionArea f * E * f.h ^ 2) := by
    field_simp; ring
  have h3 : l ^ 3 / (12 * (E * sectionArea f * f.h ^ 2 / 12)) + l / (f.G * sectionArea f) =
      l * (f.G * l ^ 2 + E * f.h ^ 2) / (f.G * sectionArea f * E * f.h ^ 2) := by
    field_simp
  have h4 : 1 + f.G / E * (l / f.h) ^ 2 = (f.G * l ^ 2 + E * f.h ^ 2) / (E * f.h ^ 2) := by
    field_simp; ring
  rw [h2, h3, h4]
  field_simp
  ring

/-- With `coupling = 1` and finite tensile moduli, the energy of the stiffness matrix is the energy of Timoshenko beams with bending
stiffness `E A h² / 12` and shear stiffness `G A`, plus a term for the difference of the rotations of the ends of each beam. -/
theorem C115_energy {mat : Mat K} {mesh : Mesh K} {lmin lmax : Option K} {Km : Coo (Cell K)}
    (h : stiffness mat mesh lmin lmax 1 = .ok Km) (hm : GoodMat mat) (hp : PositiveLengths mesh.rows lmin lmax) {L : ℕ → K}
    (hL : BeamLengths mesh.rows lmin lmax L) (E : Fiber K → K) (hE : ∀ f ∈ mat.fibers, f.E = (E f : WithTop K)) (u : ℕ → K)
    (M : ℕ → ℕ → K) (hM : ∀ r s, Km.get r s = .fin (M r s)) :
    energy (2 * mesh.rows.length) M u = open Classical in ∑ i ∈ Finset.range mesh.rows.length, if StartsBeam mesh.rows i then
      match nodeFiber mat mesh.rows i with
      | none => 0
      | some f =>
        timoshenkoEnergy (E f * sectionArea f * f.h ^ 2 / 12) (f.G * sectionArea f) (L i) (u (2 * i)) (u (2 * i + 1))
            (u (2 * succNode mesh.rows i)) (u (2 * succNode mesh.rows i + 1)) +
          11 / 12 * (E f * sectionArea f * f.h ^ 2 / L i) / (1 + f.G / E f * (L i / f.h) ^ 2) *
            (u (2 * succNode mesh.rows i + 1) - u (2 * i + 1)) ^ 2
      else 0 := by
  rw [C65_energy h hm hp hL u M (fun r s _ _ => hM r s)]
  obtain ⟨size, -, hg⟩ := hm.size
  obtain ⟨bl, ha, hpos, -, hbl⟩ := assembled_lengths h
  unfold elasticEnergy
  apply Finset.sum_congr rfl
  intro i _
  by_cases hst : StartsBeam mesh.rows i
  · rw [if_pos hst, if_pos hst]
    cases hf : nodeFiber mat mesh.rows i with
    | none => rfl
    | some f =>
      have hLi : 0 < L i := by
        obtain ⟨p, hpm, rfl⟩ := ha.all i hst
        rw [← (hbl L).1 hL p hpm]
        exact hpos hp p hpm
      exact element_excess (hg f (nodeFiber_mem hf)) (hE f (nodeFiber_mem hf)) hLi _ _ _ _
  · rw [if_neg hst, if_neg hst]

/-- The element is never softer than the Timoshenko beam, and its bending stiffness is at most twelve times that of the Timoshenko
beam. -/
theorem C115_bounds {size l E : K} {f : Fiber K} (hf : GoodFiber size f) (hE : f.E = (E : WithTop K)) (hl : 0 < l)
    (ui ti uj tj : K) :
    timoshenkoEnergy (E * sectionArea f * f.h ^ 2 / 12) (f.G * sectionArea f) l ui ti uj tj ≤ elementEnergy f l 1 ui ti uj tj ∧
      elementEnergy f l 1 ui ti uj tj ≤ timoshenkoEnergy (E * sectionArea f * f.h ^ 2 / 12) (f.G * sectionArea f) l ui ti uj tj +
        11 * (E * sectionArea f * f.h ^ 2 / 12 / l * (tj - ti) ^ 2) := by
  have hA := fiberArea_pos hf
  have g := hf.G
  have h0 := hf.h
  have e0 : 0 < E := tensile_pos hf hE
  rw [element_excess hf hE hl]
  constructor
  · have : 0 ≤ 11 / 12 * (E * sectionArea f * f.h ^ 2 / l) / (1 + f.G / E * (l / f.h) ^ 2) * (tj - ti) ^ 2 := by positivity
    linarith
  · have h1 : 11 / 12 * (E * sectionArea f * f.h ^ 2 / l) / (1 + f.G / E * (l / f.h) ^ 2) ≤
        11 / 12 * (E * sectionArea f * f.h ^ 2 / l) := by
      apply div_le_self (by positivity)
      have : 0 ≤ f.G / E * (l / f.h) ^ 2 := by positivity
      linarith
    have h2 := mul_le_mul_of_nonneg_right h1 (sq_nonneg (tj - ti))
    have h3 : 11 / 12 * (E * sectionArea f * f.h ^ 2 / l) * (tj - ti) ^ 2 =
        11 * (E * sectionArea f * f.h ^ 2 / 12 / l * (tj - ti) ^ 2) := by ring
    linarith

/-- Bending without shear: the energy of the element. -/
theorem element_bending {size l E : K} {f : Fiber K} (hf : GoodFiber size f) (hE : f.E = some E) (hl : 0 < l) (t : K) :
    elementEnergy f l 1 0 (-t) 0 t =
      E * sectionArea f * f.h ^ 2 / l * (1 / 3 + 11 / 3 / (1 + f.G / E * (l / f.h) ^ 2)) * t ^ 2 := by
  rw [element_excess hf hE hl]
  unfold timoshenkoEnergy
  ring

/-- No bending and shear stiffness make the element that of a Timoshenko beam for all lengths. -/
theorem C115_other {size E : K} {f : Fiber K} (hf : GoodFiber size f) (hE : f.E = (E : WithTop K)) :
    ¬ ∃ B S : K, ∀ l, 0 < l → ∀ ui ti uj tj, elementEnergy f l 1 ui ti uj tj = timoshenkoEnergy B S l ui ti uj tj := by
  rintro ⟨B, S, h⟩
  have hA := fiberArea_pos hf
  have g := hf.G
  have h0 := hf.h
  have e0 : 0 < E := tensile_pos hf hE
  have key : ∀ l, 0 < l → E * sectionArea f * f.h ^ 2 * (1 / 3 + 11 / 3 / (1 + f.G / E * (l / f.h) ^ 2)) = 4 * B := by
    intro l hl
    have h1 := h l hl 0 (-1) 0 1
    rw [element_bending hf hE hl] at h1
    unfold timoshenkoEnergy at h1
    have h2 : E * sectionArea f * f.h ^ 2 / l * (1 / 3 + 11 / 3 / (1 + f.G / E * (l / f.h) ^ 2)) = 4 * B / l := by
      linear_combination h1
    rw [div_mul_eq_mul_div, div_left_inj' hl.ne'] at h2
    exact h2
  have k1 := key f.h h0
  have k2 := key (2 * f.h) (by positivity)
  rw [← k2] at k1
  have hne : E * sectionArea f * f.h ^ 2 ≠ 0 := by positivity
  have k3 := mul_left_cancel₀ hne k1
  have q1 : f.h / f.h = 1 := div_self h0.ne'
  have q2 : 2 * f.h / f.h = 2 := by field_simp
  rw [q1, q2] at k3
  have hx : 0 < f.G / E := by positivity
  have k4 : 11 / 3 / (1 + f.G / E * 2 ^ 2) < 11 / 3 / (1 + f.G / E * 1 ^ 2) := by
    apply div_lt_div_of_pos_left (by norm_num) (by positivity)
    linarith
  linarith

/-- In pure bending, a larger shear modulus makes the element softer; the energy of the Timoshenko beam does not depend on it. -/
theorem C115_bending {size l E G t : K} {f : Fiber K} (hf : GoodFiber size f) (hE : f.E = (E : WithTop K)) (hl : 0 < l)
    (hG : f.G < G) (ht : t ≠ 0) :
    elementEnergy { f with G := G } l 1 0 (-t) 0 t < elementEnergy f l 1 0 (-t) 0 t ∧
      timoshenkoEnergy (E * sectionArea f * f.h ^ 2 / 12) (G * sectionArea f) l 0 (-t) 0 t =
        timoshenkoEnergy (E * sectionArea f * f.h ^ 2 / 12) (f.G * sectionArea f) l 0 (-t) 0 t := by
  have hA := fiberArea_pos hf
  have g := hf.G
  have h0 := hf.h
  have e0 : 0 < E := tensile_pos hf hE
  constructor
  · have hf' : GoodFiber size { f with G := G } :=
      ⟨hf.l, hf.b, hf.h, hf.x1, hf.x2, hf.y1, hf.y2, hf.dir1, hf.dir2, hf.G.trans hG, hf.E⟩
    rw [element_bending hf hE hl, element_bending (E := E) hf' hE hl]
    have ht2 : 0 < t ^ 2 := by positivity
    have e : sectionArea { f with G := G } = sectionArea f := rfl
    rw [e]
    have hk : 0 < E * sectionArea f * f.h ^ 2 / l := by positivity
    have h1 : 11 / 3 / (1 + G / E * (l / f.h) ^ 2) < 11 / 3 / (1 + f.G / E * (l / f.h) ^ 2) := by
      apply div_lt_div_of_pos_left (by norm_num) (by positivity)
      have : f.G / E * (l / f.h) ^ 2 < G / E * (l / f.h) ^ 2 := by
        have : 0 < (l / f.h) ^ 2 := by positivity
        have : f.G / E < G / E := by gcongr
        gcongr
      linarith
    exact mul_lt_mul_of_pos_right (mul_lt_mul_of_pos_left (by linarith) hk) ht2
  · unfold timoshenkoEnergy
    ring

/-- Dividing a beam by a node that touches nothing makes it stiffer, strictly unless both ends turn by the same angle. -/
theorem C115_divided {size l1 l2 E : K} {f : Fiber K} (hf : GoodFiber size f) (hE : f.E = (E : WithTop K)) (h1 : 0 < l1)
    (h2 : 0 < l2) (ui ti um tm uj tj : K) :
    elementEnergy f (l1 + l2) 1 ui ti uj tj ≤ elementEnergy f l1 1 ui ti um tm + elementEnergy f l2 1 um tm uj tj ∧
      (ti ≠ tj → elementEnergy f (l1 + l2) 1 ui ti uj tj <
        elementEnergy f l1 1 ui ti um tm + elementEnergy f l2 1 um tm uj tj) := by
  have hA := fiberArea_pos hf
  have g := hf.G
  have h0 := hf.h
  have e0 : 0 < E := tensile_pos hf hE
  have h3 : 0 < l1 + l2 := by positivity
  have hB : 0 < E * sectionArea f * f.h ^ 2 / 12 := by positivity
  have hS : 0 < f.G * sectionArea f := by positivity
  have ht := (C115_timoshenko hB hS h1 h2 ui ti uj tj).2 ⟨um, tm, rfl⟩
  rw [element_excess hf hE h1, element_excess hf hE h2, element_excess hf hE h3]
  have hy : 0 < f.G / E := by positivity
  have hx : ∀ l, 0 < l → l < l1 + l2 → f.G / E * (l / f.h) ^ 2 < f.G / E * ((l1 + l2) / f.h) ^ 2 := by
    intro l hl hlt
    have : l / f.h < (l1 + l2) / f.h := by gcongr
    have : (l / f.h) ^ 2 < ((l1 + l2) / f.h) ^ 2 := by gcongr
    gcongr
  set k := E * sectionArea f * f.h ^ 2 with hk
  have hk0 : 0 < k := by positivity
  set y := f.G / E with hyy
  have hp : ∀ l : K, 0 < 1 + y * (l / f.h) ^ 2 := fun l => by positivity
  have hq : (tj - ti) ^ 2 / (l1 + l2) ≤ (tm - ti) ^ 2 / l1 + (tj - tm) ^ 2 / l2 := by
    rw [div_add_div _ _ h1.ne' h2.ne', div_le_div_iff₀ (by positivity) (by positivity)]
    nlinarith [sq_nonneg ((tm - ti) * l2 - (tj - tm) * l1)]
  have hpart : ∀ l q : K, 0 < l → l < l1 + l2 →
      q ^ 2 / l * (11 / 12 * k / (1 + y * ((l1 + l2) / f.h) ^ 2)) ≤ 11 / 12 * (k / l) / (1 + y * (l / f.h) ^ 2) * q ^ 2 := by
    intro l q hl hlt
    have h4 : 11 / 12 * k / (1 + y * ((l1 + l2) / f.h) ^ 2) ≤ 11 / 12 * k / (1 + y * (l / f.h) ^ 2) := by
      apply div_le_div_of_nonneg_left (by positivity) (hp l)
      have := hx l hl hlt
      linarith
    have h5 : 0 ≤ q ^ 2 / l := by positivity
    calc _ ≤ q ^ 2 / l * (11 / 12 * k / (1 + y * (l / f.h) ^ 2)) := mul_le_mul_of_nonneg_left h4 h5
      _ = _ := by ring
  have hpart' : ∀ l q : K, 0 < l → l < l1 + l2 → q ≠ 0 →
      q ^ 2 / l * (11 / 12 * k / (1 + y * ((l1 + l2) / f.h) ^ 2)) < 11 / 12 * (k / l) / (1 + y * (l / f.h) ^ 2) * q ^ 2 := by
    intro l q hl hlt hq
    have h4 : 11 / 12 * k / (1 + y * ((l1 + l2) / f.h) ^ 2) < 11 / 12 * k / (1 + y * (l / f.h) ^ 2) := by
      apply div_lt_div_of_pos_left (by positivity) (hp l)
      have := hx l hl hlt
      linarith
    have h5 : 0 < q ^ 2 / l := by positivity
    calc _ < q ^ 2 / l * (11 / 12 * k / (1 + y * (l / f.h) ^ 2)) := mul_lt_mul_of_pos_left h4 h5
      _ = _ := by ring
  have a1 := hpart l1 (tm - ti) h1 (by linarith)
  have a2 := hpart l2 (tj - tm) h2 (by linarith)
  have hc0 : 0 < 11 / 12 * k / (1 + y * ((l1 + l2) / f.h) ^ 2) := by
    have := hp (l1 + l2)
    positivity
  have a3 := mul_le_mul_of_nonneg_right hq hc0.le
  have a4 : (tj - ti) ^ 2 / (l1 + l2) * (11 / 12 * k / (1 + y * ((l1 + l2) / f.h) ^ 2)) =
      11 / 12 * (k / (l1 + l2)) / (1 + y * ((l1 + l2) / f.h) ^ 2) * (tj - ti) ^ 2 := by ring
  rw [add_mul, a4] at a3
  constructor
  · linarith
  · intro hne
    by_cases hz : tm - ti = 0
    · have hz2 : tj - tm ≠ 0 := by
        intro hc
        apply hne
        linarith
      have := hpart' l2 (tj - tm) h2 (by linarith) hz2
      linarith
    · have := hpart' l1 (tm - ti) h1 (by linarith) hz
      linarith

end Fibermat
