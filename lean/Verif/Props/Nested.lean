import Verif.Spec.Nested
import Verif.Lemmas.Refined
import Verif.Props.Diagram
import Verif.Props.Refined

/-! # Nested meshes (C143) -/

set_option linter.unusedSectionVars false

namespace Fibermat
open Spec
variable {K : Type} [Field K] [LinearOrder K] [IsStrictOrderedRing K]

/-- The energy of a beam from below, for given shear force `V` and mean moment `m`. -/
theorem beam_dual {S B r l x y : K} (hB : 0 < B) (hr : 0 < r) (hS : S = r * B) (hl : 0 < l) (V m : K) :
    l * (S / (1 + r * l ^ 2) * (x ^ 2 + (l ^ 2 / 12 + B / S) * y ^ 2)) =
      (2 * (V * (l * x) + m * (l * y)) - l * V ^ 2 * (1 + r * l ^ 2) / S - 12 * l * m ^ 2 / B) +
        l * S / (1 + r * l ^ 2) * (x - V * (1 + r * l ^ 2) / S) ^ 2 + B / 12 * l * (y - 12 * m / B) ^ 2 +
        11 / 12 * B * ((l * y) ^ 2 / (l * (1 + r * l ^ 2))) := by
  subst hS
  have h1 : 0 < 1 + r * l ^ 2 := by positivity
  field_simp
  ring

theorem sq_div_split {a b p q s : K} (hp : 0 < p) (hq : 0 < q) (hs : p + q < s) :
    (a + b) ^ 2 / s ≤ a ^ 2 / p + b ^ 2 / q ∧ (a + b ≠ 0 → (a + b) ^ 2 / s < a ^ 2 / p + b ^ 2 / q) := by
  have h1 : (a + b) ^ 2 / (p + q) ≤ a ^ 2 / p + b ^ 2 / q := by
    rw [div_add_div _ _ hp.ne' hq.ne', div_le_div_iff₀ (by positivity) (by positivity)]
    nlinarith [sq_nonneg (a * q - b * p)]
  constructor
  · refine le_trans ?_ h1
    gcongr
  · intro hne
    refine lt_of_lt_of_le ?_ h1
    have : 0 < (a + b) ^ 2 := by positivity
    gcongr

set_option maxHeartbeats 800000 in
/-- C143: cutting a beam in two at any place, with any displacement and rotation of the new node, does not lower its energy. It raises it
strictly whenever the beam is deformed. -/
theorem C143_split {size l₁ l₂ E : K} {f : Fiber K} (hf : GoodFiber size f) (hE : f.E = (E : WithTop K)) (h1 : 0 < l₁) (h2 : 0 < l₂)
    (ui ti um tm uj tj : K) :
    elementEnergy f (l₁ + l₂) 1 ui ti uj tj ≤ elementEnergy f l₁ 1 ui ti um tm + elementEnergy f l₂ 1 um tm uj tj ∧
      (¬ SolidMotion (l₁ + l₂) ui ti uj tj →
        elementEnergy f (l₁ + l₂) 1 ui ti uj tj < elementEnergy f l₁ 1 ui ti um tm + elementEnergy f l₂ 1 um tm uj tj) := by
  have hA := fiberArea_pos hf
  have g := hf.G
  have h0 := hf.h
  have e0 : 0 < E := tensile_pos hf hE
  have h12 : 0 < l₁ + l₂ := by positivity
  rw [element_density hf hE h12, element_density hf hE h1, element_density hf hE h2]
  set S := f.G * sectionArea f with hSd
  set B := E * sectionArea f * f.h ^ 2 with hBd
  set r := f.G / (E * f.h ^ 2) with hrd
  have hB : 0 < B := by positivity
  have hr : 0 < r := by positivity
  have hS : S = r * B := by rw [hSd, hBd, hrd]; field_simp
  have hS0 : 0 < S := by rw [hS]; positivity
  set l := l₁ + l₂ with hl
  set x := (uj - ui) / l - (ti + tj) / 2 with hx
  set y := (tj - ti) / l with hy
  set x₁ := (um - ui) / l₁ - (ti + tm) / 2 with hx1
  set y₁ := (tm - ti) / l₁ with hy1
  set x₂ := (uj - um) / l₂ - (tm + tj) / 2 with hx2
  set y₂ := (tj - tm) / l₂ with hy2
  have ex : l * x = uj - ui - l * (ti + tj) / 2 := by rw [hx]; field_simp
  have ey : l * y = tj - ti := by rw [hy]; field_simp
  have ex1 : l₁ * x₁ = um - ui - l₁ * (ti + tm) / 2 := by rw [hx1]; field_simp
  have ey1 : l₁ * y₁ = tm - ti := by rw [hy1]; field_simp
  have ex2 : l₂ * x₂ = uj - um - l₂ * (tm + tj) / 2 := by rw [hx2]; field_simp
  have ey2 : l₂ * y₂ = tj - tm := by rw [hy2]; field_simp
  have hd : 0 < 1 + r * l ^ 2 := by positivity
  have hd1 : 0 < 1 + r * l₁ ^ 2 := by positivity
  have hd2 : 0 < 1 + r * l₂ ^ 2 := by positivity
  -- shear force and moments of the undivided beam
  set V := S * x / (1 + r * l ^ 2) with hV
  set m := B / 12 * y with hm
  set m₁ := m + V * l / 2 - V * l₁ / 2 with hm1
  set m₂ := m - V * l / 2 + V * l₂ / 2 with hm2
  rw [beam_dual (x := x) (y := y) hB hr hS h12 V m, beam_dual (x := x₁) (y := y₁) hB hr hS h1 V m₁,
    beam_dual (x := x₂) (y := y₂) hB hr hS h2 V m₂]
  have z1 : x - V * (1 + r * l ^ 2) / S = 0 := by rw [hV]; field_simp; ring
  have z2 : y - 12 * m / B = 0 := by rw [hm]; field_simp; ring
  have hwork : V * (l * x) + m * (l * y) = (V * (l₁ * x₁) + m₁ * (l₁ * y₁)) + (V * (l₂ * x₂) + m₂ * (l₂ * y₂)) := by
    rw [ex, ey, ex1, ey1, ex2, ey2, hm1, hm2, hl]; ring
  have hcomp : l * V ^ 2 * (1 + r * l ^ 2) / S + 12 * l * m ^ 2 / B = (l₁ * V ^ 2 * (1 + r * l₁ ^ 2) / S + 12 * l₁ * m₁ ^ 2 / B) +
      (l₂ * V ^ 2 * (1 + r * l₂ ^ 2) / S + 12 * l₂ * m₂ ^ 2 / B) := by
    rw [hm1, hm2, hl, hS]
    field_simp
    ring
  have hD : l₁ * (1 + r * l₁ ^ 2) + l₂ * (1 + r * l₂ ^ 2) < l * (1 + r * l ^ 2) := by
    have : 0 < 3 * r * l₁ * l₂ * (l₁ + l₂) := by positivity
    rw [hl]; linear_combination this
  have hsum : l₁ * y₁ + l₂ * y₂ = l * y := by rw [ey, ey1, ey2]; ring
  have hsplit := sq_div_split (a := l₁ * y₁) (b := l₂ * y₂) (p := l₁ * (1 + r * l₁ ^ 2)) (q := l₂ * (1 + r * l₂ ^ 2))
    (by positivity) (by positivity) hD
  rw [hsum] at hsplit
  rw [z1, z2]
  have s1 : 0 ≤ l₁ * S / (1 + r * l₁ ^ 2) * (x₁ - V * (1 + r * l₁ ^ 2) / S) ^ 2 := by positivity
  have s2 : 0 ≤ l₂ * S / (1 + r * l₂ ^ 2) * (x₂ - V * (1 + r * l₂ ^ 2) / S) ^ 2 := by positivity
  have s3 : 0 ≤ B / 12 * l₁ * (y₁ - 12 * m₁ / B) ^ 2 := by positivity
  have s4 : 0 ≤ B / 12 * l₂ * (y₂ - 12 * m₂ / B) ^ 2 := by positivity
  have hex := mul_le_mul_of_nonneg_left hsplit.1 (by positivity : 0 ≤ 11 / 12 * B)
  refine ⟨by linarith, fun hns => ?_⟩
  by_cases hy0 : l * y = 0
  swap
  · have := mul_lt_mul_of_pos_left (hsplit.2 hy0) (by positivity : 0 < 11 / 12 * B)
    linarith
  have hx0 : x ≠ 0 := by
    intro hx0
    refine hns ⟨by linarith [ey.symm.trans hy0], ?_⟩
    have h3 : tj = ti := by linarith [ey.symm.trans hy0]
    rw [hx0, mul_zero, h3] at ex
    linear_combination -ex
  by_cases hy1' : l₁ * y₁ = 0
  · have y1z : y₁ = 0 := by
      rcases mul_eq_zero.1 hy1' with h | h
      · exact absurd h h1.ne'
      · exact h
    have yz : y = 0 := by
      rcases mul_eq_zero.1 hy0 with h | h
      · exact absurd h h12.ne'
      · exact h
    have hmz : m₁ = V * l₂ / 2 := by rw [hm1, hm, yz, hl]; ring
    have hV0 : V ≠ 0 := by rw [hV]; exact div_ne_zero (mul_ne_zero hS0.ne' hx0) hd.ne'
    have hm10 : m₁ ≠ 0 := by rw [hmz]; exact div_ne_zero (mul_ne_zero hV0 h2.ne') two_ne_zero
    have s5 : 0 < B / 12 * l₁ * (y₁ - 12 * m₁ / B) ^ 2 := by
      have : y₁ - 12 * m₁ / B ≠ 0 := by
        rw [y1z, zero_sub, neg_ne_zero]
        exact div_ne_zero (mul_ne_zero (by norm_num) hm10) hB.ne'
      positivity
    linarith
  · have s6 : 0 < (l₁ * y₁) ^ 2 / (l₁ * (1 + r * l₁ ^ 2)) := by positivity
    have s7 : 0 ≤ (l₂ * y₂) ^ 2 / (l₂ * (1 + r * l₂ ^ 2)) := by positivity
    have s8 : (l * y) ^ 2 / (l * (1 + r * l ^ 2)) = 0 := by rw [hy0]; simp
    have s9 : 0 < 11 / 12 * B * ((l₁ * y₁) ^ 2 / (l₁ * (1 + r * l₁ ^ 2))) := by positivity
    have s10 : 0 ≤ 11 / 12 * B * ((l₂ * y₂) ^ 2 / (l₂ * (1 + r * l₂ ^ 2))) := by positivity
    rw [s8]
    linarith

theorem density_nonneg {size l E : K} {f : Fiber K} (hf : GoodFiber size f) (hE : f.E = (E : WithTop K)) (hl : 0 < l) (ui ti uj tj : K) :
    0 ≤ elementEnergy f l 1 ui ti uj tj := by
  have hA := fiberArea_pos hf
  have g := hf.G
  have h0 := hf.h
  have e0 : 0 < E := tensile_pos hf hE
  rw [element_density hf hE hl]
  positivity

/-- A chain of beams along one fiber, between the nodes `a` and `b`. -/
theorem chain_energy {size E : K} {f : Fiber K} (hf : GoodFiber size f) (hE : f.E = (E : WithTop K)) (s u t : ℕ → K) {a b : ℕ} (hab : a < b)
    (hs : ∀ j, a ≤ j → j < b → s j < s (j + 1)) :
    s a < s b ∧ elementEnergy f (s b - s a) 1 (u a) (t a) (u b) (t b) ≤
        ∑ j ∈ Finset.Ico a b, elementEnergy f (s (j + 1) - s j) 1 (u j) (t j) (u (j + 1)) (t (j + 1)) ∧
      (a + 1 < b → ¬ SolidMotion (s b - s a) (u a) (t a) (u b) (t b) →
        elementEnergy f (s b - s a) 1 (u a) (t a) (u b) (t b) <
          ∑ j ∈ Finset.Ico a b, elementEnergy f (s (j + 1) - s j) 1 (u j) (t j) (u (j + 1)) (t (j + 1))) := by
  induction b, hab using Nat.le_induction with
  | base =>
    refine ⟨hs a le_rfl (by omega), ?_, fun h => absurd h (by omega)⟩
    rw [Finset.sum_Ico_succ_top (by omega)]
    simp
  | succ b hb ih =>
    have hb : a + 1 ≤ b := hb
    obtain ⟨h1, h2, -⟩ := ih (fun j hj hjb => hs j hj (by omega))
    have h3 := hs b (by omega) (by omega)
    have key := C143_split hf hE (sub_pos.2 h1) (sub_pos.2 h3) (u a) (t a) (u b) (t b) (u (b + 1)) (t (b + 1))
    have e : s b - s a + (s (b + 1) - s b) = s (b + 1) - s a := by ring
    rw [e] at key
    rw [Finset.sum_Ico_succ_top (by omega)]
    refine ⟨h1.trans h3, by linarith [key.1], fun _ hn => ?_⟩
    linarith [key.2 hn]

section
variable {mat : Mat K} {mesh mesh' : Mesh K} {Km Km' : Coo (Cell K)}

/-- The nodes of the finer mesh between two successive nodes of a beam of the coarser one. -/
theorem nested_between {rows rows' : List (MeshRow K)} {σ : ℕ → ℕ} (hn : Nested rows rows' σ) (hs' : NodesSorted rows') {i : ℕ}
    {r p : MeshRow K} (hr : rows[i]? = some r) (hp : rows[i + 1]? = some p) (hf : r.fiber = p.fiber) {j : ℕ} (h1 : σ i ≤ j)
    (h2 : j ≤ σ (i + 1)) : ∃ q, rows'[j]? = some q ∧ q.fiber = r.fiber := by
  obtain ⟨r', hr', fr, -⟩ := hn.node i r hr
  obtain ⟨p', hp', fp, -⟩ := hn.node (i + 1) p hp
  have hj : j < rows'.length := lt_of_le_of_lt h2 (List.getElem?_eq_some_iff.1 hp').1
  refine ⟨rows'[j], List.getElem?_eq_getElem hj, ?_⟩
  have hmono : ∀ {x y : ℕ} {a b : MeshRow K}, rows'[x]? = some a → rows'[y]? = some b → x ≤ y → a.fiber ≤ b.fiber := by
    intro x y a b hx hy hxy
    rcases Nat.eq_or_lt_of_le hxy with rfl | hlt
    · rw [hx] at hy; cases hy; exact le_rfl
    · obtain ⟨hx1, rfl⟩ := List.getElem?_eq_some_iff.1 hx
      obtain ⟨hy1, rfl⟩ := List.getElem?_eq_some_iff.1 hy
      rcases List.pairwise_iff_getElem.1 hs' x y hx1 hy1 hlt with h | h
      · exact h.le
      · exact h.1.le
  have a1 := hmono hr' (List.getElem?_eq_getElem hj) h1
  have a2 := hmono (List.getElem?_eq_getElem hj) hp' h2
  rw [fr] at a1
  rw [fp, ← hf] at a2
  exact le_antisymm a2 a1

theorem restrict_even (σ : ℕ → ℕ) (u : ℕ → K) (i : ℕ) : restrictTo σ u (2 * i) = u (2 * σ i) := by
  have h1 : (2 * i) % 2 = 0 := by omega
  have h2 : (2 * i) / 2 = i := by omega
  simp [restrictTo, h1, h2]

theorem restrict_odd (σ : ℕ → ℕ) (u : ℕ → K) (i : ℕ) : restrictTo σ u (2 * i + 1) = u (2 * σ i + 1) := by
  have h1 : (2 * i + 1) % 2 = 1 := by omega
  have h2 : (2 * i + 1) / 2 = i := by omega
  simp [restrictTo, h1, h2]

theorem sum_steps (g : ℕ → K) (σ : ℕ → ℕ) (n : ℕ) (hσ : ∀ i j, i < j → j < n + 1 → σ i < σ j) :
    ∑ i ∈ Finset.range n, ∑ j ∈ Finset.Ico (σ i) (σ (i + 1)), g j = ∑ j ∈ Finset.Ico (σ 0) (σ n), g j := by
  induction n with
  | zero => simp
  | succ n ih =>
    rw [Finset.sum_range_succ, ih (fun i j h1 h2 => hσ i j h1 (by omega)), Finset.sum_Ico_consecutive]
    · rcases Nat.eq_zero_or_pos n with rfl | h
      · exact le_rfl
      · exact (hσ 0 n h (by omega)).le
    · exact (hσ n (n + 1) (by omega) (by omega)).le

/-- C143: on nested meshes of the same mat the finer one is stiffer: whatever the displacements, they have on the finer mesh at least the
energy that their values at the nodes of the coarser mesh have there; strictly more as soon as a beam with a new node is deformed. -/
theorem C143_nested (h : stiffness mat mesh none none 1 = .ok Km) (h' : stiffness mat mesh' none none 1 = .ok Km') (hm : GoodMat mat)
    (ht : FiniteTensile mat) (hv : ValidMesh mesh.frame) (hv' : ValidMesh mesh'.frame) (hp : PositiveLengths mesh.rows none none)
    (hp' : PositiveLengths mesh'.rows none none) {σ : ℕ → ℕ} (hn : Nested mesh.rows mesh'.rows σ) {M M' : ℕ → ℕ → K} (hM : Entries Km M)
    (hM' : Entries Km' M') (u : ℕ → K) :
    energy (2 * mesh.rows.length) M (restrictTo σ u) ≤ energy (2 * mesh'.rows.length) M' u ∧
      ((∃ i, SameFiber mesh.rows i (i + 1) ∧ σ i + 1 < σ (i + 1) ∧
          ¬ SolidMotion (abscissa mesh.rows (i + 1) - abscissa mesh.rows i) (u (2 * σ i)) (u (2 * σ i + 1)) (u (2 * σ (i + 1)))
            (u (2 * σ (i + 1) + 1))) →
        energy (2 * mesh.rows.length) M (restrictTo σ u) < energy (2 * mesh'.rows.length) M' u) := by
  classical
  obtain ⟨size, -, hg⟩ := hm.size
  have hsort' : NodesSorted mesh'.rows := by have := hv'.sorted; rwa [rows_meshFrame] at this
  obtain ⟨-, ⟨L, hL⟩, -, -⟩ := C65_lengths h
  obtain ⟨-, ⟨L', hL'⟩, -, -⟩ := C65_lengths h'
  rw [C65_energy h hm hp hL _ M (fun r s _ _ => hM r s), C65_energy h' hm hp' hL' _ M' (fun r s _ _ => hM' r s)]
  -- energies of the beams of the finer mesh
  let g : ℕ → K := fun j => if StartsBeam mesh'.rows j then
    match nodeFiber mat mesh'.rows j with
    | none => 0
    | some f => elementEnergy f (L' j) 1 (u (2 * j)) (u (2 * j + 1)) (u (2 * succNode mesh'.rows j)) (u (2 * succNode mesh'.rows j + 1))
    else 0
  have hfin : ∀ f ∈ mat.fibers, ∃ E : K, f.E = (E : WithTop K) := by
    intro f hf
    cases hE : f.E with
    | top => exact absurd hE (ht f hf)
    | coe e => exact ⟨e, rfl⟩
  have hbeam' : ∀ j, StartsBeam mesh'.rows j → succNode mesh'.rows j = j + 1 ∧ SameFiber mesh'.rows j (j + 1) := by
    intro j hj
    have := (C34_beams hv' j _).1 ⟨hj, rfl⟩
    exact ⟨this.1, this.1 ▸ this.2⟩
  have g0 : ∀ j, 0 ≤ g j := by
    intro j
    simp only [g]
    split_ifs with hj
    · cases hfj : nodeFiber mat mesh'.rows j with
      | none => exact le_rfl
      | some f =>
        obtain ⟨E, hE⟩ := hfin f (nodeFiber_mem hfj)
        exact density_nonneg (hg f (nodeFiber_mem hfj)) hE (trueLengths h' hv' hp' hL' (hbeam' j hj).2).2 _ _ _ _
    · exact le_rfl
  -- energies of the beams of the coarser mesh
  let e : ℕ → K := fun i => if StartsBeam mesh.rows i then
    match nodeFiber mat mesh.rows i with
    | none => 0
    | some f => elementEnergy f (L i) 1 (restrictTo σ u (2 * i)) (restrictTo σ u (2 * i + 1)) (restrictTo σ u (2 * succNode mesh.rows i))
        (restrictTo σ u (2 * succNode mesh.rows i + 1))
    else 0
  have key : ∀ i, e i ≤ ∑ j ∈ Finset.Ico (σ i) (σ (i + 1)), g j ∧ (SameFiber mesh.rows i (i + 1) → σ i + 1 < σ (i + 1) →
      ¬ SolidMotion (abscissa mesh.rows (i + 1) - abscissa mesh.rows i) (u (2 * σ i)) (u (2 * σ i + 1)) (u (2 * σ (i + 1)))
        (u (2 * σ (i + 1) + 1)) → e i < ∑ j ∈ Finset.Ico (σ i) (σ (i + 1)), g j) := by
    intro i
    by_cases hsame : SameFiber mesh.rows i (i + 1)
    swap
    · have hno : ¬ StartsBeam mesh.rows i := by
        intro hst
        have := (C34_beams hv i _).1 ⟨hst, rfl⟩
        exact hsame (this.1 ▸ this.2)
      refine ⟨?_, fun h => absurd h hsame⟩
      simp only [e, if_neg hno]
      exact Finset.sum_nonneg (fun j _ => g0 j)
    obtain ⟨hst, hsucc⟩ := (C34_beams hv i (i + 1)).2 ⟨rfl, hsame⟩
    obtain ⟨r, p, hr, hpq, hrp⟩ := hsame
    have hlt : σ i < σ (i + 1) := hn.mono i (i + 1) (by omega) (List.getElem?_eq_some_iff.1 hpq).1
    obtain ⟨r', hr', fr, sr⟩ := hn.node i r hr
    obtain ⟨p', hp'', fp, sp⟩ := hn.node (i + 1) p hpq
    obtain ⟨f, hf⟩ : ∃ f, nodeFiber mat mesh.rows i = some f := by
      obtain ⟨f, hf, -⟩ := C66_transverse h hm hp hL hst
      exact ⟨f, hf⟩
    obtain ⟨E, hE⟩ := hfin f (nodeFiber_mem hf)
    have hgf := hg f (nodeFiber_mem hf)
    have hLi := (trueLengths h hv hp hL ⟨r, p, hr, hpq, hrp⟩).1
    have sa : abscissa mesh'.rows (σ i) = abscissa mesh.rows i := by simp [abscissa, hr, hr', sr]
    have sb : abscissa mesh'.rows (σ (i + 1)) = abscissa mesh.rows (i + 1) := by simp [abscissa, hpq, hp'', sp]
    have hsj : ∀ j, σ i ≤ j → j < σ (i + 1) → SameFiber mesh'.rows j (j + 1) ∧ nodeFiber mat mesh'.rows j = some f := by
      intro j h1 h2
      obtain ⟨q, hq, fq⟩ := nested_between hn hsort' hr hpq hrp h1 h2.le
      obtain ⟨q', hq', fq'⟩ := nested_between hn hsort' hr hpq hrp (by omega : σ i ≤ j + 1) h2
      refine ⟨⟨q, q', hq, hq', fq.trans fq'.symm⟩, ?_⟩
      simp only [nodeFiber, hr, Option.bind_some] at hf
      simp [nodeFiber, hq, fq, hf]
    have hchain := chain_energy hgf hE (abscissa mesh'.rows) (fun j => u (2 * j)) (fun j => u (2 * j + 1)) hlt (fun j h1 h2 => by
      have := (trueLengths h' hv' hp' hL' (hsj j h1 h2).1)
      rw [this.1] at this
      linarith [this.2])
    have hsum : ∑ j ∈ Finset.Ico (σ i) (σ (i + 1)), g j = ∑ j ∈ Finset.Ico (σ i) (σ (i + 1)),
        elementEnergy f (abscissa mesh'.rows (j + 1) - abscissa mesh'.rows j) 1 (u (2 * j)) (u (2 * j + 1)) (u (2 * (j + 1)))
          (u (2 * (j + 1) + 1)) := by
      refine Finset.sum_congr rfl (fun j hj => ?_)
      obtain ⟨h1, h2⟩ := Finset.mem_Ico.1 hj
      obtain ⟨k1, k2⟩ := hsj j h1 h2
      obtain ⟨k3, k4⟩ := (C34_beams hv' j (j + 1)).2 ⟨rfl, k1⟩
      simp only [g, if_pos k3, k2, k4, (trueLengths h' hv' hp' hL' k1).1]
    have he : e i = elementEnergy f (abscissa mesh'.rows (σ (i + 1)) - abscissa mesh'.rows (σ i)) 1 (u (2 * σ i)) (u (2 * σ i + 1))
        (u (2 * σ (i + 1))) (u (2 * σ (i + 1) + 1)) := by
      simp only [e, if_pos hst, hf, hsucc, restrict_even, restrict_odd, hLi, sa, sb]
    rw [hsum, he]
    refine ⟨hchain.2.1, fun _ hgap hns => hchain.2.2 hgap ?_⟩
    rw [sa, sb]
    exact hns
  have hco : elasticEnergy mat mesh.rows 1 L (restrictTo σ u) = ∑ i ∈ Finset.range mesh.rows.length, e i := rfl
  have hfi : elasticEnergy mat mesh'.rows 1 L' u = ∑ j ∈ Finset.range mesh'.rows.length, g j := rfl
  rw [hco, hfi]
  rcases Nat.eq_zero_or_pos mesh.rows.length with h0 | h0
  · rw [h0, Finset.sum_range_zero]
    refine ⟨Finset.sum_nonneg (fun j _ => g0 j), ?_⟩
    rintro ⟨i, ⟨r, -, hr, -⟩, -⟩
    have := (List.getElem?_eq_some_iff.1 hr).1
    omega
  obtain ⟨n, hnl⟩ : ∃ n, mesh.rows.length = n + 1 := ⟨mesh.rows.length - 1, by omega⟩
  have hlast : e n = 0 := by
    have hno : ¬ StartsBeam mesh.rows n := by
      intro hst
      obtain ⟨h1, -, q, -, hq, -⟩ := (C34_beams hv n _).1 ⟨hst, rfl⟩
      rw [h1] at hq
      have := (List.getElem?_eq_some_iff.1 hq).1
      omega
    simp only [e, if_neg hno]
  have hrange : ∑ i ∈ Finset.range mesh.rows.length, e i = ∑ i ∈ Finset.range n, e i := by
    rw [hnl, Finset.sum_range_succ, hlast, add_zero]
  have hup : ∑ i ∈ Finset.range n, ∑ j ∈ Finset.Ico (σ i) (σ (i + 1)), g j ≤ ∑ j ∈ Finset.range mesh'.rows.length, g j := by
    rw [sum_steps g σ n (fun i j h1 h2 => hn.mono i j h1 (by omega))]
    refine Finset.sum_le_sum_of_subset_of_nonneg ?_ (fun j _ _ => g0 j)
    intro j hj
    obtain ⟨q, hq, -⟩ := hn.node n _ (List.getElem?_eq_getElem (by omega))
    have := (List.getElem?_eq_some_iff.1 hq).1
    exact Finset.mem_range.2 (lt_trans (Finset.mem_Ico.1 hj).2 this)
  rw [hrange]
  refine ⟨(Finset.sum_le_sum (fun i _ => (key i).1)).trans hup, ?_⟩
  rintro ⟨i, h1, h2, h3⟩
  refine lt_of_lt_of_le (Finset.sum_lt_sum (fun i _ => (key i).1) ⟨i, ?_, (key i).2 h1 h2 h3⟩) hup
  obtain ⟨r, p, hr, hpq, -⟩ := h1
  have := (List.getElem?_eq_some_iff.1 hpq).1
  exact Finset.mem_range.2 (by omega)

end

end Fibermat
