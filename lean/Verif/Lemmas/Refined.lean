import Verif.Spec.Refined
import Verif.Props.Continuum
import Verif.Props.NetMesh
import Mathlib.Analysis.Calculus.MeanValue
import Mathlib.MeasureTheory.Integral.IntervalIntegral.FundThmCalculus

/-! # Lemmas on finer and finer meshes -/

set_option linter.unusedSectionVars false

namespace Fibermat
open Spec

section
variable {K : Type} [Field K] [LinearOrder K] [IsStrictOrderedRing K]

/-- Sums of differences along the beams of one fiber (`beam_sum` for a function of the abscissa). -/
theorem beam_telescope {G : Type} [AddCommGroup G] (F : K → G) {rows : List (MeshRow K)} (hs : NodesSorted rows) (hb : BeamsCyclic rows)
    {k : Int} {i0 i1 : ℕ} {a0 a1 : MeshRow K} (h0 : rows[i0]? = some a0) (h1 : rows[i1]? = some a1) (hk0 : a0.fiber = k)
    (hk1 : a1.fiber = k) (hlt : a0.s < a1.s) (hmin : ∀ (i : Nat) (r : MeshRow K), rows[i]? = some r → r.fiber = k → a0.s ≤ r.s)
    (hmax : ∀ (i : Nat) (r : MeshRow K), rows[i]? = some r → r.fiber = k → r.s ≤ a1.s) :
    ∑ i ∈ beamsOf rows k, (F (abscissa rows (succNode rows i)) - F (abscissa rows i)) = F a1.s - F a0.s := by
  classical
  have hsucc : ∀ i ∈ nodesOf rows k, ∃ r, rows[i]? = some r ∧ r.beam = (succNode rows i : Int) ∧ CyclicNext rows i (succNode rows i) := by
    intro i hi
    obtain ⟨r, hr, -⟩ := mem_nodesOf.1 hi
    obtain ⟨j, hj, hc⟩ := hb i r hr
    have : succNode rows i = j := by simp [succNode, hr, hj]
    exact ⟨r, hr, by rw [this]; exact hj, by rw [this]; exact hc⟩
  have hmaps : ∀ i ∈ nodesOf rows k, succNode rows i ∈ nodesOf rows k := by
    intro i hi
    obtain ⟨r, hr, -, r', p, hr', hp, he, -⟩ := hsucc i hi
    obtain ⟨r'', hr'', hk⟩ := mem_nodesOf.1 hi
    rw [hr''] at hr'; cases hr'
    exact mem_nodesOf.2 ⟨p, hp, he.trans hk⟩
  have hinj : Set.InjOn (succNode rows) (nodesOf rows k) := by
    intro i hi j hj he
    obtain ⟨r, hr, -, hc⟩ := hsucc i hi
    obtain ⟨r', hr', -, hc'⟩ := hsucc j hj
    rw [← he] at hc'
    exact cyclicNext_inj hc hc'
  have himage : (nodesOf rows k).image (succNode rows) = nodesOf rows k := by
    apply Finset.eq_of_subset_of_card_le
    · intro j hj
      obtain ⟨i, hi, rfl⟩ := Finset.mem_image.1 hj
      exact hmaps i hi
    · rw [Finset.card_image_of_injOn hinj]
  have hzero : ∑ i ∈ nodesOf rows k, (F (abscissa rows (succNode rows i)) - F (abscissa rows i)) = 0 := by
    simp only [Finset.sum_sub_distrib]
    have : ∑ i ∈ nodesOf rows k, F (abscissa rows i) = ∑ i ∈ nodesOf rows k, F (abscissa rows (succNode rows i)) := by
      conv_lhs => rw [← himage]
      exact Finset.sum_image hinj
    rw [this, sub_self]
  have hne : (nodesOf rows k).Nonempty := ⟨i0, mem_nodesOf.2 ⟨a0, h0, hk0⟩⟩
  set il := (nodesOf rows k).max' hne with hil
  have hilm : il ∈ nodesOf rows k := Finset.max'_mem _ _
  obtain ⟨al, hal, hkl⟩ := mem_nodesOf.1 hilm
  have hlast : LastOnFiber rows il := by
    refine ⟨al, hal, ?_⟩
    intro j p hj hp he
    have := Finset.le_max' _ j (mem_nodesOf.2 ⟨p, hp, he.trans hkl⟩)
    omega
  have hsl : al.s = a1.s := by
    apply le_antisymm (hmax il al hal hkl)
    exact sorted_le hs h1 hal (hk1.trans hkl.symm) (Finset.le_max' _ _ (mem_nodesOf.2 ⟨a1, h1, hk1⟩))
  obtain ⟨rl, hrl, hbl, r', pf, hr', hpf, hef, hcase⟩ := hsucc il hilm
  rw [hal] at hrl hr'; cases hrl; cases hr'
  have hfirst : FirstOnFiber rows (succNode rows il) := by
    rcases hcase with ⟨hn, -⟩ | ⟨-, hf⟩
    · exact absurd hlast hn
    · exact hf
  have hsf : pf.s = a0.s := by
    apply le_antisymm _ (hmin _ pf hpf (hef.trans hkl))
    refine sorted_le hs hpf h0 ((hef.trans hkl).trans hk0.symm) ?_
    by_contra hgt
    obtain ⟨pf', hpf', hno⟩ := hfirst
    rw [hpf] at hpf'; cases hpf'
    exact hno i0 a0 (by omega) h0 (hk0.trans (hef.trans hkl).symm)
  have hfl : succNode rows il < il := sorted_lt hs hpf hal hef (by rw [hsf, hsl]; exact hlt)
  have hmem : ∀ i, i ∈ beamsOf rows k ↔ i ∈ nodesOf rows k ∧ i ≠ il := by
    intro i
    unfold beamsOf
    rw [Finset.mem_filter]
    refine and_congr_right ?_
    intro hi
    obtain ⟨r, hr, hbr, hc⟩ := hsucc i hi
    constructor
    · rintro ⟨r', hr', hlt'⟩ rfl
      rw [hr] at hr'; cases hr'
      omega
    · intro hine
      refine ⟨r, hr, ?_⟩
      obtain ⟨x, p, hx, hp, he, ⟨-, hcs⟩ | ⟨⟨y, hy, hno⟩, -⟩⟩ := hc
      · omega
      · exfalso
        have hile : i < il := lt_of_le_of_ne (Finset.le_max' _ i hi) hine
        obtain ⟨z, hz, hzk⟩ := mem_nodesOf.1 hi
        rw [hy] at hz; cases hz
        exact hno il al hile hal (hkl.trans hzk.symm)
  have hbeams : beamsOf rows k = (nodesOf rows k).erase il := by
    ext i; rw [hmem, Finset.mem_erase]; exact and_comm
  rw [hbeams]
  have := Finset.sum_erase_add (nodesOf rows k) (fun i => F (abscissa rows (succNode rows i)) - F (abscissa rows i)) hilm
  rw [hzero] at this
  have e : F (abscissa rows (succNode rows il)) - F (abscissa rows il) = F a0.s - F a1.s := by
    simp only [abscissa, hal, hpf, Option.map_some, Option.getD_some, hsf, hsl]
  simp only [e] at this
  rw [eq_neg_of_add_eq_zero_left this, neg_sub]

end

/-! ## One beam -/

theorem density_near {S B r δ M l x y X Y : ℝ} (hS : 0 < S) (hB : 0 < B) (hr : 0 < r) (hδ : 0 ≤ δ) (hδ1 : δ ≤ 1) (hl : 0 < l)
    (hx : |x - X| ≤ δ) (hy : |y - Y| ≤ δ) (hX : |X| ≤ M) (hY : |Y| ≤ M) :
    |S / (1 + r * l ^ 2) * (x ^ 2 + (l ^ 2 / 12 + B / S) * y ^ 2) - (S * X ^ 2 + B * Y ^ 2)| ≤
      (S + B) * (2 * M + 1) * δ + l ^ 2 * ((S + r * (S + B)) * (M + 1) ^ 2) := by
  have hM : 0 ≤ M := (abs_nonneg _).trans hX
  have hsq : ∀ {p P : ℝ}, |p - P| ≤ δ → |P| ≤ M → |p ^ 2 - P ^ 2| ≤ (2 * M + 1) * δ ∧ p ^ 2 ≤ (M + 1) ^ 2 := by
    intro p P h1 h2
    have h3 : |p + P| ≤ 2 * M + 1 := by
      have : p + P = (p - P) + 2 * P := by ring
      rw [this]
      refine (abs_add_le _ _).trans ?_
      rw [abs_mul, abs_of_pos (two_pos : (0 : ℝ) < 2)]
      linarith
    constructor
    · rw [sq_sub_sq, abs_mul]
      exact mul_le_mul h3 h1 (abs_nonneg _) (by linarith)
    · have h4 : |p| ≤ M + 1 := by
        have : p = (p - P) + P := by ring
        rw [this]
        exact (abs_add_le _ _).trans (by linarith)
      rw [← sq_abs]
      gcongr
  obtain ⟨x1, x2⟩ := hsq hx hX
  obtain ⟨y1, y2⟩ := hsq hy hY
  have hd : 1 ≤ 1 + r * l ^ 2 := by
    have : 0 ≤ r * l ^ 2 := by positivity
    linarith
  have e1 : S / (1 + r * l ^ 2) * (x ^ 2 + (l ^ 2 / 12 + B / S) * y ^ 2) - (S * X ^ 2 + B * Y ^ 2) =
      (S * (x ^ 2 - X ^ 2) + B * (y ^ 2 - Y ^ 2)) + l ^ 2 * (S * y ^ 2 / 12 - r * (S * x ^ 2 + B * y ^ 2)) / (1 + r * l ^ 2) := by
    field_simp
    ring
  have h1 : |S * (x ^ 2 - X ^ 2) + B * (y ^ 2 - Y ^ 2)| ≤ (S + B) * (2 * M + 1) * δ := by
    refine (abs_add_le _ _).trans ?_
    rw [abs_mul, abs_mul, abs_of_pos hS, abs_of_pos hB]
    have := mul_le_mul_of_nonneg_left x1 hS.le
    have := mul_le_mul_of_nonneg_left y1 hB.le
    linarith
  have h2 : |S * y ^ 2 / 12 - r * (S * x ^ 2 + B * y ^ 2)| ≤ (S + r * (S + B)) * (M + 1) ^ 2 := by
    have a1 : 0 ≤ S * y ^ 2 := by positivity
    have a2 : 0 ≤ r * (S * x ^ 2 + B * y ^ 2) := by positivity
    have a3 : S * y ^ 2 ≤ S * (M + 1) ^ 2 := by gcongr
    have a4 : r * (S * x ^ 2 + B * y ^ 2) ≤ r * (S * (M + 1) ^ 2 + B * (M + 1) ^ 2) := by gcongr
    rw [abs_le]
    constructor <;> nlinarith
  have h3 : |l ^ 2 * (S * y ^ 2 / 12 - r * (S * x ^ 2 + B * y ^ 2)) / (1 + r * l ^ 2)| ≤ l ^ 2 * ((S + r * (S + B)) * (M + 1) ^ 2) := by
    rw [abs_div, abs_mul, abs_of_nonneg (sq_nonneg l), abs_of_pos (by linarith : 0 < 1 + r * l ^ 2)]
    refine (div_le_self (by positivity) hd).trans ?_
    gcongr
  rw [e1]
  exact (abs_add_le _ _).trans (add_le_add h1 h3)

theorem element_density {K : Type} [Field K] [LinearOrder K] [IsStrictOrderedRing K] {size l E : K} {f : Fiber K} (hf : GoodFiber size f) (hE : f.E = (E : WithTop K)) (hl : 0 < l) (ui ti uj tj : K) :
    elementEnergy f l 1 ui ti uj tj = l * (f.G * sectionArea f / (1 + f.G / (E * f.h ^ 2) * l ^ 2) *
      (((uj - ui) / l - (ti + tj) / 2) ^ 2 + (l ^ 2 / 12 + E * sectionArea f * f.h ^ 2 / (f.G * sectionArea f)) * ((tj - ti) / l) ^ 2)) := by
  have hA := fiberArea_pos hf
  have g := hf.G
  have h0 := hf.h
  have e0 : 0 < E := tensile_pos hf hE
  unfold elementEnergy transverse
  rw [hE]
  simp only
  have h1 : f.G * l ^ 2 + E * f.h ^ 2 ≠ 0 := by positivity
  have h2 : l / (f.G * sectionArea f) + l ^ 3 / (E * sectionArea f * f.h ^ 2) =
      l * (f.G * l ^ 2 + E * f.h ^ 2) / (f.G * sectionArea f * E * f.h ^ 2) := by
    field_simp; ring
  have h4 : 1 + f.G / (E * f.h ^ 2) * l ^ 2 = (f.G * l ^ 2 + E * f.h ^ 2) / (E * f.h ^ 2) := by
    field_simp; ring
  rw [h2, h4]
  field_simp
  ring

open Real in
/-- The energy of an element in real numbers. -/
theorem element_real {K : Type} [Field K] [LinearOrder K] [IsStrictOrderedRing K] (φ : K →+* ℝ) (hφ : StrictMono φ) {size l E : K}
    {f : Fiber K} (hf : GoodFiber size f) (hE : f.E = (E : WithTop K)) (hl : 0 < l) (ui ti uj tj : K) :
    φ (elementEnergy f l 1 ui ti uj tj) = φ l * (npPi / π * (φ f.G * ellipseArea (φ f.b) (φ f.h)) /
      (1 + φ f.G / (φ E * φ f.h ^ 2) * φ l ^ 2) * (((φ uj - φ ui) / φ l - (φ ti + φ tj) / 2) ^ 2 + (φ l ^ 2 / 12 +
        npPi / π * (16 * (φ E * ellipseInertia (φ f.b) (φ f.h))) / (npPi / π * (φ f.G * ellipseArea (φ f.b) (φ f.h)))) *
          ((φ tj - φ ti) / φ l) ^ 2)) := by
  have hb := pos_of_mono hφ hf.b
  have hh := pos_of_mono hφ hf.h
  have hpi := pi_pos
  rw [element_density hf hE hl]
  simp only [sectionArea, map_add, map_sub, map_mul, map_div₀, map_pow, map_ofNat, map_npPi, map_one]
  rw [C139_area hb hh, C139_inertia hb hh]
  have e1 : npPi / π * (φ f.G * (π / 4 * (φ f.b * φ f.h))) = φ f.G * (npPi / 4 * (φ f.b * φ f.h)) := by field_simp
  have e2 : npPi / π * (16 * (φ E * (π / 64 * (φ f.b * φ f.h ^ 3)))) = φ E * (npPi / 4 * (φ f.b * φ f.h)) * φ f.h ^ 2 := by
    field_simp; ring
  rw [e1, e2]

/-- Mean value of a function with continuous derivative. -/
theorem slope_near {w w' : ℝ → ℝ} (hw : ∀ s, HasDerivAt w (w' s) s) {a b s δ : ℝ} (hab : a < b)
    (h : ∀ x ∈ Set.Icc a b, |w' x - w' s| ≤ δ) : |(w b - w a) / (b - a) - w' s| ≤ δ := by
  obtain ⟨c, hc, he⟩ := exists_hasDerivAt_eq_slope w w' hab (fun x _ => (hw x).continuousAt.continuousWithinAt) (fun x _ => hw x)
  rw [← he]
  exact h c ⟨hc.1.le, hc.2.le⟩

/-- The energy of one short element is that of the continuous beam, up to `η` per length. -/
theorem element_near {S B r : ℝ} (S0 : 0 < S) (B0 : 0 < B) (r0 : 0 < r) {w t w' t' : ℝ → ℝ} (hw : Smooth w t w' t') (R : ℝ) {η : ℝ}
    (hη : 0 < η) :
    ∃ d, 0 < d ∧ ∀ a b, |a| ≤ R → |b| ≤ R → a < b → b - a ≤ d →
      |(b - a) * (S / (1 + r * (b - a) ^ 2) * (((w b - w a) / (b - a) - (t a + t b) / 2) ^ 2 +
        ((b - a) ^ 2 / 12 + B / S) * ((t b - t a) / (b - a)) ^ 2)) - smoothEnergy B S a b t w' t'| ≤ η * (b - a) := by
  have ct : Continuous t := continuous_iff_continuousAt.2 (fun s => (hw.deriv_t s).continuousAt)
  have cw' := hw.cont_w
  have ct' := hw.cont_t
  -- bounds of the fields
  obtain ⟨M1, hM1⟩ := (isCompact_Icc (a := -R) (b := R)).exists_bound_of_continuousOn (f := fun s => w' s - t s) (by fun_prop)
  obtain ⟨M2, hM2⟩ := (isCompact_Icc (a := -R) (b := R)).exists_bound_of_continuousOn (f := t') (by fun_prop)
  set M := max 0 (max M1 M2) with hM
  have M0 : 0 ≤ M := le_max_left _ _
  -- the oscillation allowed
  set c1 := (S + B) * (2 * M + 1) with hc1
  set c2 := (S + r * (S + B)) * (M + 1) ^ 2 with hc2
  have c10 : 0 < c1 := by positivity
  have c20 : 0 < c2 := by positivity
  set δ := min 1 (η / (2 * c1)) with hδ
  have δ0 : 0 < δ := by positivity
  have uc : ∀ {q : ℝ → ℝ}, Continuous q → ∃ d, 0 < d ∧ ∀ x ∈ Set.Icc (-R) R, ∀ y ∈ Set.Icc (-R) R, |x - y| ≤ d → |q x - q y| ≤ δ / 2 := by
    intro q hq
    have := (isCompact_Icc (a := -R) (b := R)).uniformContinuousOn_of_continuous hq.continuousOn
    obtain ⟨d, hd, h⟩ := Metric.uniformContinuousOn_iff.1 this (δ / 2) (by positivity)
    refine ⟨d / 2, by positivity, fun x hx y hy hxy => ?_⟩
    have := h x hx y hy (by rw [Real.dist_eq]; linarith)
    rw [Real.dist_eq] at this
    exact this.le
  obtain ⟨d1, d10, u1⟩ := uc cw'
  obtain ⟨d2, d20, u2⟩ := uc ct
  obtain ⟨d3, d30, u3⟩ := uc ct'
  refine ⟨min 1 (min (η / (2 * c2)) (min d1 (min d2 d3))), by positivity, ?_⟩
  intro a b ha hb hab hd
  have l0 : 0 < b - a := by linarith
  simp only [le_min_iff] at hd
  obtain ⟨hd0, hd1, hd2, hd3, hd4⟩ := hd
  have hin : ∀ x ∈ Set.Icc a b, x ∈ Set.Icc (-R) R := fun x hx => ⟨(abs_le.1 ha).1.trans hx.1, hx.2.trans (abs_le.1 hb).2⟩
  have hclose : ∀ x ∈ Set.Icc a b, ∀ y ∈ Set.Icc a b, |x - y| ≤ b - a := fun x hx y hy => by
    rw [abs_le]; constructor <;> linarith [hx.1, hx.2, hy.1, hy.2]
  have hain : a ∈ Set.Icc a b := ⟨le_rfl, hab.le⟩
  have hbin : b ∈ Set.Icc a b := ⟨hab.le, le_rfl⟩
  set q := S / (1 + r * (b - a) ^ 2) * (((w b - w a) / (b - a) - (t a + t b) / 2) ^ 2 + ((b - a) ^ 2 / 12 + B / S) * ((t b - t a) / (b - a)) ^ 2)
    with hq
  have hpt : ∀ s ∈ Set.Icc a b, |q - (S * (w' s - t s) ^ 2 + B * t' s ^ 2)| ≤ η := by
    intro s hs
    have hx1 := slope_near hw.deriv_w (s := s) hab (fun x hx => u1 x (hin x hx) s (hin s hs) ((hclose x hx s hs).trans hd2))
    have hy1 := slope_near hw.deriv_t (s := s) hab (fun x hx => u3 x (hin x hx) s (hin s hs) ((hclose x hx s hs).trans hd4))
    have ha1 := u2 a (hin a hain) s (hin s hs) ((hclose a hain s hs).trans hd3)
    have hb1 := u2 b (hin b hbin) s (hin s hs) ((hclose b hbin s hs).trans hd3)
    have hx : |((w b - w a) / (b - a) - (t a + t b) / 2) - (w' s - t s)| ≤ δ := by
      rw [abs_le] at hx1 ha1 hb1 ⊢
      constructor <;> linarith
    have hy : |(t b - t a) / (b - a) - t' s| ≤ δ := hy1.trans (by linarith)
    have hX : |w' s - t s| ≤ M := (hM1 s (hin s hs)).trans ((le_max_left _ _).trans (le_max_right _ _))
    have hY : |t' s| ≤ M := (hM2 s (hin s hs)).trans ((le_max_right _ _).trans (le_max_right _ _))
    refine (density_near S0 B0 r0 δ0.le (min_le_left _ _) l0 hx hy hX hY).trans ?_
    rw [← hc1, ← hc2]
    have k1 : c1 * δ ≤ η / 2 := by
      calc c1 * δ ≤ c1 * (η / (2 * c1)) := mul_le_mul_of_nonneg_left (min_le_right _ _) c10.le
        _ = η / 2 := by field_simp
    have k2 : (b - a) ^ 2 * c2 ≤ η / 2 := by
      calc (b - a) ^ 2 * c2 ≤ (b - a) * c2 := by
            apply mul_le_mul_of_nonneg_right _ c20.le
            nlinarith
        _ ≤ η / (2 * c2) * c2 := by gcongr
        _ = η / 2 := by field_simp
    linarith
  have e1 : (b - a) * q - smoothEnergy B S a b t w' t' = ∫ s in a..b, q - (S * (w' s - t s) ^ 2 + B * t' s ^ 2) := by
    rw [intervalIntegral.integral_sub (by simp) (Continuous.intervalIntegrable (by fun_prop) _ _), intervalIntegral.integral_const,
      smul_eq_mul, smoothEnergy]
  rw [e1, ← Real.norm_eq_abs]
  refine (intervalIntegral.norm_integral_le_of_norm_le_const (C := η) (fun s hs => ?_)).trans ?_
  · rw [Set.uIoc_of_le hab.le] at hs
    exact hpt s ⟨hs.1.le, hs.2⟩
  · rw [abs_of_pos l0]

open Real in
/-- The energy of an element of infinite tensile modulus without rotations, in real numbers. -/
theorem element_string {K : Type} [Field K] [LinearOrder K] [IsStrictOrderedRing K] (φ : K →+* ℝ) (hφ : StrictMono φ) {size l : K}
    {f : Fiber K} (hf : GoodFiber size f) (hE : f.E = ⊤) (hl : 0 < l) (ui uj : K) :
    φ (elementEnergy f l 1 ui 0 uj 0) = φ l * (npPi / π * (φ f.G * ellipseArea (φ f.b) (φ f.h)) * ((φ uj - φ ui) / φ l) ^ 2) := by
  have hb := pos_of_mono hφ hf.b
  have hh := pos_of_mono hφ hf.h
  have hG := pos_of_mono hφ hf.G
  have hl' := pos_of_mono hφ hl
  have hpi := pi_pos
  have e : elementEnergy f l 1 ui 0 uj 0 = f.G * sectionArea f / l * (ui - uj) ^ 2 := by
    unfold elementEnergy transverse
    rw [hE]
    have : (⊤ : WithTop K) = none := rfl
    simp only [this]
    have hA := fiberArea_pos hf
    have g := hf.G
    field_simp
    ring
  rw [e]
  simp only [sectionArea, map_sub, map_mul, map_div₀, map_pow, map_ofNat, map_npPi]
  rw [C139_area hb hh]
  field_simp
  ring

theorem string_near {S : ℝ} (S0 : 0 < S) {w w' : ℝ → ℝ} (hw : ∀ s, HasDerivAt w (w' s) s) (cw' : Continuous w') (R : ℝ) {η : ℝ}
    (hη : 0 < η) :
    ∃ d, 0 < d ∧ ∀ a b, |a| ≤ R → |b| ≤ R → a < b → b - a ≤ d →
      |(b - a) * (S * ((w b - w a) / (b - a)) ^ 2) - ∫ s in a..b, S * w' s ^ 2| ≤ η * (b - a) := by
  obtain ⟨M, hM⟩ := (isCompact_Icc (a := -R) (b := R)).exists_bound_of_continuousOn (f := w') (by fun_prop)
  set N := max 0 M with hN
  have N0 : 0 ≤ N := le_max_left _ _
  set c := S * (2 * N + 1) with hc
  have c0 : 0 < c := by positivity
  set δ := min 1 (η / c) with hδ
  have δ0 : 0 < δ := by positivity
  obtain ⟨d, d0, hd⟩ := Metric.uniformContinuousOn_iff.1
    ((isCompact_Icc (a := -R) (b := R)).uniformContinuousOn_of_continuous cw'.continuousOn) δ δ0
  refine ⟨d / 2, by positivity, ?_⟩
  intro a b ha hb hab hl
  have l0 : 0 < b - a := by linarith
  have hin : ∀ x ∈ Set.Icc a b, x ∈ Set.Icc (-R) R := fun x hx => ⟨(abs_le.1 ha).1.trans hx.1, hx.2.trans (abs_le.1 hb).2⟩
  have hpt : ∀ s ∈ Set.Icc a b, |S * ((w b - w a) / (b - a)) ^ 2 - S * w' s ^ 2| ≤ η := by
    intro s hs
    have h1 := slope_near hw (s := s) (δ := δ) hab (fun x hx => by
      have := hd x (hin x hx) s (hin s hs) (by
        rw [Real.dist_eq]
        refine lt_of_le_of_lt (abs_le.2 ⟨?_, ?_⟩ : |x - s| ≤ b - a) (by linarith) <;> linarith [hx.1, hx.2, hs.1, hs.2])
      rw [Real.dist_eq] at this
      exact this.le)
    have h2 : |w' s| ≤ N := (hM s (hin s hs)).trans (le_max_right _ _)
    set x := (w b - w a) / (b - a)
    have h3 : |x + w' s| ≤ 2 * N + 1 := by
      have : x + w' s = (x - w' s) + 2 * w' s := by ring
      rw [this]
      refine (abs_add_le _ _).trans ?_
      rw [abs_mul, abs_of_pos (two_pos : (0 : ℝ) < 2)]
      linarith [min_le_left 1 (η / c)]
    rw [← mul_sub, abs_mul, abs_of_pos S0, sq_sub_sq, abs_mul]
    calc S * (|x + w' s| * |x - w' s|) ≤ S * ((2 * N + 1) * δ) := by gcongr
      _ = c * δ := by rw [hc]; ring
      _ ≤ c * (η / c) := mul_le_mul_of_nonneg_left (min_le_right _ _) c0.le
      _ = η := by field_simp
  have e1 : (b - a) * (S * ((w b - w a) / (b - a)) ^ 2) - ∫ s in a..b, S * w' s ^ 2 =
      ∫ s in a..b, S * ((w b - w a) / (b - a)) ^ 2 - S * w' s ^ 2 := by
    rw [intervalIntegral.integral_sub (by simp) (Continuous.intervalIntegrable (by fun_prop) _ _), intervalIntegral.integral_const,
      smul_eq_mul]
  rw [e1, ← Real.norm_eq_abs]
  refine (intervalIntegral.norm_integral_le_of_norm_le_const (C := η) (fun s hs => ?_)).trans ?_
  · rw [Set.uIoc_of_le hab.le] at hs
    exact hpt s ⟨hs.1.le, hs.2⟩
  · rw [abs_of_pos l0]

end Fibermat
