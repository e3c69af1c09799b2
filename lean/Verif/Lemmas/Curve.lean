import Verif.Lemmas.Interp

/-! # Convex polygonal lines, their interpolation and the area below them -/

set_option linter.unusedSectionVars false

namespace Fibermat
variable {K : Type} [Field K] [LinearOrder K] [IsStrictOrderedRing K]

/-- The points `(Z k, F k)`, `k < n`, go to the left with slopes that do not decrease. -/
structure ConvexLine (n : ℕ) (Z F : ℕ → K) : Prop where
  left : ∀ k, k + 1 < n → Z (k + 1) < Z k
  slope : ∀ k, k + 2 < n → (F (k + 1) - F k) * (Z (k + 1) - Z (k + 2)) ≤ (F (k + 2) - F (k + 1)) * (Z k - Z (k + 1))

/-- A point of the line. -/
def OnLine (n : ℕ) (Z F : ℕ → K) (z f : K) : Prop :=
  ∃ i l, i + 1 < n ∧ 0 ≤ l ∧ l ≤ 1 ∧ z = (1 - l) * Z i + l * Z (i + 1) ∧ f = (1 - l) * F i + l * F (i + 1)

section
variable {n : ℕ} {Z F : ℕ → K}

theorem ConvexLine.anti (h : ConvexLine n Z F) {i j : ℕ} (hij : i < j) (hj : j < n) : Z j < Z i := by
  induction j, hij using Nat.le_induction with
  | base => exact h.left i hj
  | succ j hij ih => exact (h.left j hj).trans (ih (by omega))

theorem ConvexLine.anti' (h : ConvexLine n Z F) {i j : ℕ} (hij : i ≤ j) (hj : j < n) : Z j ≤ Z i := by
  rcases eq_or_lt_of_le hij with rfl | hlt
  · exact le_rfl
  · exact (h.anti hlt hj).le

/-- Slope of the segment that starts at vertex `k`. -/
def segSlope (Z F : ℕ → K) (k : ℕ) : K := (F (k + 1) - F k) / (Z k - Z (k + 1))

theorem ConvexLine.seg (h : ConvexLine n Z F) {k : ℕ} (hk : k + 1 < n) : F (k + 1) = F k + segSlope Z F k * (Z k - Z (k + 1)) := by
  have := h.left k hk
  unfold segSlope
  rw [div_mul_cancel₀ _ (sub_pos.2 this).ne']
  ring

theorem ConvexLine.slope_mono (h : ConvexLine n Z F) {i j : ℕ} (hij : i ≤ j) (hj : j + 1 < n) : segSlope Z F i ≤ segSlope Z F j := by
  induction j, hij using Nat.le_induction with
  | base => exact le_rfl
  | succ j hij ih =>
    refine (ih (by omega)).trans ?_
    unfold segSlope
    rw [div_le_div_iff₀ (sub_pos.2 (h.left j (by omega))) (sub_pos.2 (h.left (j + 1) hj))]
    exact h.slope j hj

/-- The vertices are above the line of each segment. -/
theorem ConvexLine.above (h : ConvexLine n Z F) {k j : ℕ} (hk : k + 1 < n) (hj : j < n) : F k + segSlope Z F k * (Z k - Z j) ≤ F j := by
  rcases le_total k j with hkj | hjk
  · induction j, hkj using Nat.le_induction with
    | base => simp
    | succ j hkj ih =>
      have h1 := ih (by omega)
      have h2 := h.seg hj
      have h3 := mul_le_mul_of_nonneg_right (h.slope_mono hkj hj) (sub_nonneg.2 (h.left j hj).le)
      rw [h2]
      nlinarith
  · obtain ⟨d, rfl⟩ : ∃ d, k = j + d := ⟨k - j, by omega⟩
    clear hjk hj
    induction d generalizing j with
    | zero => simp
    | succ d ih =>
      have h1 := ih (j := j + 1) (by omega)
      rw [(by ring : j + 1 + d = j + (d + 1))] at h1
      have hj1 : j + 1 < n := by omega
      have h2 := h.seg hj1
      have h3 := mul_le_mul_of_nonneg_right (h.slope_mono (by omega : j ≤ j + (d + 1)) hk) (sub_nonneg.2 (h.left j hj1).le)
      nlinarith

theorem ConvexLine.point_above (h : ConvexLine n Z F) {k : ℕ} (hk : k + 1 < n) {z f : K} (hp : OnLine n Z F z f) :
    F k + segSlope Z F k * (Z k - z) ≤ f := by
  obtain ⟨i, l, hi, l0, l1, rfl, rfl⟩ := hp
  have h1 := mul_le_mul_of_nonneg_left (h.above hk (by omega : i < n)) (sub_nonneg.2 l1)
  have h2 := mul_le_mul_of_nonneg_left (h.above hk hi) l0
  nlinarith

theorem ConvexLine.point_on (h : ConvexLine n Z F) {i : ℕ} (hi : i + 1 < n) (l : K) :
    (1 - l) * F i + l * F (i + 1) = F i + segSlope Z F i * (Z i - ((1 - l) * Z i + l * Z (i + 1))) := by
  rw [h.seg hi]; ring

/-- Three points of the line, from right to left. -/
theorem ConvexLine.triple (h : ConvexLine n Z F) {z1 f1 z2 f2 z3 f3 : K} (p1 : OnLine n Z F z1 f1) (p2 : OnLine n Z F z2 f2)
    (p3 : OnLine n Z F z3 f3) (h12 : z2 ≤ z1) (h23 : z3 ≤ z2) : (z1 - z3) * f2 ≤ (z2 - z3) * f1 + (z1 - z2) * f3 := by
  obtain ⟨i, l, hi, l0, l1, e1, e2⟩ := p2
  have hf := h.point_on hi l
  rw [← e1, ← e2] at hf
  have a1 := mul_le_mul_of_nonneg_left (h.point_above hi p1) (sub_nonneg.2 h23)
  have a3 := mul_le_mul_of_nonneg_left (h.point_above hi p3) (sub_nonneg.2 h12)
  rw [hf]
  refine le_trans (le_of_eq ?_) (add_le_add a1 a3)
  ring

/-- A point between two points of the line is above the line. -/
theorem ConvexLine.chord (h : ConvexLine n Z F) {z1 f1 z2 f2 z3 f3 l : K} (p1 : OnLine n Z F z1 f1) (p2 : OnLine n Z F z2 f2)
    (p3 : OnLine n Z F z3 f3) (l0 : 0 ≤ l) (l1 : l ≤ 1) (hz : z2 = (1 - l) * z1 + l * z3) : f2 ≤ (1 - l) * f1 + l * f3 := by
  obtain ⟨i, m, hi, m0, m1, e1, e2⟩ := p2
  have hf := h.point_on hi m
  rw [← e1, ← e2] at hf
  have a1 := mul_le_mul_of_nonneg_left (h.point_above hi p1) (sub_nonneg.2 l1)
  have a3 := mul_le_mul_of_nonneg_left (h.point_above hi p3) l0
  rw [hf, hz]
  refine le_trans (le_of_eq ?_) (add_le_add a1 a3)
  ring

theorem onLine_vertex {k : ℕ} (hn : 2 ≤ n) (hk : k < n) : OnLine n Z F (Z k) (F k) := by
  rcases Nat.lt_or_ge (k + 1) n with h | h
  · exact ⟨k, 0, h, le_rfl, zero_le_one, by ring, by ring⟩
  · obtain ⟨j, rfl⟩ : ∃ j, k = j + 1 := ⟨k - 1, by omega⟩
    exact ⟨j, 1, by omega, zero_le_one, le_rfl, by ring, by ring⟩

/-- Twice the area below the line up to vertex `k`. -/
def vertexArea (Z F : ℕ → K) : ℕ → K
  | 0 => 0
  | k + 1 => vertexArea Z F k + (F k + F (k + 1)) * (Z k - Z (k + 1))

/-- The area between two vertices is at most that of the trapezoid. -/
theorem ConvexLine.vertex_area (h : ConvexLine n Z F) (hn : 2 ≤ n) {i j : ℕ} (hij : i ≤ j) (hj : j < n) :
    vertexArea Z F j - vertexArea Z F i ≤ (F i + F j) * (Z i - Z j) := by
  induction j, hij using Nat.le_induction with
  | base => simp
  | succ j hij ih =>
    have h1 := ih (by omega)
    have h2 := h.triple (onLine_vertex hn (by omega : i < n)) (onLine_vertex hn (by omega : j < n)) (onLine_vertex hn hj)
      (h.anti' hij (by omega)) (h.left j hj).le
    simp only [vertexArea]
    nlinarith

/-- Twice the area below the line up to the point of segment `i` at ratio `l`. -/
def pointArea (Z F : ℕ → K) (i : ℕ) (l : K) : K :=
  vertexArea Z F i + (F i + ((1 - l) * F i + l * F (i + 1))) * (Z i - ((1 - l) * Z i + l * Z (i + 1)))

theorem pointArea_zero (i : ℕ) : pointArea Z F i 0 = vertexArea Z F i := by unfold pointArea; ring

theorem pointArea_one (i : ℕ) : pointArea Z F i 1 = vertexArea Z F (i + 1) := by simp only [pointArea, vertexArea]; ring

/-- The area between two points is at most that of the trapezoid. -/
theorem ConvexLine.point_area (h : ConvexLine n Z F) (hn : 2 ≤ n) {i j : ℕ} {l m : K} (hi : i + 1 < n) (hj : j + 1 < n)
    (l0 : 0 ≤ l) (l1 : l ≤ 1) (m0 : 0 ≤ m) (m1 : m ≤ 1) (hij : i < j ∨ i = j) :
    pointArea Z F j m - pointArea Z F i l ≤ (((1 - l) * F i + l * F (i + 1)) + ((1 - m) * F j + m * F (j + 1))) *
      (((1 - l) * Z i + l * Z (i + 1)) - ((1 - m) * Z j + m * Z (j + 1))) := by
  rcases hij with hij | rfl
  · have p1 : OnLine n Z F ((1 - l) * Z i + l * Z (i + 1)) ((1 - l) * F i + l * F (i + 1)) := ⟨i, l, hi, l0, l1, rfl, rfl⟩
    have p2 : OnLine n Z F ((1 - m) * Z j + m * Z (j + 1)) ((1 - m) * F j + m * F (j + 1)) := ⟨j, m, hj, m0, m1, rfl, rfl⟩
    have hz1 : Z (i + 1) ≤ (1 - l) * Z i + l * Z (i + 1) := by
      have := mul_nonneg (sub_nonneg.2 l1) (sub_nonneg.2 (h.left i hi).le)
      nlinarith
    have hz2 : (1 - m) * Z j + m * Z (j + 1) ≤ Z j := by
      have := mul_nonneg m0 (sub_nonneg.2 (h.left j hj).le)
      nlinarith
    have hz3 : Z j ≤ Z (i + 1) := h.anti' hij (by omega)
    have a1 := h.vertex_area hn hij (by omega : j < n)
    have t1 := h.triple p1 (onLine_vertex hn hi) (onLine_vertex hn (by omega : j < n)) hz1 hz3
    have t2 := h.triple p1 (onLine_vertex hn (by omega : j < n)) p2 (hz3.trans hz1) hz2
    have e1 : pointArea Z F i l + (((1 - l) * F i + l * F (i + 1)) + F (i + 1)) * (((1 - l) * Z i + l * Z (i + 1)) - Z (i + 1)) =
        vertexArea Z F (i + 1) := by
      simp only [pointArea, vertexArea]; ring
    have e2 : pointArea Z F j m = vertexArea Z F j + (F j + ((1 - m) * F j + m * F (j + 1))) * (Z j - ((1 - m) * Z j + m * Z (j + 1))) := rfl
    rw [e2]
    generalize (1 - l) * Z i + l * Z (i + 1) = z1 at *
    generalize (1 - l) * F i + l * F (i + 1) = f1 at *
    generalize (1 - m) * Z j + m * Z (j + 1) = z2 at *
    generalize (1 - m) * F j + m * F (j + 1) = f2 at *
    nlinarith
  · refine le_of_eq ?_
    unfold pointArea
    ring

end

/-! ## Interpolation -/

/-- Linear interpolation at `t`, with the place of `t` among the knots. -/
theorem interp_place {n : ℕ} (hn : 2 ≤ n) {t : K} (h0 : 0 ≤ t) (h1 : t ≤ 1) :
    ∃ i l, i + 1 < n ∧ 0 ≤ l ∧ l ≤ 1 ∧ t = (1 - l) * knot n i + l * knot n (i + 1) ∧ ∀ (y : List K) (fill : K), y.length = n →
      interp1d .linear (linspace n) y fill t = (1 - l) * y.getD i 0 + l * y.getD (i + 1) 0 := by
  obtain ⟨i, hi, ha, hb, he⟩ := interp_linear hn h0 h1
  obtain ⟨r0, r1⟩ := knot_ratio hn ha hb
  have hlt : (knot n i : K) < knot n (i + 1) := (knot_lt hn).2 (by omega)
  refine ⟨i, _, hi, r0, r1, ?_, he⟩
  have : knot n (i + 1) - knot n i ≠ (0 : K) := (sub_pos.2 hlt).ne'
  field_simp
  ring

/-- Places of successive times. -/
theorem place_lt {n : ℕ} (hn : 2 ≤ n) {i j : ℕ} {l m t s : K} (l0 : 0 ≤ l) (m1 : m ≤ 1)
    (ht : t = (1 - l) * knot n i + l * knot n (i + 1)) (hs : s = (1 - m) * knot n j + m * knot n (j + 1)) (hts : t < s) :
    i < j ∨ (i = j ∧ l < m) := by
  have hi : (knot n i : K) < knot n (i + 1) := (knot_lt hn).2 (by omega)
  have hj : (knot n j : K) < knot n (j + 1) := (knot_lt hn).2 (by omega)
  rcases lt_trichotomy i j with h | rfl | h
  · exact Or.inl h
  · refine Or.inr ⟨rfl, ?_⟩
    by_contra hlm
    rw [not_lt] at hlm
    have := mul_nonneg (sub_nonneg.2 hlm) (sub_nonneg.2 hi.le)
    rw [ht, hs] at hts
    nlinarith
  · exfalso
    have hji : (knot n (j + 1) : K) ≤ knot n i := (knot_le hn).2 h
    have e1 := mul_nonneg l0 (sub_nonneg.2 hi.le)
    have e2 := mul_nonneg (sub_nonneg.2 m1) (sub_nonneg.2 hj.le)
    rw [ht, hs] at hts
    nlinarith

end Fibermat
