import Verif.Lemmas.RoundedAssembly
import Verif.Model.RoundedNet

/-! Error of the elimination of two unknowns. -/

namespace Fibermat
open Spec
set_option linter.unusedSectionVars false
variable {K : Type} [Field K] [LinearOrder K] [IsStrictOrderedRing K] {fl : K → K} {u : K}

theorem abs_near {x y e B : K} (h : |x - y| ≤ e) (hB : |y| ≤ B) : |x| ≤ B + e := by
  calc |x| = |(x - y) + y| := by rw [sub_add_cancel]
    _ ≤ |x - y| + |y| := abs_add_le _ _
    _ ≤ _ := by linarith

theorem near_trans {x y z e e' : K} (h : |x - y| ≤ e) (h' : |y - z| ≤ e') : |x - z| ≤ e + e' := by
  calc |x - z| = |(x - y) + (y - z)| := by ring_nf
    _ ≤ |x - y| + |y - z| := abs_add_le _ _
    _ ≤ _ := by linarith

theorem fl_near (hr : Rounds fl u) {x y e B : K} (h : |x - y| ≤ e) (hB : |y| ≤ B) : |fl x - y| ≤ e + u * (B + e) := by
  have h1 := (hr.err x).trans (mul_le_mul_of_nonneg_left (abs_near h hB) hr.u_nonneg)
  have := near_trans h1 h
  linarith

theorem mul_near {x x' y y' e e' A B : K} (hx : |x - x'| ≤ e) (hy : |y - y'| ≤ e') (hA : |x| ≤ A) (hB : |y'| ≤ B) :
    |x * y - x' * y'| ≤ A * e' + e * B := by
  have hA0 := (abs_nonneg x).trans hA
  have he0 := (abs_nonneg _).trans hx
  calc |x * y - x' * y'| = |x * (y - y') + (x - x') * y'| := by ring_nf
    _ ≤ |x * (y - y')| + |(x - x') * y'| := abs_add_le _ _
    _ = |x| * |y - y'| + |x - x'| * |y'| := by rw [abs_mul, abs_mul]
    _ ≤ _ := add_le_add (mul_le_mul hA hy (abs_nonneg _) hA0) (mul_le_mul hx hB (abs_nonneg _) he0)

theorem sub_near {x x' y y' e e' : K} (hx : |x - x'| ≤ e) (hy : |y - y'| ≤ e') : |(x - y) - (x' - y')| ≤ e + e' := by
  calc |(x - y) - (x' - y')| = |(x - x') - (y - y')| := by ring_nf
    _ ≤ |x - x'| + |y - y'| := abs_sub _ _
    _ ≤ _ := by linarith

theorem div_near {x x' y y' e e' B M : K} (hx : |x - x'| ≤ e) (hy : |y - y'| ≤ e') (hB : |x' / y'| ≤ B) (hM : 1 / |y| ≤ M) (hy0 : y ≠ 0)
    (hy0' : y' ≠ 0) : |x / y - x' / y'| ≤ (e + B * e') * M := by
  have he0 := (abs_nonneg _).trans hx
  have he0' := (abs_nonneg _).trans hy
  have hB0 := (abs_nonneg _).trans hB
  have hyp : 0 < |y| := abs_pos.2 hy0
  have e1 : x / y - x' / y' = ((x - x') - x' / y' * (y - y')) * (1 / y) := by field_simp; ring
  rw [e1, abs_mul, abs_div, abs_one]
  refine mul_le_mul ?_ hM (by positivity) (by positivity)
  calc |(x - x') - x' / y' * (y - y')| ≤ |x - x'| + |x' / y' * (y - y')| := abs_sub _ _
    _ ≤ e + B * e' := by
      rw [abs_mul]
      exact add_le_add hx (mul_le_mul hB hy (abs_nonneg _) hB0)

/-- Data of a system with its rounded version: coefficients of size one, right side of size `P`. -/
structure NearSystem (u P : K) (a b c d p q a' b' c' d' p' q' : K) : Prop where
  ba : |a| ≤ 101 / 100
  bb : |b| ≤ 101 / 100
  bc : |c| ≤ 101 / 100
  bd : |d| ≤ 101 / 100
  bp : |p| ≤ P
  bq : |q| ≤ P
  na : |a' - a| ≤ 5 * u
  nb : |b' - b| ≤ 5 * u
  nc : |c' - c| ≤ 5 * u
  nd : |d' - d| ≤ 5 * u
  np : |p' - p| ≤ 6 * u * P
  nq : |q' - q| ≤ 6 * u * P
  big : 9 / 10 ≤ |a'|
  le : |c'| ≤ |a'|

variable {P a b c d p q a' b' c' d' p' q' : K}

/-- The multiplier. -/
theorem multiplier_near (hr : Rounds fl u) (hu : u ≤ 1 / 1000) (h : NearSystem u P a b c d p q a' b' c' d' p' q') :
    |fl (c' * fl (1 / a')) - c / a| ≤ 16 * u ∧ |c / a| ≤ 103 / 100 ∧ 89 / 100 ≤ |a| := by
  have hu0 := hr.u_nonneg
  have huu : u * u ≤ u * (1 / 1000) := mul_le_mul_of_nonneg_left hu hu0
  have ha' : a' ≠ 0 := by intro h0; have := h.big; rw [h0, abs_zero] at this; norm_num at this
  have ha2 : 89 / 100 ≤ |a| := by
    have h1 := abs_near (x := a') (y := a) h.na le_rfl
    have := h.big
    linarith
  have ha : a ≠ 0 := by intro h0; rw [h0, abs_zero] at ha2; norm_num at ha2
  have hM : 1 / |a'| ≤ 10 / 9 := by
    rw [div_le_div_iff₀ (abs_pos.2 ha') (by norm_num)]; linarith [h.big]
  have hq : |c' / a'| ≤ 1 := by
    rw [abs_div]; exact div_le_one_of_le₀ h.le (abs_nonneg _)
  have hM2 : 1 / |a| ≤ 100 / 89 := by
    rw [div_le_div_iff₀ (abs_pos.2 ha) (by norm_num)]; linarith
  -- exact quotient of the rounded data
  have h1 : |c' / a' - c / a| ≤ (5 * u + 1 * (5 * u)) * (100 / 89) := by
    rw [abs_sub_comm]
    exact div_near (by rw [abs_sub_comm]; exact h.nc) (by rw [abs_sub_comm]; exact h.na) hq hM2 ha ha'
  have h2 : |c' * fl (1 / a') - c' / a'| ≤ u := by
    have e : c' * fl (1 / a') - c' / a' = c' * (fl (1 / a') - 1 / a') := by ring
    rw [e, abs_mul]
    have := hr.err (1 / a')
    calc |c'| * |fl (1 / a') - 1 / a'| ≤ |a'| * (u * |1 / a'|) := mul_le_mul h.le this (abs_nonneg _) (abs_nonneg _)
      _ = u := by rw [abs_div, abs_one]; have := abs_pos.2 ha'; field_simp
  have h3 := fl_near hr h2 hq
  have h4 := near_trans h3 h1
  refine ⟨?_, ?_, ha2⟩
  · nlinarith
  · have := abs_near (x := c / a) (y := c' / a') ((abs_sub_comm _ _).trans_le h1) hq
    linarith

/-- The last pivot. -/
theorem pivot_near (hr : Rounds fl u) (hu : u ≤ 1 / 1000) (h : NearSystem u P a b c d p q a' b' c' d' p' q') :
    |lastPivotR fl a' b' c' d' - (d - c / a * b)| ≤ 30 * u ∧ |d - c / a * b| ≤ 21 / 10 := by
  have hu0 := hr.u_nonneg
  have huu : u * u ≤ u * (1 / 1000) := mul_le_mul_of_nonneg_left hu hu0
  obtain ⟨hl, hl1, -⟩ := multiplier_near hr hu h
  have hl2 := abs_near hl hl1
  have hlb1 : |c / a * b| ≤ 103 / 100 * (101 / 100) := by
    rw [abs_mul]; exact mul_le_mul hl1 h.bb (abs_nonneg _) (by norm_num)
  have h1 := mul_near hl h.nb hl2 h.bb
  have h2 := fl_near hr h1 hlb1
  have h3 := sub_near h.nd h2
  have hpi : |d - c / a * b| ≤ 21 / 10 := by
    refine (abs_sub _ _).trans ?_
    linarith [h.bd]
  have h4 := fl_near hr h3 hpi
  refine ⟨h4.trans ?_, hpi⟩
  nlinarith [mul_nonneg hu0 (mul_nonneg hu0 hu0), mul_le_mul_of_nonneg_left huu hu0]

/-- The numerator of the second unknown. -/
theorem numer_near (hr : Rounds fl u) (hu : u ≤ 1 / 1000) (hP : 0 ≤ P) (h : NearSystem u P a b c d p q a' b' c' d' p' q') :
    |fl (q' - fl (fl (c' * fl (1 / a')) * p')) - (q - c / a * p)| ≤ 33 * (u * P) ∧ |q - c / a * p| ≤ 21 / 10 * P := by
  have hu0 := hr.u_nonneg
  have huP : 0 ≤ u * P := mul_nonneg hu0 hP
  have huu : u * (u * P) ≤ 1 / 1000 * (u * P) := mul_le_mul_of_nonneg_right hu huP
  have huu0 : 0 ≤ u * (u * P) := mul_nonneg hu0 huP
  obtain ⟨hl, hl1, -⟩ := multiplier_near hr hu h
  have hl2 : |fl (c' * fl (1 / a'))| ≤ 105 / 100 := (abs_near hl hl1).trans (by linarith)
  have hlp : |c / a * p| ≤ 103 / 100 * P := by
    rw [abs_mul]; exact mul_le_mul hl1 h.bp (abs_nonneg _) (by norm_num)
  have h1 : |fl (c' * fl (1 / a')) * p' - c / a * p| ≤ 223 / 10 * (u * P) := by
    refine (mul_near hl h.np hl2 h.bp).trans ?_
    linarith
  have h2 : |fl (fl (c' * fl (1 / a')) * p') - c / a * p| ≤ 234 / 10 * (u * P) := by
    refine (fl_near hr h1 hlp).trans ?_
    linarith
  have h3 := sub_near h.nq h2
  have hn : |q - c / a * p| ≤ 21 / 10 * P := by
    refine (abs_sub _ _).trans ?_
    linarith [h.bq]
  refine ⟨(fl_near hr h3 hn).trans ?_, hn⟩
  linarith

/-- Elimination with rounding, for a system whose determinant is not too small. -/
theorem elim_near (hr : Rounds fl u) (hu : u ≤ 1 / 1000) (hP : 0 ≤ P) (h : NearSystem u P a b c d p q a' b' c' d' p' q') {δ x y : K}
    (hδ : 0 < δ) (hδu : 100 * u ≤ δ) (hD : δ ≤ |a * d - b * c|) (e1 : a * x + b * y = p) (e2 : c * x + d * y = q) :
    ∃ R, elimR fl a' b' c' d' p' q' = some R ∧ |R.1 - x| ≤ 500 * u * P / δ ^ 2 ∧ |R.2 - y| ≤ 500 * u * P / δ ^ 2 := by
  have hu0 := hr.u_nonneg
  obtain ⟨-, -, ha2⟩ := multiplier_near hr hu h
  obtain ⟨hpiv, hpi1⟩ := pivot_near hr hu h
  obtain ⟨hnum, hn1⟩ := numer_near hr hu hP h
  have ha' : a' ≠ 0 := by intro h0; have := h.big; rw [h0, abs_zero] at this; norm_num at this
  have ha : a ≠ 0 := by intro h0; rw [h0, abs_zero] at ha2; norm_num at ha2
  set π := d - c / a * b with hπ
  have hDa : a * d - b * c = a * π := by rw [hπ]; field_simp
  have hπδ : δ ≤ 101 / 100 * |π| := by
    rw [hDa, abs_mul] at hD
    exact hD.trans (mul_le_mul_of_nonneg_right h.ba (abs_nonneg _))
  have hπ0 : 0 < |π| := by linarith
  have hπne : π ≠ 0 := abs_pos.1 hπ0
  set w := 1 / |π| with hw
  have hw0 : 0 < w := by positivity
  have hw1 : 1 ≤ 21 / 10 * w := by
    rw [hw, mul_one_div, le_div_iff₀ hπ0]; linarith
  have hww : w ≤ 21 / 10 * w ^ 2 := by
    have := mul_le_mul_of_nonneg_right hw1 hw0.le
    linarith [pow_two w]
  have hwδ : w ^ 2 ≤ 10201 / 10000 / δ ^ 2 := by
    have : w ≤ 101 / 100 / δ := by
      rw [hw, div_le_div_iff₀ hπ0 hδ]; linarith
    calc w ^ 2 ≤ (101 / 100 / δ) ^ 2 := pow_le_pow_left₀ hw0.le this 2
      _ = _ := by rw [div_pow]; norm_num
  set v := lastPivotR fl a' b' c' d' with hv
  have hv2 : |π| ≤ 2 * |v| := by
    have := abs_near (x := π) (y := v) ((abs_sub_comm _ _).trans_le hpiv) le_rfl
    linarith
  have hv0 : 0 < |v| := by linarith
  have hvne : v ≠ 0 := abs_pos.1 hv0
  have hvw : 1 / |v| ≤ 2 * w := by
    rw [hw, mul_one_div, div_le_div_iff₀ hv0 hπ0]; linarith
  -- second unknown
  have hy : y = (q - c / a * p) / π := by
    rw [eq_div_iff hπne, hπ, ← e1, ← e2]; field_simp; ring
  have hy1 : |(q - c / a * p) / π| ≤ 21 / 10 * P * w := by
    rw [abs_div, div_eq_mul_one_div]
    exact mul_le_mul_of_nonneg_right hn1 hw0.le
  have hU : 0 ≤ u * P := mul_nonneg hu0 hP
  set n' := fl (q' - fl (fl (c' * fl (1 / a')) * p')) with hn'
  have q1 := div_near hnum hpiv hy1 hvw hvne hπne
  set T := u * P * w ^ 2 with hT
  have hT0 : 0 ≤ T := by positivity
  have hTw : u * P * w ≤ 21 / 10 * T := by
    have := mul_le_mul_of_nonneg_left hww hU
    rw [hT]; linarith
  have hT1 : u * P ≤ 441 / 100 * T := by
    have := mul_le_mul_of_nonneg_left hw1 hU
    linarith
  have q2 : |n' / v - y| ≤ 265 * T := by
    rw [hy]
    refine q1.trans ?_
    have : (33 * (u * P) + 21 / 10 * P * w * (30 * u)) * (2 * w) = 66 * (u * P * w) + 126 * T := by rw [hT]; ring
    rw [this]; linarith
  have hTu : u * T ≤ 1 / 1000 * T := mul_le_mul_of_nonneg_right hu hT0
  have hyB : |y| ≤ 21 / 10 * P * w := by rw [hy]; exact hy1
  have q3 : |fl (n' / v) - y| ≤ 270 * T := by
    refine (fl_near hr q2 hyB).trans ?_
    have : u * (21 / 10 * P * w + 265 * T) = 21 / 10 * (u * P * w) + 265 * (u * T) := by ring
    rw [this]; linarith
  -- first unknown
  have hPw0 : 0 ≤ P * w := mul_nonneg hP hw0.le
  have hTPw : u * (P * w) ≤ 21 / 10 * T := by linarith
  have hb'2 : |b'| ≤ 102 / 100 := (abs_near h.nb h.bb).trans (by linarith)
  have hby : |b * y| ≤ 101 / 100 * (21 / 10 * P * w) := by
    rw [abs_mul]; exact mul_le_mul h.bb hyB (abs_nonneg _) (by norm_num)
  have x1 : |b' * fl (n' / v) - b * y| ≤ 298 * T := by
    refine (mul_near h.nb q3 hb'2 hyB).trans ?_
    have : 5 * u * (21 / 10 * P * w) = 21 / 2 * (u * (P * w)) := by ring
    rw [this]; linarith
  have x2 : |fl (b' * fl (n' / v)) - b * y| ≤ 304 * T := by
    refine (fl_near hr x1 hby).trans ?_
    have : u * (101 / 100 * (21 / 10 * P * w) + 298 * T) = 2121 / 1000 * (u * (P * w)) + 298 * (u * T) := by ring
    rw [this]; linarith
  have x3 : |(p' - fl (b' * fl (n' / v))) - (p - b * y)| ≤ 331 * T := by
    refine (sub_near h.np x2).trans ?_
    linarith
  have hPPw : P ≤ 21 / 10 * (P * w) := by
    have := mul_le_mul_of_nonneg_left hw1 hP
    linarith
  have hz : |p - b * y| ≤ 43 / 10 * (P * w) := by
    refine (abs_sub _ _).trans ?_
    linarith [h.bp]
  have x4 : |fl (p' - fl (b' * fl (n' / v))) - (p - b * y)| ≤ 341 * T := by
    refine (fl_near hr x3 hz).trans ?_
    have : u * (43 / 10 * (P * w) + 331 * T) = 43 / 10 * (u * (P * w)) + 331 * (u * T) := by ring
    rw [this]; linarith
  have hx : x = (p - b * y) / a := by rw [eq_div_iff ha, ← e1]; ring
  have hxB : |(p - b * y) / a| ≤ 5 * (P * w) := by
    rw [abs_div, div_le_iff₀ (by linarith)]
    have : 5 * (P * w) * (89 / 100) ≤ 5 * (P * w) * |a| := mul_le_mul_of_nonneg_left ha2 (by linarith)
    linarith
  have hM : 1 / |a'| ≤ 10 / 9 := by
    rw [div_le_div_iff₀ (abs_pos.2 ha') (by norm_num)]; linarith [h.big]
  have x5 : |fl (p' - fl (b' * fl (n' / v))) / a' - x| ≤ 438 * T := by
    rw [hx]
    refine (div_near x4 h.na hxB hM ha' ha).trans ?_
    have : (341 * T + 5 * (P * w) * (5 * u)) * (10 / 9) = 3410 / 9 * T + 250 / 9 * (u * (P * w)) := by ring
    rw [this]; linarith
  have x6 : |fl (fl (p' - fl (b' * fl (n' / v))) / a') - x| ≤ 450 * T := by
    rw [← hx] at hxB
    refine (fl_near hr x5 hxB).trans ?_
    have : u * (5 * (P * w) + 438 * T) = 5 * (u * (P * w)) + 438 * (u * T) := by ring
    rw [this]; linarith
  have hfin : 450 * T ≤ 500 * u * P / δ ^ 2 := by
    have h1 := mul_le_mul_of_nonneg_left hwδ hU
    have h2 : 0 ≤ u * P / δ ^ 2 := by positivity
    have e3 : u * P * (10201 / 10000 / δ ^ 2) = 10201 / 10000 * (u * P / δ ^ 2) := by ring
    have e4 : 500 * u * P / δ ^ 2 = 500 * (u * P / δ ^ 2) := by ring
    rw [e4, hT]
    rw [e3] at h1
    linarith
  refine ⟨(fl (fl (p' - fl (b' * fl (n' / v))) / a'), fl (n' / v)), ?_, x6.trans hfin, (q3.trans ?_)⟩
  · unfold elimR
    rw [if_neg ha', if_neg hvne]
  · linarith

end Fibermat
