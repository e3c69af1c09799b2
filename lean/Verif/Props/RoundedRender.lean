import Verif.Model.RoundedRender
import Verif.Spec.RoundedRender
import Verif.Lemmas.RoundedAssembly
import Verif.Props.Render

/-! # C126: the fields of the picture in floating-point arithmetic -/

namespace Fibermat
open Spec
variable {K : Type} [Field K] [LinearOrder K] [IsStrictOrderedRing K] {fl : K → K} {u : K}

theorem spaced_lt {ε : K} {s : List K} (hs : Spaced ε s) {a b : ℕ} (hab : a < b) (hb : b < s.length) : s.getD a 0 < s.getD b 0 := by
  induction b with
  | zero => omega
  | succ b ih =>
    have h1 := (hs b hb).1
    rcases Nat.lt_succ_iff_lt_or_eq.1 hab with h | h
    · exact (ih h (by omega)).trans h1
    · rwa [h]

theorem spaced_le {ε : K} {s : List K} (hs : Spaced ε s) {a b : ℕ} (hab : a ≤ b) (hb : b < s.length) : s.getD a 0 ≤ s.getD b 0 := by
  rcases Nat.lt_or_eq_of_le hab with h | h
  · exact (spaced_lt hs h hb).le
  · rw [h]

/-- A quotient of rounded differences. -/
theorem ratio_err (hr : Rounds fl u) (hu : u ≤ 1 / 1000) {p q : K} (hp : 0 < p) (hpq : p ≤ q) (h1 : fl 1 = 1) :
    0 ≤ fl (fl p / fl q) ∧ fl (fl p / fl q) ≤ 1 ∧ |fl (fl p / fl q) - p / q| ≤ 4 * u := by
  have hu0 := hr.u_nonneg
  have hq : 0 < q := by linarith
  have fp := hr.pos (by linarith) hp
  have fq := hr.pos (by linarith) hq
  have fpq := hr.mono _ _ hpq
  have h2 : fl p / fl q ≤ 1 := (div_le_one fq).2 fpq
  have h3 : 0 ≤ fl p / fl q := by positivity
  refine ⟨hr.nonneg h3, h1 ▸ hr.mono _ _ h2, ?_⟩
  have e1 := hr.err (fl p / fl q)
  have e2 := hr.err p
  have e3 := hr.err q
  rw [abs_of_pos hp] at e2
  rw [abs_of_pos hq] at e3
  rw [abs_of_nonneg h3] at e1
  rw [abs_le] at e1 e2 e3
  -- the quotient before rounding
  have hr1 : p / q ≤ 1 := (div_le_one hq).2 hpq
  have hr0 : 0 < p / q := by positivity
  have up : fl p / fl q ≤ p / q * ((1 + u) / (1 - u)) := by
    rw [div_mul_div_comm, div_le_div_iff₀ fq (mul_pos hq (by linarith))]
    have a1 : fl p ≤ p * (1 + u) := by linarith
    have a2 : q * (1 - u) ≤ fl q := by linarith
    calc fl p * (q * (1 - u)) ≤ p * (1 + u) * (q * (1 - u)) := mul_le_mul_of_nonneg_right a1 (mul_nonneg hq.le (by linarith))
      _ ≤ p * (1 + u) * fl q := mul_le_mul_of_nonneg_left a2 (mul_nonneg hp.le (by linarith))
  have lo : p / q * ((1 - u) / (1 + u)) ≤ fl p / fl q := by
    rw [div_mul_div_comm, div_le_div_iff₀ (mul_pos hq (by linarith)) fq]
    have a1 : p * (1 - u) ≤ fl p := by linarith
    have a2 : fl q ≤ q * (1 + u) := by linarith
    calc p * (1 - u) * fl q ≤ p * (1 - u) * (q * (1 + u)) := mul_le_mul_of_nonneg_left a2 (mul_nonneg hp.le (by linarith))
      _ ≤ fl p * (q * (1 + u)) := mul_le_mul_of_nonneg_right a1 (mul_nonneg hq.le (by linarith))
  have b1 : (1 + u) / (1 - u) ≤ 1 + 3 * u := by
    rw [div_le_iff₀ (by linarith)]
    nlinarith
  have b2 : 1 - 2 * u ≤ (1 - u) / (1 + u) := by
    rw [le_div_iff₀ (by linarith)]
    nlinarith
  have up' : fl p / fl q ≤ p / q + 3 * u := by
    have := mul_le_mul_of_nonneg_left b1 hr0.le
    have := mul_le_mul_of_nonneg_right hr1 hu0
    linarith
  have lo' : p / q - 2 * u ≤ fl p / fl q := by
    have := mul_le_mul_of_nonneg_left b2 hr0.le
    have := mul_le_mul_of_nonneg_right hr1 hu0
    linarith
  have : u * (fl p / fl q) ≤ u * 1 := mul_le_mul_of_nonneg_left h2 hu0
  rw [abs_le]
  constructor <;> linarith

/-- C126: the node coordinate of a point lies between the labels of the two nodes around it, close to its exact value. -/
theorem C126_locate (hr : Rounds fl u) (hu : u ≤ 1 / 1000) {ε : K} (hε : 0 ≤ ε) {s : List K} (hs : Spaced ε s) {first N : ℕ}
    (hN : ∀ n : ℕ, n ≤ N → fl n = n) (hfirst : first + s.length ≤ N) (h1N : 1 ≤ N) {x : K} {k : ℕ} (hk : NearlyNearest ε s x k)
    (h0 : s.getD 0 0 < x) (h1 : x ≤ s.getD (s.length - 1) 0) :
    ∃ (j : ℕ) (r t : K), j + 1 < s.length ∧ s.getD j 0 < x ∧ x ≤ s.getD (j + 1) 0 ∧
      r = (x - s.getD j 0) / (s.getD (j + 1) 0 - s.getD j 0) ∧ nodeCoordR fl s first x k = .ok (.fin t) ∧
      ((first + j : ℕ) : K) ≤ t ∧ t ≤ ((first + j : ℕ) : K) + 1 ∧ |t - (((first + j : ℕ) : K) + r)| ≤ (N + 5) * u := by
  obtain ⟨hkl, hnear⟩ := hk
  have hu0 := hr.u_nonneg
  have f1 : fl 1 = 1 := by simpa using hN 1 h1N
  have heval : ∀ j, j + 1 < s.length → correctIndex x (s.getD k 0) k = (j : ℤ) → s.getD j 0 < x → x ≤ s.getD (j + 1) 0 →
      ∃ (j : ℕ) (r t : K), j + 1 < s.length ∧ s.getD j 0 < x ∧ x ≤ s.getD (j + 1) 0 ∧
      r = (x - s.getD j 0) / (s.getD (j + 1) 0 - s.getD j 0) ∧ nodeCoordR fl s first x k = .ok (.fin t) ∧
      ((first + j : ℕ) : K) ≤ t ∧ t ≤ ((first + j : ℕ) : K) + 1 ∧ |t - (((first + j : ℕ) : K) + r)| ≤ (N + 5) * u := by
    intro j hj hc hx0 hx1
    have hd : fl (s.getD (j + 1) 0 - s.getD j 0) ≠ 0 := (hr.pos (by linarith) (sub_pos.2 (hs j hj).1)).ne'
    have gk : s[k] = s.getD k 0 := by simp [List.getD_eq_getElem?_getD, hkl]
    have gj : s[j] = s.getD j 0 := by simp [List.getD_eq_getElem?_getD, (by omega : j < s.length)]
    have gj1 : s[j + 1] = s.getD (j + 1) 0 := by simp [List.getD_eq_getElem?_getD, hj]
    obtain ⟨q0, q1, q2⟩ := ratio_err hr hu (p := x - s.getD j 0) (q := s.getD (j + 1) 0 - s.getD j 0) (by linarith) (by linarith) f1
    generalize hq : fl (fl (x - s.getD j 0) / fl (s.getD (j + 1) 0 - s.getD j 0)) = q at *
    have hdiv : ((Cell.fin (fl (x - s.getD j 0)) / Cell.fin (fl (s.getD (j + 1) 0 - s.getD j 0)) : Cell K)).round fl = .fin q := by
      rw [show (Cell.fin (fl (x - s.getD j 0)) / Cell.fin (fl (s.getD (j + 1) 0 - s.getD j 0)) : Cell K) =
        .fin (fl (x - s.getD j 0) / fl (s.getD (j + 1) 0 - s.getD j 0)) from by
          show Cell.div _ _ = _
          simp only [Cell.div, hd, if_false], Cell.round_fin, hq]
    refine ⟨j, _, fl (q + ((first + j : ℕ) : K)), hj, hx0, hx1, rfl, ?_, ?_, ?_, ?_⟩
    · unfold nodeCoordR
      rw [pyGet_nat s hkl]
      simp only [Bind.bind, Except.bind, gk]
      rw [hc, pyGet_nat s (by omega : j < s.length)]
      simp only
      rw [show ((j : ℤ) + 1) = ((j + 1 : ℕ) : ℤ) by push_cast; ring, pyGet_nat s hj]
      simp only [gj, gj1, hdiv]
      rw [pyGet_nat _ (by simpa using (by omega : j < s.length))]
      simp only [List.getElem_map, List.getElem_range, pure, Except.pure, Except.ok.injEq]
      rw [if_neg (by simp)]
      rfl
    · have := hr.mono ((first + j : ℕ) : K) (q + ((first + j : ℕ) : K)) (by linarith)
      rwa [hN (first + j) (by omega)] at this
    · have e0 : ((first + j + 1 : ℕ) : K) = ((first + j : ℕ) : K) + 1 := Nat.cast_succ _
      have := hr.mono (q + ((first + j : ℕ) : K)) ((first + j + 1 : ℕ) : K) (by rw [e0]; linarith)
      rwa [hN _ (by omega), e0] at this
    · have e1 := hr.err (q + ((first + j : ℕ) : K))
      have c0 : (0 : K) ≤ ((first + j : ℕ) : K) := Nat.cast_nonneg _
      have c1 : ((first + j : ℕ) : K) + 1 ≤ N := by
        have e0 : ((first + j + 1 : ℕ) : K) = ((first + j : ℕ) : K) + 1 := Nat.cast_succ _
        rw [← e0]
        exact Nat.cast_le.2 (by omega)
      rw [abs_of_nonneg (show 0 ≤ q + ((first + j : ℕ) : K) by linarith)] at e1
      have : u * (q + ((first + j : ℕ) : K)) ≤ u * N := mul_le_mul_of_nonneg_left (by linarith) hu0
      rw [abs_le] at e1 q2 ⊢
      constructor <;> linarith
  have hfar : ∀ c : K, c ≤ s.getD (s.length - 1) 0 - s.getD 0 0 → ∀ j, j + 1 < s.length → ε * c < s.getD (j + 1) 0 - s.getD j 0 := fun c hc j hj =>
    lt_of_le_of_lt (mul_le_mul_of_nonneg_left hc hε) (hs j hj).2
  by_cases hx : s.getD k 0 < x
  · have hk1 : k + 1 < s.length := by
      by_contra hcon
      have : k = s.length - 1 := by omega
      rw [← this] at h1
      exact absurd hx (not_lt.2 h1)
    have hx1 : x ≤ s.getD (k + 1) 0 := by
      by_contra hcon
      have hcon := not_le.1 hcon
      have h2 := hnear (k + 1) hk1
      have h3 := (hs k hk1).1
      rw [abs_of_nonpos (by linarith), abs_of_nonpos (by linarith)] at h2
      have h4 := hfar (x - s.getD (k + 1) 0) (by linarith [spaced_le hs (Nat.zero_le (k + 1)) hk1]) k hk1
      linarith
    exact heval k hk1 (by simp only [correctIndex]; rw [if_pos hx]) hx hx1
  · have hx' := not_lt.1 hx
    have hk0 : 0 < k := by
      rcases Nat.eq_zero_or_pos k with rfl | h
      · exact absurd h0 hx
      · exact h
    obtain ⟨j, rfl⟩ : ∃ j, k = j + 1 := ⟨k - 1, by omega⟩
    have hxj : s.getD j 0 < x := by
      by_contra hcon
      have hcon := not_lt.1 hcon
      have h2 := hnear j (by omega)
      have h3 := (hs j hkl).1
      rw [abs_of_nonneg (by linarith), abs_of_nonneg (by linarith)] at h2
      have h4 := hfar (s.getD j 0 - x) (by linarith [spaced_le hs (show j ≤ s.length - 1 by omega) (by omega)]) j hkl
      linarith
    exact heval j hkl (by simp only [correctIndex]; rw [if_neg hx]; push_cast; ring) hxj hx'

/-- A rounded number close to another one, the distances being counted in `u B`. -/
theorem pic_fl_near (hr : Rounds fl u) (hu : u ≤ 1 / 1000) {B : K} (hB : 0 ≤ B) {a' a e A g : K} (h : |a' - a| ≤ e * (u * B)) (hA : |a| ≤ A * B)
    (he : 0 ≤ e) (hg : e + A + e / 1000 ≤ g) : |fl a' - a| ≤ g * (u * B) := by
  have hu0 := hr.u_nonneg
  have hw : 0 ≤ u * B := mul_nonneg hu0 hB
  have h1 := hr.err a'
  have h2 : |a'| ≤ A * B + e * (u * B) := by
    have := abs_sub_abs_le_abs_sub a' a
    linarith
  have h3 := mul_le_mul_of_nonneg_left h2 hu0
  have h4 : |fl a' - a| ≤ |fl a' - a'| + |a' - a| := abs_sub_le _ _ _
  have h5 : u * (e * (u * B)) ≤ 1 / 1000 * (e * (u * B)) := mul_le_mul_of_nonneg_right hu (mul_nonneg he hw)
  have h6 := mul_le_mul_of_nonneg_right hg hw
  linarith

theorem pic_mul_near {a' a b' b e f A : K} (ha : |a' - a| ≤ e) (hb : |b' - b| ≤ f) (hA : |a| ≤ A) (hb' : |b'| ≤ 1) :
    |a' * b' - a * b| ≤ e + A * f := by
  have h : a' * b' - a * b = (a' - a) * b' + a * (b' - b) := by ring
  rw [h]
  refine (abs_add_le _ _).trans (add_le_add ?_ ?_)
  · rw [abs_mul]
    exact (mul_le_of_le_one_right (abs_nonneg _) hb').trans ha
  · rw [abs_mul]
    exact mul_le_mul hA hb (abs_nonneg _) ((abs_nonneg _).trans hA)

theorem pic_add_near {a' a b' b e f w : K} (ha : |a' - a| ≤ e * w) (hb : |b' - b| ≤ f * w) : |(a' + b') - (a + b)| ≤ (e + f) * w := by
  rw [show a' + b' - (a + b) = (a' - a) + (b' - b) by ring, add_mul]
  exact (abs_add_le _ _).trans (add_le_add ha hb)

theorem pic_sub_near {a' a b' b e f w : K} (ha : |a' - a| ≤ e * w) (hb : |b' - b| ≤ f * w) : |(a' - b') - (a - b)| ≤ (e + f) * w := by
  rw [show a' - b' - (a - b) = (a' - a) - (b' - b) by ring, add_mul]
  exact (abs_sub _ _).trans (add_le_add ha hb)

theorem pic_scale_near {a' a e w c : K} (hc : 0 ≤ c) (ha : |a' - a| ≤ e * w) : |c * a' - c * a| ≤ (c * e) * w := by
  rw [← mul_sub, abs_mul, abs_of_nonneg hc, mul_assoc]
  exact mul_le_mul_of_nonneg_left ha hc

theorem pic_self_near (a w : K) : |a - a| ≤ 0 * w := by simp

/-- The coefficients of the spline. -/
theorem pic_coeffs_near (hr : Rounds fl u) (hu : u ≤ 1 / 1000) {y0 y1 d0 d1 B : K} (h1 : |y0| ≤ B) (h2 : |y1| ≤ B) (h3 : |d0| ≤ B) (h4 : |d1| ≤ B) :
    |(hermiteCoeffsR fl y0 y1 d0 d1).1 - (d0 + d1 - 2 * (y1 - y0))| ≤ 17 * (u * B) ∧
    |(hermiteCoeffsR fl y0 y1 d0 d1).2.1 - (3 * (y1 - y0) - 2 * d0 - d1)| ≤ 32 * (u * B) ∧
    |d0 + d1 - 2 * (y1 - y0)| ≤ 6 * B ∧ |3 * (y1 - y0) - 2 * d0 - d1| ≤ 9 * B := by
  have hB : 0 ≤ B := (abs_nonneg _).trans h1
  have a1 := abs_le.1 h1
  have a2 := abs_le.1 h2
  have a3 := abs_le.1 h3
  have a4 := abs_le.1 h4
  have b1 : |y1 - y0| ≤ 2 * B := abs_le.2 ⟨by linarith, by linarith⟩
  have b2 : |d0 + d1| ≤ 2 * B := abs_le.2 ⟨by linarith, by linarith⟩
  have b3 : |2 * (y1 - y0)| ≤ 4 * B := abs_le.2 ⟨by linarith, by linarith⟩
  have b4 : |d0 + d1 - 2 * (y1 - y0)| ≤ 6 * B := abs_le.2 ⟨by linarith, by linarith⟩
  have b5 : |y1 - y0 - d0| ≤ 3 * B := abs_le.2 ⟨by linarith, by linarith⟩
  have b6 : |3 * (y1 - y0) - 2 * d0 - d1| ≤ 9 * B := abs_le.2 ⟨by linarith, by linarith⟩
  have s1 : |fl (y1 - y0) - (y1 - y0)| ≤ 2 * (u * B) := pic_fl_near hr hu hB (pic_self_near _ _) b1 (by norm_num) (by norm_num)
  have s2 : |fl (d0 + d1) - (d0 + d1)| ≤ 2 * (u * B) := pic_fl_near hr hu hB (pic_self_near _ _) b2 (by norm_num) (by norm_num)
  have s4 : |fl (2 * fl (y1 - y0)) - 2 * (y1 - y0)| ≤ (8 + 1 / 100) * (u * B) :=
    pic_fl_near hr hu hB (pic_scale_near zero_le_two s1) b3 (by norm_num) (by norm_num)
  have s5 : |fl (fl (d0 + d1) - fl (2 * fl (y1 - y0))) - (d0 + d1 - 2 * (y1 - y0))| ≤ 17 * (u * B) :=
    pic_fl_near hr hu hB (pic_sub_near s2 s4) b4 (by norm_num) (by norm_num)
  have s6 : |fl (fl (y1 - y0) - d0) - (y1 - y0 - d0)| ≤ (5 + 1 / 100) * (u * B) :=
    pic_fl_near hr hu hB (pic_sub_near s1 (pic_self_near d0 _)) b5 (by norm_num) (by norm_num)
  have s7 := pic_sub_near s6 s5
  rw [show y1 - y0 - d0 - (d0 + d1 - 2 * (y1 - y0)) = 3 * (y1 - y0) - 2 * d0 - d1 by ring] at s7
  exact ⟨s5, pic_fl_near hr hu hB s7 b6 (by norm_num) (by norm_num), b4, b6⟩

theorem abs_le_one {r : K} (h0 : 0 ≤ r) (h1 : r ≤ 1) : |r| ≤ 1 := by rwa [abs_of_nonneg h0]

/-- Rounded powers of a number between 0 and 1. -/
theorem pic_powers_near (hr : Rounds fl u) (f1 : fl 1 = 1) {r : K} (h0 : 0 ≤ r) (h1 : r ≤ 1) :
    (|fl (r * r) - r * r| ≤ u ∧ |fl (r * r)| ≤ 1) ∧ |fl (fl (r * r) * r) - r * r * r| ≤ 2 * u ∧ |fl (fl (r * r) * r)| ≤ 1 := by
  have hu0 := hr.u_nonneg
  have z0 : 0 ≤ r * r := mul_nonneg h0 h0
  have z1 : r * r ≤ 1 := mul_le_one₀ h1 h0 h1
  have f0 : 0 ≤ fl (r * r) := hr.nonneg z0
  have f2 : fl (r * r) ≤ 1 := f1 ▸ hr.mono _ _ z1
  have g0 : 0 ≤ fl (r * r) * r := mul_nonneg f0 h0
  have g1 : fl (r * r) * r ≤ 1 := mul_le_one₀ f2 h0 h1
  have e1 := hr.err (r * r)
  have e2 := hr.err (fl (r * r) * r)
  rw [abs_of_nonneg z0] at e1
  rw [abs_of_nonneg g0] at e2
  have i1 := mul_le_of_le_one_right hu0 z1
  have i2 := mul_le_of_le_one_right hu0 g1
  refine ⟨⟨e1.trans i1, abs_le_one f0 f2⟩, ?_, abs_le_one (hr.nonneg g0) (f1 ▸ hr.mono _ _ g1)⟩
  have e3 : |fl (r * r) * r - r * r * r| ≤ u := by
    rw [← sub_mul, abs_mul, abs_of_nonneg h0]
    exact (mul_le_of_le_one_right (abs_nonneg _) h1).trans (e1.trans i1)
  have := abs_sub_le (fl (fl (r * r) * r)) (fl (r * r) * r) (r * r * r)
  linarith

/-- The value of the spline and of its derivative at the distance `r` of the knot. -/
theorem pic_poly_near (hr : Rounds fl u) (hu : u ≤ 1 / 1000) (f1 : fl 1 = 1) {y0 y1 d0 d1 B : K} (h1 : |y0| ≤ B) (h2 : |y1| ≤ B) (h3 : |d0| ≤ B)
    (h4 : |d1| ≤ B) {r : K} (r0 : 0 ≤ r) (r1 : r ≤ 1) :
    |polyR fl (hermiteCoeffsR fl y0 y1 d0 d1) r -
      ((d0 + d1 - 2 * (y1 - y0)) * (r * r * r) + (3 * (y1 - y0) - 2 * d0 - d1) * (r * r) + d0 * r + y0)| ≤ 120 * (u * B) ∧
    |polyDerivR fl (hermiteCoeffsR fl y0 y1 d0 d1) r -
      (3 * (d0 + d1 - 2 * (y1 - y0)) * (r * r) + 2 * (3 * (y1 - y0) - 2 * d0 - d1) * r + d0)| ≤ 270 * (u * B) := by
  have hB : 0 ≤ B := (abs_nonneg _).trans h1
  have hu0 := hr.u_nonneg
  obtain ⟨c0, c1, b0, b1⟩ := pic_coeffs_near hr hu h1 h2 h3 h4
  obtain ⟨⟨p1, p2⟩, p3, p4⟩ := pic_powers_near hr f1 r0 r1
  have e2 : (hermiteCoeffsR fl y0 y1 d0 d1).2.2.1 = d0 := rfl
  have e3 : (hermiteCoeffsR fl y0 y1 d0 d1).2.2.2 = y0 := rfl
  unfold polyR polyDerivR
  simp only [e2, e3]
  generalize (hermiteCoeffsR fl y0 y1 d0 d1).1 = C0 at *
  generalize (hermiteCoeffsR fl y0 y1 d0 d1).2.1 = C1 at *
  generalize d0 + d1 - 2 * (y1 - y0) = c at *
  generalize 3 * (y1 - y0) - 2 * d0 - d1 = b at *
  have hrr : |r| ≤ 1 := abs_le_one r0 r1
  have hz : |r * r| ≤ 1 := abs_le_one (mul_nonneg r0 r0) (mul_le_one₀ r1 r0 r1)
  have hz3 : |r * r * r| ≤ 1 := by rw [abs_mul]; exact mul_le_one₀ hz (abs_nonneg _) hrr
  have small : ∀ {a A t : K}, |a| ≤ A → |t| ≤ 1 → |a * t| ≤ A := by
    intro a A t ha ht
    rw [abs_mul]
    exact (mul_le_of_le_one_right (abs_nonneg _) ht).trans ha
  constructor
  · have m1 : |d0 * r| ≤ 1 * B := by rw [one_mul]; exact small h3 hrr
    have t1 : |fl (d0 * r) - d0 * r| ≤ 1 * (u * B) := pic_fl_near hr hu hB (pic_self_near _ _) m1 (by norm_num) (by norm_num)
    have m2 : |y0 + d0 * r| ≤ 2 * B := (abs_add_le _ _).trans (by linarith)
    have t2 : |fl (y0 + fl (d0 * r)) - (y0 + d0 * r)| ≤ (3 + 1 / 100) * (u * B) :=
      pic_fl_near hr hu hB (pic_add_near (pic_self_near y0 _) t1) m2 (by norm_num) (by norm_num)
    have m3 : |b * (r * r)| ≤ 9 * B := small b1 hz
    have t3 : |C1 * fl (r * r) - b * (r * r)| ≤ 41 * (u * B) := (pic_mul_near c1 p1 b1 p2).trans (by linarith)
    have t4 : |fl (C1 * fl (r * r)) - b * (r * r)| ≤ (50 + 1 / 10) * (u * B) := pic_fl_near hr hu hB t3 m3 (by norm_num) (by norm_num)
    have m5 : |y0 + d0 * r + b * (r * r)| ≤ 11 * B := (abs_add_le _ _).trans (by linarith)
    have t5 : |fl (fl (y0 + fl (d0 * r)) + fl (C1 * fl (r * r))) - (y0 + d0 * r + b * (r * r))| ≤ (64 + 1 / 2) * (u * B) :=
      pic_fl_near hr hu hB (pic_add_near t2 t4) m5 (by norm_num) (by norm_num)
    have m6 : |c * (r * r * r)| ≤ 6 * B := small b0 hz3
    have t6 : |C0 * fl (fl (r * r) * r) - c * (r * r * r)| ≤ 29 * (u * B) := (pic_mul_near c0 p3 b0 p4).trans (by linarith)
    have t7 : |fl (C0 * fl (fl (r * r) * r)) - c * (r * r * r)| ≤ (35 + 1 / 10) * (u * B) := pic_fl_near hr hu hB t6 m6 (by norm_num) (by norm_num)
    have m8 : |y0 + d0 * r + b * (r * r) + c * (r * r * r)| ≤ 17 * B := (abs_add_le _ _).trans (by linarith)
    have t8 := pic_fl_near (g := 120) hr hu hB (pic_add_near t5 t7) m8 (by norm_num) (by norm_num)
    rw [show c * (r * r * r) + b * (r * r) + d0 * r + y0 = y0 + d0 * r + b * (r * r) + c * (r * r * r) by ring]
    exact t8
  · have n1 : |2 * b| ≤ 18 * B := by rw [abs_mul, abs_two]; linarith
    have n0 : |3 * c| ≤ 18 * B := by rw [abs_mul, abs_of_pos (by norm_num : (0 : K) < 3)]; linarith
    have s1 : |fl (2 * C1) - 2 * b| ≤ 83 * (u * B) := pic_fl_near hr hu hB (pic_scale_near zero_le_two c1) n1 (by norm_num) (by norm_num)
    have s0 : |fl (3 * C0) - 3 * c| ≤ 70 * (u * B) := pic_fl_near hr hu hB (pic_scale_near (by norm_num) c0) n0 (by norm_num) (by norm_num)
    have t1 : |fl (2 * C1) * r - 2 * b * r| ≤ 83 * (u * B) := by
      have := pic_mul_near s1 (show |r - r| ≤ 0 by simp) n1 hrr
      linarith
    have t2 : |fl (fl (2 * C1) * r) - 2 * b * r| ≤ (101 + 1 / 10) * (u * B) := pic_fl_near hr hu hB t1 (small n1 hrr) (by norm_num) (by norm_num)
    have m3 : |d0 + 2 * b * r| ≤ 19 * B := (abs_add_le _ _).trans (by linarith [small n1 hrr])
    have t3 : |fl (d0 + fl (fl (2 * C1) * r)) - (d0 + 2 * b * r)| ≤ (120 + 1 / 2) * (u * B) :=
      pic_fl_near hr hu hB (pic_add_near (pic_self_near d0 _) t2) m3 (by norm_num) (by norm_num)
    have t4 : |fl (3 * C0) * fl (r * r) - 3 * c * (r * r)| ≤ 88 * (u * B) := (pic_mul_near s0 p1 n0 p2).trans (by linarith)
    have t5 : |fl (fl (3 * C0) * fl (r * r)) - 3 * c * (r * r)| ≤ (106 + 1 / 2) * (u * B) :=
      pic_fl_near hr hu hB t4 (small n0 hz) (by norm_num) (by norm_num)
    have m6 : |d0 + 2 * b * r + 3 * c * (r * r)| ≤ 37 * B := (abs_add_le _ _).trans (by linarith [small n0 hz])
    have t6 := pic_fl_near (g := 270) hr hu hB (pic_add_near t3 t5) m6 (by norm_num) (by norm_num)
    rw [show 3 * c * (r * r) + 2 * b * r + d0 = d0 + 2 * b * r + 3 * c * (r * r) by ring]
    exact t6

/-- Cubics at two close places. -/
theorem cubic_lipschitz {y0 y1 d0 d1 B : K} (h1 : |y0| ≤ B) (h2 : |y1| ≤ B) (h3 : |d0| ≤ B) (h4 : |d1| ≤ B) {r q : K} (r0 : 0 ≤ r) (r1 : r ≤ 1)
    (q0 : 0 ≤ q) (q1 : q ≤ 1) :
    |cubic y0 y1 d0 d1 q - cubic y0 y1 d0 d1 r| ≤ 37 * B * |q - r| ∧
    |cubicSlope y0 y1 d0 d1 q - cubicSlope y0 y1 d0 d1 r| ≤ 54 * B * |q - r| := by
  have a1 := abs_le.1 h1
  have a2 := abs_le.1 h2
  have a3 := abs_le.1 h3
  have a4 := abs_le.1 h4
  have b0 : |d0 + d1 - 2 * (y1 - y0)| ≤ 6 * B := abs_le.2 ⟨by linarith, by linarith⟩
  have b1 : |3 * (y1 - y0) - 2 * d0 - d1| ≤ 9 * B := abs_le.2 ⟨by linarith, by linarith⟩
  have hB : 0 ≤ B := (abs_nonneg _).trans h1
  have w : ∀ {c A t T : K}, |c| ≤ A → 0 ≤ t → t ≤ T → 0 ≤ A → |c * t| ≤ A * T := by
    intro c A t T hc h0 hT hA
    rw [abs_mul, abs_of_nonneg h0]
    exact mul_le_mul hc hT h0 hA
  have qq : q * q ≤ 1 := mul_le_one₀ q1 q0 q1
  have qr : q * r ≤ 1 := mul_le_one₀ q1 r0 r1
  have rr : r * r ≤ 1 := mul_le_one₀ r1 r0 r1
  constructor
  · have e : cubic y0 y1 d0 d1 q - cubic y0 y1 d0 d1 r =
        ((d0 + d1 - 2 * (y1 - y0)) * (q * q + q * r + r * r) + (3 * (y1 - y0) - 2 * d0 - d1) * (q + r) + d0) * (q - r) := by
      unfold cubic
      ring
    rw [e, abs_mul]
    refine mul_le_mul_of_nonneg_right ?_ (abs_nonneg _)
    have t1 := w b0 (t := q * q + q * r + r * r) (T := 3) (by positivity) (by linarith) (by linarith)
    have t2 := w b1 (t := q + r) (T := 2) (by positivity) (by linarith) (by linarith)
    refine (abs_add_le _ _).trans ?_
    have := abs_add_le ((d0 + d1 - 2 * (y1 - y0)) * (q * q + q * r + r * r)) ((3 * (y1 - y0) - 2 * d0 - d1) * (q + r))
    linarith
  · have e : cubicSlope y0 y1 d0 d1 q - cubicSlope y0 y1 d0 d1 r =
        ((d0 + d1 - 2 * (y1 - y0)) * (3 * (q + r)) + (3 * (y1 - y0) - 2 * d0 - d1) * 2) * (q - r) := by
      unfold cubicSlope
      ring
    rw [e, abs_mul]
    refine mul_le_mul_of_nonneg_right ?_ (abs_nonneg _)
    have t1 := w b0 (t := 3 * (q + r)) (T := 6) (by positivity) (by linarith) (by linarith)
    have t2 := w b1 (t := 2) (T := 2) (by positivity) (by linarith) (by linarith)
    refine (abs_add_le _ _).trans ?_
    linarith

/-- C126: between two nodes, the values and slopes shown are those of the cubic of these two nodes, up to rounding. -/
theorem C126_field (hr : Rounds fl u) (hu : u ≤ 1 / 1000) (f1 : fl 1 = 1) {y d : List K} {B : K} (hy : ∀ i, i < y.length → |y.getD i 0| ≤ B)
    (hd : ∀ i, i < y.length → |d.getD i 0| ≤ B) {j : ℕ} (hj : j + 1 < y.length) {r t E : K} (r0 : 0 ≤ r) (r1 : r ≤ 1) (t0 : (j : K) ≤ t)
    (t1 : t ≤ (j : K) + 1) (ht : |t - (j + r)| ≤ E * u) :
    |hermiteR fl y d t - cubic (y.getD j 0) (y.getD (j + 1) 0) (d.getD j 0) (d.getD (j + 1) 0) r| ≤ (37 * E + 157) * (u * B) ∧
    |hermiteDerivR fl y d t - cubicSlope (y.getD j 0) (y.getD (j + 1) 0) (d.getD j 0) (d.getD (j + 1) 0) r| ≤ (54 * E + 324) * (u * B) := by
  have hu0 := hr.u_nonneg
  have hB : 0 ≤ B := (abs_nonneg _).trans (hy j (by omega))
  have hw : 0 ≤ u * B := mul_nonneg hu0 hB
  have pc : ∀ y0 y1 d0 d1 q : K, (d0 + d1 - 2 * (y1 - y0)) * (q * q * q) + (3 * (y1 - y0) - 2 * d0 - d1) * (q * q) + d0 * q + y0 = cubic y0 y1 d0 d1 q := by
    intros
    unfold cubic
    ring
  have ps : ∀ y0 y1 d0 d1 q : K, 3 * (d0 + d1 - 2 * (y1 - y0)) * (q * q) + 2 * (3 * (y1 - y0) - 2 * d0 - d1) * q + d0 = cubicSlope y0 y1 d0 d1 q := by
    intros
    unfold cubicSlope
    ring
  have p0 : 0 ≤ t - j := by linarith
  have p1 : t - j ≤ 1 := by linarith
  -- the case of the interval `j`
  have main : interval y.length t = j →
      |hermiteR fl y d t - cubic (y.getD j 0) (y.getD (j + 1) 0) (d.getD j 0) (d.getD (j + 1) 0) r| ≤ (37 * E + 157) * (u * B) ∧
      |hermiteDerivR fl y d t - cubicSlope (y.getD j 0) (y.getD (j + 1) 0) (d.getD j 0) (d.getD (j + 1) 0) r| ≤ (54 * E + 324) * (u * B) := by
    intro hi
    have g0 : 0 ≤ fl (t - j) := hr.nonneg p0
    have g1 : fl (t - j) ≤ 1 := f1 ▸ hr.mono _ _ p1
    have e1 := hr.err (t - j)
    rw [abs_of_nonneg p0] at e1
    have e2 := mul_le_of_le_one_right hu0 p1
    have e3 : |fl (t - j) - r| ≤ (E + 1) * u := by
      have := abs_sub_le (fl (t - j)) (t - j) r
      rw [show t - j - r = t - (j + r) by ring] at this
      linarith
    obtain ⟨m1, m2⟩ := pic_poly_near hr hu f1 (hy j (by omega)) (hy (j + 1) hj) (hd j (by omega)) (hd (j + 1) hj) g0 g1
    obtain ⟨l1, l2⟩ := cubic_lipschitz (hy j (by omega)) (hy (j + 1) hj) (hd j (by omega)) (hd (j + 1) hj) r0 r1 g0 g1
    rw [pc] at m1
    rw [ps] at m2
    unfold hermiteR hermiteDerivR
    simp only [hi]
    have i1 := mul_le_mul_of_nonneg_left e3 (show 0 ≤ 37 * B by linarith)
    have i2 := mul_le_mul_of_nonneg_left e3 (show 0 ≤ 54 * B by linarith)
    constructor
    · refine (abs_sub_le _ _ _).trans ((add_le_add m1 (l1.trans i1)).trans (le_of_eq ?_))
      ring
    · refine (abs_sub_le _ _ _).trans ((add_le_add m2 (l2.trans i2)).trans (le_of_eq ?_))
      ring
  rcases lt_or_eq_of_le t1 with hlt | rfl
  · exact main (interval_of hj t0 hlt)
  · by_cases hl : j + 2 < y.length
    · have hi := interval_of (j := j + 1) hl (t := (j : K) + 1) (by push_cast; exact le_rfl) (by push_cast; linarith)
      obtain ⟨m1, m2⟩ := pic_poly_near hr hu f1 (hy (j + 1) (by omega)) (hy (j + 2) hl) (hd (j + 1) (by omega)) (hd (j + 2) hl) (le_refl 0) zero_le_one
      obtain ⟨l1, l2⟩ := cubic_lipschitz (hy j (by omega)) (hy (j + 1) hj) (hd j (by omega)) (hd (j + 1) hj) r0 r1 zero_le_one le_rfl
      rw [pc] at m1
      rw [ps] at m2
      have c1 : cubic (y.getD (j + 1) 0) (y.getD (j + 2) 0) (d.getD (j + 1) 0) (d.getD (j + 2) 0) 0 =
          cubic (y.getD j 0) (y.getD (j + 1) 0) (d.getD j 0) (d.getD (j + 1) 0) 1 := by
        unfold cubic
        ring
      have c2 : cubicSlope (y.getD (j + 1) 0) (y.getD (j + 2) 0) (d.getD (j + 1) 0) (d.getD (j + 2) 0) 0 =
          cubicSlope (y.getD j 0) (y.getD (j + 1) 0) (d.getD j 0) (d.getD (j + 1) 0) 1 := by
        unfold cubicSlope
        ring
      rw [c1] at m1
      rw [c2] at m2
      rw [show (j : K) + 1 - (j + r) = 1 - r by ring] at ht
      have i1 := mul_le_mul_of_nonneg_left ht (show 0 ≤ 37 * B by linarith)
      have i2 := mul_le_mul_of_nonneg_left ht (show 0 ≤ 54 * B by linarith)
      unfold hermiteR hermiteDerivR
      simp only [hi]
      rw [show (j : K) + 1 - ((j + 1 : ℕ) : K) = 0 by push_cast; ring, hr.zero]
      constructor
      · refine (abs_sub_le _ _ _).trans ((add_le_add m1 (l1.trans i1)).trans ?_)
        linarith
      · refine (abs_sub_le _ _ _).trans ((add_le_add m2 (l2.trans i2)).trans ?_)
        linarith
    · refine main ?_
      have hm : y.length = j + 2 := by omega
      have := interval_last (K := K) (m := j + 2) (by omega)
      simp only [Nat.add_sub_cancel, show j + 2 - 1 = j + 1 by omega] at this
      push_cast at this
      rw [hm, this]

/-- C126: the values and slopes shown at a point of a fiber are those of the cubic of the two nodes of the fiber around it, up to rounding. -/
theorem C126_picture (hr : Rounds fl u) (hu : u ≤ 1 / 1000) {ε : K} (hε : 0 ≤ ε) {s : List K} (hs : Spaced ε s) {first N : ℕ}
    (hN : ∀ n : ℕ, n ≤ N → fl n = n) {y d : List K} (hfit : first + s.length ≤ y.length) (hyN : y.length ≤ N) {B : K}
    (hy : ∀ i, i < y.length → |y.getD i 0| ≤ B) (hd : ∀ i, i < y.length → |d.getD i 0| ≤ B) {x : K} {k : ℕ} (hk : NearlyNearest ε s x k)
    (h0 : s.getD 0 0 < x) (h1 : x ≤ s.getD (s.length - 1) 0) :
    ∃ (j : ℕ) (r t : K), j + 1 < s.length ∧ s.getD j 0 < x ∧ x ≤ s.getD (j + 1) 0 ∧
      r = (x - s.getD j 0) / (s.getD (j + 1) 0 - s.getD j 0) ∧ nodeCoordR fl s first x k = .ok (.fin t) ∧
      |hermiteR fl y d t - cubic (y.getD (first + j) 0) (y.getD (first + j + 1) 0) (d.getD (first + j) 0) (d.getD (first + j + 1) 0) r| ≤
        37 * (N + 10) * (u * B) ∧
      |hermiteDerivR fl y d t - cubicSlope (y.getD (first + j) 0) (y.getD (first + j + 1) 0) (d.getD (first + j) 0) (d.getD (first + j + 1) 0) r| ≤
        54 * (N + 11) * (u * B) := by
  have hlen : 0 < s.length := lt_of_le_of_lt (Nat.zero_le _) hk.1
  obtain ⟨j, r, t, hj, a1, a2, hrr, hc, t0, t1, ht⟩ := C126_locate (first := first) hr hu hε hs hN (by omega) (by omega) hk h0 h1
  have hd' : 0 < s.getD (j + 1) 0 - s.getD j 0 := by linarith
  have r0 : 0 ≤ r := by rw [hrr]; exact div_nonneg (by linarith) hd'.le
  have r1 : r ≤ 1 := by rw [hrr]; exact (div_le_one hd').2 (by linarith)
  have f1 : fl 1 = 1 := by simpa using hN 1 (by omega)
  obtain ⟨b1, b2⟩ := C126_field hr hu f1 hy hd (j := first + j) (by omega) r0 r1 t0 t1 ht
  have hB : 0 ≤ B := (abs_nonneg _).trans (hy 0 (by omega))
  have hw : 0 ≤ u * B := mul_nonneg hr.u_nonneg hB
  refine ⟨j, r, t, hj, a1, a2, hrr, hc, b1.trans (mul_le_mul_of_nonneg_right ?_ hw), b2.trans (mul_le_mul_of_nonneg_right ?_ hw)⟩ <;> linarith

/-- C126: a node at the least of the computed distances is a nearest one up to four roundings. -/
theorem C126_tree (hr : Rounds fl u) (hu : u ≤ 1 / 1000) {s : List K} {x : K} {k : ℕ} (hk : k < s.length)
    (hmin : ∀ j, j < s.length → distR fl (s.getD k 0) x ≤ distR fl (s.getD j 0) x) : NearlyNearest (4 * u) s x k := by
  have hu0 := hr.u_nonneg
  refine ⟨hk, fun j hj => ?_⟩
  have h := hmin j hj
  unfold distR at h
  generalize s.getD k 0 - x = a at *
  generalize s.getD j 0 - x = b at *
  have key : ∀ c : K, (1 - u) * ((1 - u) * |c|) ^ 2 ≤ fl (fl c * fl c) ∧ fl (fl c * fl c) ≤ (1 + u) * ((1 + u) * |c|) ^ 2 := by
    intro c
    have e1 := hr.err c
    have e2 := hr.err (fl c * fl c)
    have lo : (1 - u) * |c| ≤ |fl c| := by
      have := abs_sub_abs_le_abs_sub c (fl c)
      rw [abs_sub_comm] at this
      linarith
    have up := hr.le c
    have n0 : 0 ≤ (1 - u) * |c| := mul_nonneg (by linarith) (abs_nonneg _)
    have q1 : ((1 - u) * |c|) ^ 2 ≤ fl c * fl c := by
      rw [← abs_mul_abs_self (fl c), pow_two]
      exact mul_le_mul lo lo n0 (abs_nonneg _)
    have q2 : fl c * fl c ≤ ((1 + u) * |c|) ^ 2 := by
      rw [← abs_mul_abs_self (fl c), pow_two]
      exact mul_le_mul up up (abs_nonneg _) ((abs_nonneg _).trans up)
    rw [abs_of_nonneg (mul_self_nonneg (fl c)), abs_le] at e2
    have i1 := mul_le_mul_of_nonneg_left q1 (show 0 ≤ 1 - u by linarith)
    have i2 := mul_le_mul_of_nonneg_left q2 (show 0 ≤ 1 + u by linarith)
    constructor <;> linarith
  have h1 := (key a).1.trans (h.trans (key b).2)
  have h2 : (1 + u) * (1 + u) ^ 2 ≤ (1 - u) * (1 - u) ^ 2 * (1 + 4 * u) ^ 2 := by
    have u2 : u ^ 2 ≤ 1 / 1000 * u := by rw [pow_two]; exact mul_le_mul_of_nonneg_right hu hu0
    have u20 : 0 ≤ u ^ 2 := by positivity
    nlinarith [mul_nonneg hu0 u20, mul_nonneg u20 u20, mul_nonneg (mul_nonneg hu0 u20) u20]
  have h3 : (1 - u) * (1 - u) ^ 2 * |a| ^ 2 ≤ (1 - u) * (1 - u) ^ 2 * ((1 + 4 * u) * |b|) ^ 2 := by
    have := mul_le_mul_of_nonneg_right h2 (sq_nonneg |b|)
    calc _ = (1 - u) * ((1 - u) * |a|) ^ 2 := by ring
      _ ≤ (1 + u) * ((1 + u) * |b|) ^ 2 := h1
      _ = (1 + u) * (1 + u) ^ 2 * |b| ^ 2 := by ring
      _ ≤ (1 - u) * (1 - u) ^ 2 * (1 + 4 * u) ^ 2 * |b| ^ 2 := this
      _ = _ := by ring
  have hp : 0 < (1 - u) * (1 - u) ^ 2 := by
    have : 0 < 1 - u := by linarith
    positivity
  have h4 := le_of_mul_le_mul_left h3 hp
  exact (pow_le_pow_iff_left₀ (abs_nonneg _) (mul_nonneg (by linarith) (abs_nonneg _)) two_ne_zero).1 h4

/-- C126: the points of the rendered fiber are shrunk strictly inside it. -/
theorem C126_shrunk (hr : Rounds fl u) (hu : u ≤ 1 / 100000) {l p : K} (hl : 0 < l) (hp : |p| ≤ 1 / 2) : |shrinkR fl l p| ≤ 49999 / 50000 * (l / 2) := by
  have hu0 := hr.u_nonneg
  have e1 := hr.le (p * l)
  have e2 := hr.le (9999 / 10000)
  have e3 := hr.le (fl (p * l) * fl (9999 / 10000))
  rw [abs_of_nonneg (by norm_num : (0 : K) ≤ 9999 / 10000)] at e2
  rw [abs_mul p l, abs_of_pos hl] at e1
  have h1 : |fl (p * l)| ≤ (1 + u) * (l / 2) := e1.trans (by
    have := mul_le_mul_of_nonneg_right hp hl.le
    exact mul_le_mul_of_nonneg_left (by linarith) (by linarith))
  unfold shrinkR
  refine e3.trans ?_
  rw [abs_mul]
  have h2 : |fl (p * l)| * |fl (9999 / 10000)| ≤ (1 + u) * (l / 2) * ((1 + u) * (9999 / 10000)) :=
    mul_le_mul h1 e2 (abs_nonneg _) (by positivity)
  have h3 := mul_le_mul_of_nonneg_left h2 (show 0 ≤ 1 + u by linarith)
  refine h3.trans ?_
  have h4 : (1 + u) * (1 + u) * (1 + u) * (9999 / 10000) ≤ 49999 / 50000 := by
    have a : 1 + u ≤ 100001 / 100000 := by linarith
    have b : (1 + u) * (1 + u) ≤ 100001 / 100000 * (100001 / 100000) := mul_le_mul a a (by linarith) (by norm_num)
    have c : (1 + u) * (1 + u) * (1 + u) ≤ 100001 / 100000 * (100001 / 100000) * (100001 / 100000) := mul_le_mul b a (by linarith) (by norm_num)
    have := mul_le_mul_of_nonneg_right c (show (0 : K) ≤ 9999 / 10000 by norm_num)
    refine this.trans ?_
    norm_num
  have := mul_le_mul_of_nonneg_right h4 (show 0 ≤ l / 2 by linarith)
  linarith

/-- C126: without rounding, the functions are those of C56 and C57. -/
theorem C126_exact (s y d : List K) (first k : ℕ) (x t : K) : nodeCoordR id s first x k = nodeCoord s first x k ∧ hermiteR id y d t = hermite y d t ∧
    hermiteDerivR id y d t = hermiteDeriv y d t := by
  refine ⟨?_, ?_, ?_⟩
  · have e : ∀ c : Cell K, c.round id = c := fun c => by cases c <;> rfl
    unfold nodeCoordR nodeCoord
    simp only [e, id_eq]
  · unfold hermiteR hermite polyR hermiteCoeffsR
    simp only [id_eq]
    ring
  · unfold hermiteDerivR hermiteDeriv polyDerivR hermiteCoeffsR
    simp only [id_eq]
    ring

end Fibermat
