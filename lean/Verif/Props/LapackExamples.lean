import Verif.Props.Lapack
import Mathlib.Analysis.Real.Sqrt
import Mathlib.Data.Nat.Sqrt

/-! # C92, C93: examples, with doubles -/

namespace Fibermat
open Spec

/-- C93: a correctly rounded square root. -/
theorem C93_sqrt {fl : ℝ → ℝ} {u : ℝ} (hr : Rounds fl u) (hu : u ≤ 1) : RoundsSqrt (fun x => fl (Real.sqrt x)) u := by
  intro x hx
  have h0 := Real.sqrt_nonneg x
  have hu0 := hr.u_nonneg
  have hsq := Real.sq_sqrt hx
  have he := abs_le.1 (hr.err (Real.sqrt x))
  rw [abs_of_nonneg h0] at he
  have hn := hr.nonneg h0
  refine ⟨hn, ?_, ?_⟩
  · calc (1 - u) ^ 2 * x = ((1 - u) * Real.sqrt x) ^ 2 := by rw [mul_pow, hsq]
      _ ≤ _ := pow_le_pow_left₀ (mul_nonneg (by linarith) h0) (by linarith [he.1]) 2
  · calc fl (Real.sqrt x) ^ 2 ≤ ((1 + u) * Real.sqrt x) ^ 2 := pow_le_pow_left₀ hn (by linarith [he.2]) 2
      _ = _ := by rw [mul_pow, hsq]

/-- Square root with `p` bits, rounded down. -/
def sqrtDown (p : ℕ) (x : ℚ) : ℚ :=
  if x ≤ 0 then 0
  else (Nat.sqrt ⌊x * 4 ^ p / 4 ^ (Int.log 2 x / 2)⌋.toNat : ℚ) * 2 ^ (Int.log 2 x / 2) / 2 ^ p

theorem sqrtDown_rounds (p : ℕ) : RoundsSqrt (sqrtDown p) (1 / 2 ^ p) := by
  intro x hx
  rcases hx.eq_or_lt with rfl | hx0
  · simp [sqrtDown]
  rw [sqrtDown, if_neg (not_le.2 hx0)]
  set h := Int.log 2 x / 2 with hh
  have l1 : (2 : ℚ) ^ Int.log 2 x ≤ x := by exact_mod_cast Int.zpow_log_le_self (b := 2) (by norm_num) hx0
  have l2 : (4 : ℚ) ^ h ≤ x := by
    refine le_trans ?_ l1
    have : (4 : ℚ) ^ h = 2 ^ (2 * h) := by rw [zpow_mul]; norm_num
    rw [this]
    exact zpow_le_zpow_right₀ (by norm_num) (by omega)
  have h40 : (0 : ℚ) < 4 ^ h := zpow_pos (by norm_num) _
  set y : ℚ := x * 4 ^ p / 4 ^ h with hy
  have hy1 : (4 : ℚ) ^ p ≤ y := by
    rw [hy, le_div_iff₀ h40, mul_comm]
    exact mul_le_mul_of_nonneg_right l2 (by positivity)
  have hy0 : 0 ≤ y := le_trans (by positivity) hy1
  set n := ⌊y⌋.toNat with hn
  have hfl : ((n : ℕ) : ℤ) = ⌊y⌋ := Int.toNat_of_nonneg (Int.floor_nonneg.2 hy0)
  have n1 : (n : ℚ) ≤ y := by
    have := Int.floor_le y
    rw [← hfl] at this; exact_mod_cast this
  have n2 : y < n + 1 := by
    have := Int.lt_floor_add_one y
    rw [← hfl] at this; exact_mod_cast this
  set s := Nat.sqrt n with hs
  have s1 : ((s : ℕ) : ℚ) ^ 2 ≤ n := by exact_mod_cast Nat.sqrt_le' n
  have s2 : (n : ℚ) + 1 ≤ ((s : ℕ) + 1 : ℚ) ^ 2 := by exact_mod_cast Nat.succ_le_of_lt (Nat.lt_succ_sqrt' n)
  have s3 : (2 : ℚ) ^ p ≤ s := by
    have hpn : (2 ^ p) * (2 ^ p) ≤ n := by
      have : (4 ^ p : ℕ) ≤ n := by
        have h1 : (4 : ℤ) ^ p ≤ ⌊y⌋ := by rw [Int.le_floor]; push_cast; exact hy1
        rw [← hfl] at h1
        exact_mod_cast h1
      calc (2 ^ p) * (2 ^ p) = 4 ^ p := by rw [← mul_pow]; norm_num
        _ ≤ n := this
    exact_mod_cast Nat.le_sqrt.2 hpn
  have e22 : ((2 : ℚ) ^ h / 2 ^ p) ^ 2 = 4 ^ h / 4 ^ p := by
    rw [div_pow, ← zpow_natCast, ← zpow_mul, ← pow_mul, mul_comm h, mul_comm p, zpow_mul, pow_mul]; norm_num
  have hxy : x = y * ((2 : ℚ) ^ h / 2 ^ p) ^ 2 := by rw [e22, hy]; field_simp
  have hc : (0 : ℚ) < 2 ^ h / 2 ^ p := div_pos (zpow_pos (by norm_num) _) (by positivity)
  have hs0 : (0 : ℚ) ≤ s := Nat.cast_nonneg _
  have h2p : (0 : ℚ) < 2 ^ p := by positivity
  refine ⟨by rw [mul_div_assoc]; exact mul_nonneg hs0 hc.le, ?_, ?_⟩
  · rw [mul_div_assoc, mul_pow, hxy, ← mul_assoc]
    refine mul_le_mul_of_nonneg_right ?_ (by positivity)
    have h1 : (1 - 1 / 2 ^ p) * ((s : ℚ) + 1) ≤ s := by
      have : 1 ≤ 1 / 2 ^ p * ((s : ℚ) + 1) := by
        rw [one_div, inv_mul_eq_div, le_div_iff₀ h2p]; linarith
      linarith
    have hp1 : (1 : ℚ) / 2 ^ p ≤ 1 := by
      rw [div_le_one h2p]; exact one_le_pow₀ (by norm_num)
    calc (1 - 1 / 2 ^ p) ^ 2 * y ≤ (1 - 1 / 2 ^ p) ^ 2 * ((s : ℚ) + 1) ^ 2 := mul_le_mul_of_nonneg_left (by linarith) (by positivity)
      _ = ((1 - 1 / 2 ^ p) * ((s : ℚ) + 1)) ^ 2 := by ring
      _ ≤ (s : ℚ) ^ 2 := pow_le_pow_left₀ (mul_nonneg (by linarith) (by linarith)) h1 2
  · rw [mul_div_assoc, mul_pow, hxy, ← mul_assoc]
    refine mul_le_mul_of_nonneg_right ?_ (by positivity)
    have hq : (0 : ℚ) < 1 / 2 ^ p := by positivity
    calc (s : ℚ) ^ 2 ≤ 1 * y := by linarith
      _ ≤ _ := mul_le_mul_of_nonneg_right (one_le_pow₀ (by linarith)) hy0

/-- Doubles. -/
def doubles : NetArith ℚ := numpyArith (binary 53) (sqrtDown 53)

theorem doubles_rounds : Rounds (binary 53 : ℚ → ℚ) (1 / 2 ^ 53) := binary_rounds (by norm_num)

theorem doubles_sound : SoundArith doubles (1 / 2 ^ 53) := numpy_sound doubles_rounds (sqrtDown_rounds 53) (by norm_num)

/-- The fibers of `crossMat` with directions that are doubles. -/
def slantMat : Mat ℚ :=
  { fibers := [⟨10, 1, 1, 8, 0, 5, 1, 0, 0, 1, ⊤⟩, ⟨8, 1, 2, 5, 1, 0, 0, 1, 0, 1, ⊤⟩,
               ⟨10, 1, 1, -9, 0, 7, binary 53 (3 / 5), binary 53 (4 / 5), 0, 1, ⊤⟩]
    attrs := { n := some 3, size := some 20 } }

theorem slantMat_good : GoodMat slantMat := by
  have h : matCheck slantMat.frame = .ok () := by decide +kernel
  exact ((matCheck_frame_iff _).1 h).resolve_left (by simp [Skipped, slantMat])

/-- C93: the ends of the fibers of `slantMat` are found with doubles. -/
theorem slant_ends : FindsEnds doubles slantMat :=
  C93_ends (n := 52) (by norm_num) _ (τ := 1 / 10 ^ 9) (by decide +kernel) (by norm_num)

/-- C92: the network of `slantMat` computed with doubles: all theorems of C92 apply to it. -/
example : ∃ net, netNewR doubles slantMat true = .ok net ∧ ValidNet net.frame ∧ IncreasingAB net.rows ∧
    (∃ (k : Nat) (r : NetRow ℚ), net.rows[k]? = some r ∧ r.A = 2 ∧ r.B = 2 ∧ r.sB = -r.sA ∧ |r.sA - 5| ≤ 1 / 2 ^ 53 * 5) ∧
    ∃ mesh, meshNew net = .ok mesh ∧ |∑ i ∈ beamsOf mesh.rows 2, beamLength mesh.rows i - 10| ≤ 1 / 2 ^ 53 * 10 := by
  obtain ⟨net, hn, hv, -⟩ := C92_runs doubles_sound slant_ends slantMat_good true
  obtain ⟨k, r, h1, h2, h3, h4, h5, -⟩ := C92_end_row doubles_sound slant_ends slantMat_good hn (i := 2) rfl
  obtain ⟨mesh, hm, -, hb⟩ := C92_mesh doubles_sound slant_ends slantMat_good hn
  refine ⟨net, hn, hv, C92_increasing doubles_sound slant_ends slantMat_good hn, ⟨k, r, h1, by simpa using h2, by simpa using h3, h4, ?_⟩,
    mesh, hm, ?_⟩
  · norm_num at h5 ⊢; exact h5
  · exact (hb 2 _ rfl).1
example : (netNewR doubles slantMat true).toOption.map (fun n => n.rows.map (fun r => (r.A, r.B, r.sA, r.sB))) =
    some [(0, 0, 5, -5), (0, 1, -3, -1), (0, 2, 3, 0), (1, 1, 4, -4), (2, 2, 5, -5)] := by decide +kernel
/-- C92: other heights. -/
example : IgnoresHeights doubles ∧ ∀ f ∈ slantMat.fibers, f.w = 0 :=
  ⟨C93_heights (binary_zero 53) _, by decide +kernel⟩

/-- C93: crossing of fibers 0 and 1 of `slantMat`. -/
example : ∃ net, netNewR doubles slantMat false = .ok net ∧
    ∃ r ∈ net.rows, r.A = 0 ∧ r.B = 1 ∧ |r.sA + 3| ≤ 253 * (1 / 2 ^ 53) * (10 + 8) / 1 ^ 2 ∧ |r.sB + 1| ≤ 253 * (1 / 2 ^ 53) * (10 + 8) / 1 ^ 2 := by
  obtain ⟨net, hn, -⟩ := C92_runs doubles_sound slant_ends slantMat_good false
  refine ⟨net, hn, ?_⟩
  obtain ⟨r, h1, h2, h3, h4, h5⟩ := C93_found doubles_rounds (sqrtDown_rounds 53) (by norm_num) slant_ends slantMat_good hn (μ := 1 / 10)
    (by norm_num) (by norm_num) (a := 0) (b := 1) (by norm_num) rfl rfl (s := -3) (t := -1) (δ := 1)
    ⟨rfl, rfl, by norm_num, by norm_num⟩ (by norm_num) (by norm_num) (by norm_num) (by norm_num) (by norm_num) (by norm_num) (by norm_num)
  exact ⟨r, h1, by simpa using h2, by simpa using h3, by simpa using h4, by simpa using h5⟩

/-- C93: the connection of fibers 0 and 2 through the side of the box. -/
example : ∃ net, netNewR doubles slantMat true = .ok net ∧ ∃ r ∈ net.rows, r.A = 0 ∧ r.B = 2 ∧
    ∃ i j : ℤ, |(8 + r.sA * 1) - (-9 + i * 20 + r.sB * binary 53 (3 / 5))| ≤ 1100 * (1 / 2 ^ 53) * (10 + 10) / (1 / 2) ^ 2 + 3 * (1 / 2 ^ 53) * 20 ∧
      |(0 + r.sA * 0) - (0 + j * 20 + r.sB * binary 53 (4 / 5))| ≤ 1100 * (1 / 2 ^ 53) * (10 + 10) / (1 / 2) ^ 2 + 3 * (1 / 2 ^ 53) * 20 := by
  obtain ⟨net, hn, -⟩ := C92_runs doubles_sound slant_ends slantMat_good true
  have hrow : ∃ r ∈ net.rows, r.A = 0 ∧ r.B = 2 := by
    have : (netNewR doubles slantMat true).toOption.map (fun n => n.rows.any (fun r => r.A == 0 && r.B == 2)) = some true := by decide +kernel
    rw [hn] at this
    simpa [Except.toOption] using this
  obtain ⟨r, hr, h1, h2⟩ := hrow
  refine ⟨net, hn, r, hr, h1, h2, ?_⟩
  obtain ⟨i, j, -, k1, k2⟩ := C93_crossing doubles_rounds (sqrtDown_rounds 53) (by norm_num) slant_ends slantMat_good (S := 20) rfl hn hr
    (by rw [h1, h2]; norm_num) ⟨0, 2, by rw [h1]; rfl, by rw [h2]; rfl, rfl, rfl⟩ rfl rfl (δ := 1 / 2) (by norm_num) (by norm_num) (by norm_num)
    (by decide +kernel)
  exact ⟨i, j, k1, k2⟩

/-! Directions whose norm is off by three millionths pass `Mat.check`, but are lost with doubles. -/

/-- Two parallel fibers, three apart. -/
def stretchedMat : Mat ℚ :=
  { fibers := [⟨10, 1, 1, 0, 0, 1 / 2, 1 - 3 / 2 ^ 20, 0, 0, 1, ⊤⟩, ⟨10, 1, 1, 1, 3, 1 / 2, 1 - 3 / 2 ^ 20, 0, 0, 1, ⊤⟩]
    attrs := { n := some 2, size := some 20 } }

theorem stretchedMat_good : GoodMat stretchedMat := by
  have h : matCheck stretchedMat.frame = .ok () := by decide +kernel
  exact ((matCheck_frame_iff _).1 h).resolve_left (by simp [Skipped, stretchedMat])

/-- C93: a valid mat whose numbers are doubles, for which the ends of the fibers are placed at their centers and two parallel fibers that are
three apart are connected.  With exact arithmetic there are two end rows and no connection. -/
theorem C93_lost : GoodMat stretchedMat ∧ (∀ f ∈ stretchedMat.fibers, binary 53 f.u = f.u) ∧
    (netNewR doubles stretchedMat false).toOption.map (fun n => n.rows.map (fun r => (r.A, r.B, r.sA, r.sB))) =
      some [(0, 0, 0, 0), (0, 1, 3298544320539 / 1152921504606846976, -1), (1, 1, 0, 0)] ∧
    (netNew stretchedMat false).toOption.map (fun n => n.rows.map (fun r => (r.A, r.B, r.sA, r.sB))) =
      some [(0, 0, 5, -5), (1, 1, 5, -5)] :=
  ⟨stretchedMat_good, by decide +kernel, by decide +kernel, by decide +kernel⟩

end Fibermat
