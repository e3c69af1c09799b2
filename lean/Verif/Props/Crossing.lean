import Verif.Props.Net
import Verif.Spec.Symmetry

/-! # The rows of a periodic net and the crossings of fibers (C79) -/

set_option linter.unusedSectionVars false

namespace Fibermat
variable {K : Type} [Field K] [LinearOrder K] [IsStrictOrderedRing K]
open Spec

theorem int_zero {A B : ℤ} (h : A ^ 2 + B ^ 2 < 1) : A = 0 ∧ B = 0 := by
  have hA := sq_nonneg A
  have hB := sq_nonneg B
  exact ⟨pow_eq_zero_iff (n := 2) (by norm_num) |>.1 (by omega), pow_eq_zero_iff (n := 2) (by norm_num) |>.1 (by omega)⟩

theorem dot_le_one {a b c d : K} (h : a ^ 2 + b ^ 2 = 1) (h' : c ^ 2 + d ^ 2 = 1) : |a * c + b * d| ≤ 1 := by
  have e : (a * c + b * d) ^ 2 + (a * d - b * c) ^ 2 = 1 := by linear_combination (c ^ 2 + d ^ 2) * h + h'
  rw [← sq_le_one_iff_abs_le_one]
  linarith [sq_nonneg (a * d - b * c)]

theorem close_images {S σ τ a b c d L M : K} {A B : ℤ} (h : a ^ 2 + b ^ 2 = 1) (h' : c ^ 2 + d ^ 2 = 1) (hσ : |σ| < L) (hτ : |τ| < M)
    (hl : L + M ≤ S) (e1 : σ * a - τ * c = (A : K) * S) (e2 : σ * b - τ * d = (B : K) * S) : A = 0 ∧ B = 0 := by
  apply int_zero
  have e : ((A : K) ^ 2 + (B : K) ^ 2) * S ^ 2 = σ ^ 2 + τ ^ 2 - 2 * (σ * τ * (a * c + b * d)) := by
    have : ((A : K) ^ 2 + (B : K) ^ 2) * S ^ 2 = ((A : K) * S) ^ 2 + ((B : K) * S) ^ 2 := by ring
    rw [this, ← e1, ← e2]
    linear_combination σ ^ 2 * h + τ ^ 2 * h'
  have hb : -(σ * τ * (a * c + b * d)) ≤ |σ| * |τ| := by
    refine (neg_le_abs _).trans ?_
    rw [abs_mul, abs_mul]
    exact mul_le_of_le_one_right (mul_nonneg (abs_nonneg _) (abs_nonneg _)) (dot_le_one h h')
  have hσ0 := abs_nonneg σ
  have hτ0 := abs_nonneg τ
  have hlt : (|σ| + |τ|) ^ 2 < S ^ 2 := pow_lt_pow_left₀ (by linarith) (by positivity) (by norm_num)
  have hexp : (|σ| + |τ|) ^ 2 = σ ^ 2 + τ ^ 2 + 2 * (|σ| * |τ|) := by rw [← sq_abs σ, ← sq_abs τ]; ring
  have hS : 0 < S := by linarith
  have key : ((A : K) ^ 2 + (B : K) ^ 2) * S ^ 2 < 1 * S ^ 2 := by rw [e, one_mul]; linarith
  have hsum : (A : K) ^ 2 + (B : K) ^ 2 < 1 := lt_of_mul_lt_mul_right key (by positivity)
  exact_mod_cast hsum

/-- Two fibers of total length at most the side of the box cross at most once, counting all images. -/
theorem C79_unique {S : K} {f g : Fiber K} (hf : Planar f) (hg : Planar g) (hl : f.l + g.l ≤ S) (hnp : NotParallel f g)
    {i j i' j' : ℤ} {s t s' t' : K} (h : CrossAt S i j f g s t) (h' : CrossAt S i' j' f g s' t') :
    i = i' ∧ j = j' ∧ s = s' ∧ t = t' := by
  obtain ⟨h1, h2, h3, h4⟩ := h
  obtain ⟨h1', h2', h3', h4'⟩ := h'
  rw [abs_lt] at h1 h2 h1' h2'
  have e1 : (s - s') * f.u - (t - t') * g.u = ((i - i' : ℤ) : K) * S := by push_cast; linear_combination h3 - h3'
  have e2 : (s - s') * f.v - (t - t') * g.v = ((j - j' : ℤ) : K) * S := by push_cast; linear_combination h4 - h4'
  have hσ : |s - s'| < f.l := abs_lt.2 ⟨by linarith [h1.1, h1'.2], by linarith [h1.2, h1'.1]⟩
  have hτ : |t - t'| < g.l := abs_lt.2 ⟨by linarith [h2.1, h2'.2], by linarith [h2.2, h2'.1]⟩
  obtain ⟨hi, hj⟩ := close_images hf.2 hg.2 hσ hτ hl e1 e2
  rw [hi, Int.cast_zero, zero_mul] at e1
  rw [hj, Int.cast_zero, zero_mul] at e2
  have z1 : (s - s') * (f.u * g.v - f.v * g.u) = 0 := by linear_combination g.v * e1 - g.u * e2
  have z2 : (t - t') * (f.u * g.v - f.v * g.u) = 0 := by linear_combination f.v * e1 - f.u * e2
  have z1 := (mul_eq_zero.1 z1).resolve_right hnp
  have z2 := (mul_eq_zero.1 z2).resolve_right hnp
  exact ⟨by omega, by omega, by linarith, by linarith⟩

/-- For fibers no longer than half the box, the rows of the periodic net are exactly the crossings: every crossing of two fibers,
one of them moved by any number of boxes, is a row with the abscissae of that crossing, and conversely. -/
theorem C79_rows_are_crossings {m : Mat K} (h : GoodMat m) {S : K} (hS : m.attrs.size = some S)
    (hp : ∀ f ∈ m.fibers, Planar f) (hlen : ∀ f ∈ m.fibers, f.l ≤ S / 2) {net : Net K} (hn : netNew m true = .ok net)
    {a b : Nat} {f g : Fiber K} (hab : a < b) (hf : m.fibers[a]? = some f) (hg : m.fibers[b]? = some g) (s t : K) :
    (∃ r ∈ net.rows, r.A = (a : Int) ∧ r.B = (b : Int) ∧ r.sA = s ∧ r.sB = t) ↔
      NotParallel f g ∧ ∃ i j : ℤ, CrossAt S i j f g s t := by
  have hfm := List.mem_of_getElem? hf
  have hgm := List.mem_of_getElem? hg
  constructor
  · rintro ⟨r, hr, hA, hB, rfl, rfl⟩
    exact C11_row_is_crossing h hS hp hn hr (by omega) ⟨a, b, hA, hB, hf, hg⟩
  · rintro ⟨hnp, i, j, hc⟩
    have hle : ∀ f ∈ m.fibers, f.l ≤ S := by
      intro f hf
      have := goodMat_pos h f hf
      linarith [hlen f hf]
    obtain ⟨r, hr, hA, hB⟩ := C11_crossing_is_row h hS hp hle hn hab hf hg hnp hc
    obtain ⟨-, i', j', hc'⟩ := C11_row_is_crossing h hS hp hn hr (by omega) ⟨a, b, hA, hB, hf, hg⟩
    obtain ⟨-, -, h1, h2⟩ := C79_unique (hp f hfm) (hp g hgm) (by linarith [hlen f hfm, hlen g hgm]) hnp hc' hc
    exact ⟨r, hr, hA, hB, h1, h2⟩

/-! ### Concrete cases -/

/-- Two fibers of nine tenths as long as the box, at right angles. -/
def twiceMat : Mat ℚ :=
  { fibers := [⟨9, 1, 1, 0, 0, 0, 3 / 5, 4 / 5, 0, 1, ⊤⟩, ⟨9, 1, 1, 5, 0, 0, 4 / 5, -3 / 5, 0, 1, ⊤⟩]
    attrs := { n := some 2, size := some 10 } }

theorem twiceMat_good : GoodMat twiceMat := by
  have h : matCheck twiceMat.frame = .ok () := by decide +kernel
  exact ((matCheck_frame_iff _).1 h).resolve_left (by simp [Skipped, twiceMat])


/-- Longer fibers may cross twice, at places of different images; the net keeps one of the two crossings only. -/
theorem C79_lost :
    GoodMat twiceMat ∧ (∀ f ∈ twiceMat.fibers, Planar f ∧ f.l < 10) ∧
    ∃ (f g : Fiber ℚ) (net : Net ℚ), twiceMat.fibers = [f, g] ∧ netNew twiceMat = .ok net ∧ NotParallel f g ∧
      CrossAt 10 0 0 f g 3 (-4) ∧ CrossAt 10 (-1) 0 f g (-3) 4 ∧
      net.rows.map (fun r => (r.A, r.B, r.sA, r.sB)) = [(0, 0, 9 / 2, -9 / 2), (0, 1, 3, -4), (1, 1, 9 / 2, -9 / 2)] := by
  refine ⟨twiceMat_good, ?_, _, _, _, rfl, netNew_eq twiceMat_good rfl true, ?_, ?_, ?_, ?_⟩
  · simp only [twiceMat, List.mem_cons, List.not_mem_nil, or_false, Planar]
    rintro f (rfl | rfl) <;> norm_num
  · norm_num [NotParallel]
  · norm_num [CrossAt, abs_lt]
  · norm_num [CrossAt, abs_lt]
  · decide +kernel

/-- The hypotheses of `C79_rows_are_crossings` are met by `crossMat`, with a crossing through the side of the box. -/
example : (∀ f ∈ crossMat.fibers, Planar f) ∧ (∀ f ∈ crossMat.fibers, f.l ≤ 20 / 2) ∧
    ∃ (f g : Fiber ℚ) (net : Net ℚ), crossMat.fibers[0]? = some f ∧ crossMat.fibers[2]? = some g ∧
      netNew crossMat = .ok net ∧ NotParallel f g ∧ CrossAt 20 1 0 f g 3 0 ∧
      ∃ r ∈ net.rows, r.A = 0 ∧ r.B = 2 ∧ r.sA = 3 ∧ r.sB = 0 := by
  have hl : ∀ f ∈ crossMat.fibers, f.l ≤ 20 / 2 := by
    simp only [crossMat, List.mem_cons, List.not_mem_nil, or_false]
    rintro f (rfl | rfl | rfl) <;> norm_num
  refine ⟨crossMat_planar, hl, _, _, _, rfl, rfl, netNew_eq crossMat_good rfl true, ?_, ?_, ?_⟩
  · norm_num [NotParallel]
  · norm_num [CrossAt, abs_lt]
  · refine (C79_rows_are_crossings (a := 0) (b := 2) crossMat_good rfl crossMat_planar hl (netNew_eq crossMat_good rfl true)
      (by norm_num) rfl rfl 3 0).2 ⟨?_, 1, 0, ?_⟩
    · norm_num [NotParallel]
    · norm_num [CrossAt, abs_lt]

end Fibermat
