import Verif.Lemmas.MatInit
import Verif.Props.MatInit
import Verif.Props.Lapack
import Verif.Spec.RoundedMat

namespace Fibermat
open Spec
variable {σ K : Type} [Field K] [LinearOrder K]

/-- `Mat.check` on a `Mat` object, computed. -/
theorem matCheckR_cases (fl sq : K → K) (m : Mat K) :
    (Skipped m.attrs ∧ matCheckR fl sq m.frame = .ok ()) ∨
    (¬ Skipped m.attrs ∧ (m.attrs.n = none ∨ m.attrs.size = none) ∧ matCheckR fl sq m.frame = .error .attributeError) ∨
    (¬ Skipped m.attrs ∧ ∃ n S, m.attrs.n = some n ∧ m.attrs.size = some S ∧
      matCheckR fl sq m.frame = if (m.fibers.length : Int) = n ∧
        ∀ f ∈ m.fibers, (0 < f.l ∧ 0 < f.b ∧ 0 < f.h) ∧
          ((fl (-(S / 2)) ≤ f.x ∧ f.x ≤ fl (S / 2)) ∧ fl (-(S / 2)) ≤ f.y ∧ f.y ≤ fl (S / 2)) ∧
          |fl (sq (dot3R fl (f.u, f.v, f.w) (f.u, f.v, f.w)) - 1)| ≤ fl (fl (1 / 100000000) + fl (fl (1 / 100000) * 1)) ∧
          0 < f.G ∧ 0 < f.E then .ok () else .error .valueError) := by
  by_cases hs : Skipped m.attrs
  · left
    exact ⟨hs, by simp [matCheckR, Mat.frame, (skip_iff _).2 hs]⟩
  have hs' : m.frame.attrs.skip = false := by
    rw [← Bool.not_eq_true]; exact fun h => hs ((skip_iff _).1 h)
  have hc : matColumns.all (· ∈ m.frame.columns) = true := by simp [Mat.frame, matColumns]
  right
  rcases hn : m.attrs.n with _ | n
  · left
    have hn' : m.frame.attrs.n = none := hn
    exact ⟨hs, Or.inl rfl, by simp [matCheckR, hs', hc, hn']⟩
  rcases hS : m.attrs.size with _ | S
  · left
    have hn' : m.frame.attrs.n = some n := hn
    have hS' : m.frame.attrs.size = none := hS
    exact ⟨hs, Or.inr rfl, by simp [matCheckR, hs', hc, hn', hS']⟩
  right
  refine ⟨hs, n, S, rfl, rfl, ?_⟩
  have hn' : m.frame.attrs.n = some n := hn
  have hS' : m.frame.attrs.size = some S := hS
  have h3 : m.frame.rows.map Prod.fst = arange m.frame.rows.length := (labels_iff _).2 (labels_frame m)
  have h4 : m.frame.rows.map Prod.snd = m.fibers.map Fiber.row := by
    simp only [Mat.frame, List.map_map]
    conv_rhs => rw [← zipIdx_map_fst' m.fibers 0, List.map_map]
    rfl
  have h5 : m.frame.rows.length = m.fibers.length := frame_rows_length m
  by_cases h1 : (m.fibers.length : Int) = n
  swap
  · rw [if_neg (fun h => h1 h.1)]
    simp [matCheckR, hs', hc, hn', hS', h5, h1]
  have hm : matCheckR fl sq m.frame = if !(m.fibers.map Fiber.row).all dimsOk then .error .valueError
      else if !(m.fibers.map Fiber.row).all (boxOkR fl S) then .error .valueError
      else if !(m.fibers.map Fiber.row).all (normOkR fl sq) then .error .valueError
      else if !(m.fibers.map Fiber.row).all moduliOk then .error .valueError else .ok () := by
    rw [← h4]
    simp [matCheckR, hs', hc, hn', hS', h5, h1, h3, arange_length, npUnique_arange]
  have k1 : (m.fibers.map Fiber.row).all dimsOk = true ↔ ∀ f ∈ m.fibers, 0 < f.l ∧ 0 < f.b ∧ 0 < f.h := by
    simp [List.all_eq_true, dimsOk, Cell.pos, Cell.lt, Fiber.row, and_assoc]
  have k2 : (m.fibers.map Fiber.row).all (boxOkR fl S) = true ↔
      ∀ f ∈ m.fibers, ((fl (-(S / 2)) ≤ f.x ∧ f.x ≤ fl (S / 2)) ∧ fl (-(S / 2)) ≤ f.y ∧ f.y ≤ fl (S / 2)) := by
    simp [List.all_eq_true, boxOkR, Cell.le, Fiber.row, and_assoc]
  have k3 : (m.fibers.map Fiber.row).all (normOkR fl sq) = true ↔ ∀ f ∈ m.fibers,
      |fl (sq (dot3R fl (f.u, f.v, f.w) (f.u, f.v, f.w)) - 1)| ≤ fl (fl (1 / 100000000) + fl (fl (1 / 100000) * 1)) := by
    simp only [List.all_eq_true, List.mem_map, forall_exists_index, and_imp, forall_apply_eq_imp_iff₂, normOkR, Fiber.row,
      decide_eq_true_eq]
  have k4 : (m.fibers.map Fiber.row).all moduliOk = true ↔ ∀ f ∈ m.fibers, 0 < f.G ∧ 0 < f.E := by
    simp only [List.all_eq_true, List.mem_map, forall_exists_index, and_imp, forall_apply_eq_imp_iff₂, moduliOk_iff]
    refine forall₂_congr fun f _ => ?_
    rw [← topCell_positive]
    simp [Fiber.row, Positive]
  by_cases c1 : (m.fibers.map Fiber.row).all dimsOk = true
  · by_cases c2 : (m.fibers.map Fiber.row).all (boxOkR fl S) = true
    · by_cases c3 : (m.fibers.map Fiber.row).all (normOkR fl sq) = true
      · by_cases c4 : (m.fibers.map Fiber.row).all moduliOk = true
        · rw [if_pos ⟨h1, fun f hf => ⟨k1.1 c1 f hf, k2.1 c2 f hf, k3.1 c3 f hf, k4.1 c4 f hf⟩⟩, hm, c1, c2, c3, c4]
          rfl
        · rw [if_neg (fun h => c4 (k4.2 fun f hf => (h.2 f hf).2.2.2)), hm]
          simp [c1, c2, c3, c4]
      · rw [if_neg (fun h => c3 (k3.2 fun f hf => (h.2 f hf).2.2.1)), hm]
        simp [c1, c2, c3]
    · rw [if_neg (fun h => c2 (k2.2 fun f hf => (h.2 f hf).2.1)), hm]
      simp [c1, c2]
  · rw [if_neg (fun h => c1 (k1.2 fun f hf => (h.2 f hf).1)), hm]
    simp [c1]

section
variable [IsStrictOrderedRing K] {fl sq : K → K} {u : K}

/-- The computed tolerance on norms. -/
theorem tolR_near (hr : Rounds fl u) (hu : u ≤ 1 / 10 ^ 8) :
    1000999 / 10 ^ 11 ≤ fl (fl (1 / 100000000) + fl (fl (1 / 100000) * 1)) ∧
      fl (fl (1 / 100000000) + fl (fl (1 / 100000) * 1)) ≤ (1001001 / 10 ^ 11 : K) := by
  have hu0 := hr.u_nonneg
  rw [mul_one, hr.idem]
  have a := abs_le.1 (hr.err (1 / 100000000))
  have b := abs_le.1 (hr.err (1 / 100000))
  rw [abs_of_nonneg (by norm_num : (0 : K) ≤ 1 / 100000000)] at a
  rw [abs_of_nonneg (by norm_num : (0 : K) ≤ 1 / 100000)] at b
  set A := fl (1 / 100000000)
  set B := fl (1 / 100000)
  have hA : 0 ≤ A := hr.nonneg (by norm_num)
  have hB : 0 ≤ B := hr.nonneg (by norm_num)
  have c := abs_le.1 (hr.err (A + B))
  rw [abs_of_nonneg (by linarith)] at c
  have d : u * (A + B) ≤ 1 / 10 ^ 8 * (A + B) := mul_le_mul_of_nonneg_right hu (by linarith)
  norm_num at a b d hu ⊢
  constructor <;> linarith [c.1, c.2, a.1, a.2, b.1, b.2]

/-- The computed norm of a direction. -/
theorem normR_sq (hr : Rounds fl u) (hs : RoundsSqrt sq u) (hu : u ≤ 1 / 10 ^ 8) (a b c : K) :
    0 ≤ sq (dot3R fl (a, b, c) (a, b, c)) ∧
    (1 - 7 / 10 ^ 8) * (a ^ 2 + b ^ 2 + c ^ 2) ≤ sq (dot3R fl (a, b, c) (a, b, c)) ^ 2 ∧
      sq (dot3R fl (a, b, c) (a, b, c)) ^ 2 ≤ (1 + 7 / 10 ^ 8) * (a ^ 2 + b ^ 2 + c ^ 2) := by
  have hu0 := hr.u_nonneg
  have h := abs_le.1 (dot3R_sq hr (by norm_num at hu ⊢; linarith) a b c)
  have h0 : 0 ≤ a ^ 2 + b ^ 2 + c ^ 2 := by positivity
  set s := a ^ 2 + b ^ 2 + c ^ 2
  set d := dot3R fl (a, b, c) (a, b, c)
  have hus : u * s ≤ 1 / 10 ^ 8 * s := mul_le_mul_of_nonneg_right hu h0
  have hd1 : (1 - 4 / 10 ^ 8) * s ≤ d := by linarith [h.1]
  have hd2 : d ≤ (1 + 4 / 10 ^ 8) * s := by linarith [h.2]
  have hd0 : 0 ≤ d := le_trans (mul_nonneg (by norm_num) h0) hd1
  obtain ⟨e0, e1, e2⟩ := hs d hd0
  have q1 : (1 - 2 / 10 ^ 8 : K) ≤ (1 - u) ^ 2 := by nlinarith [sq_nonneg u]
  have q2 : (1 + u) ^ 2 ≤ (1 + 21 / 10 ^ 9 : K) := by norm_num at hu ⊢; nlinarith
  refine ⟨e0, le_trans ?_ e1, e2.trans ?_⟩
  · calc (1 - 7 / 10 ^ 8) * s ≤ (1 - 2 / 10 ^ 8) * ((1 - 4 / 10 ^ 8) * s) := by
          rw [← mul_assoc]; exact mul_le_mul_of_nonneg_right (by norm_num) h0
      _ ≤ (1 - 2 / 10 ^ 8) * d := mul_le_mul_of_nonneg_left hd1 (by norm_num)
      _ ≤ _ := mul_le_mul_of_nonneg_right q1 hd0
  · calc (1 + u) ^ 2 * d ≤ (1 + 21 / 10 ^ 9) * d := mul_le_mul_of_nonneg_right q2 hd0
      _ ≤ (1 + 21 / 10 ^ 9) * ((1 + 4 / 10 ^ 8) * s) := mul_le_mul_of_nonneg_left hd2 (by norm_num)
      _ ≤ _ := by rw [← mul_assoc]; exact mul_le_mul_of_nonneg_right (by norm_num) h0

/-- Directions accepted for sure. -/
theorem normR_accepts (hr : Rounds fl u) (hs : RoundsSqrt sq u) (hu : u ≤ 1 / 10 ^ 8) {a b c : K}
    (h1 : (1 - 99 / 10 ^ 7) ^ 2 ≤ a ^ 2 + b ^ 2 + c ^ 2) (h2 : a ^ 2 + b ^ 2 + c ^ 2 ≤ (1 + 99 / 10 ^ 7) ^ 2) :
    |fl (sq (dot3R fl (a, b, c) (a, b, c)) - 1)| ≤ fl (fl (1 / 100000000) + fl (fl (1 / 100000) * 1)) := by
  refine le_trans ?_ (tolR_near hr hu).1
  obtain ⟨e0, e1, e2⟩ := normR_sq hr hs hu a b c
  set n := sq (dot3R fl (a, b, c) (a, b, c))
  have hu0 := hr.u_nonneg
  have n1 : n ≤ 1 + 9940 / 10 ^ 9 := by
    by_contra hc
    have : (1 + 9940 / 10 ^ 9 : K) ^ 2 < n ^ 2 := pow_lt_pow_left₀ (not_le.1 hc) (by norm_num) (by norm_num)
    norm_num at this e2 h2
    linarith
  have n2 : 1 - 9940 / 10 ^ 9 ≤ n := by
    by_contra hc
    have : n ^ 2 < (1 - 9940 / 10 ^ 9 : K) ^ 2 := pow_lt_pow_left₀ (not_le.1 hc) e0 (by norm_num)
    norm_num at this e1 h1
    linarith
  have hn : |n - 1| ≤ 9940 / 10 ^ 9 := abs_le.2 ⟨by linarith, by linarith⟩
  have h3 := hr.err (n - 1)
  have h4 : u * |n - 1| ≤ 1 / 10 ^ 8 * |n - 1| := mul_le_mul_of_nonneg_right hu (abs_nonneg _)
  have h5 : |fl (n - 1)| ≤ |fl (n - 1) - (n - 1)| + |n - 1| := by
    have := abs_add_le (fl (n - 1) - (n - 1)) (n - 1)
    rwa [sub_add_cancel] at this
  norm_num at h4 hn ⊢
  linarith

/-- Directions accepted at all. -/
theorem normR_only (hr : Rounds fl u) (hs : RoundsSqrt sq u) (hu : u ≤ 1 / 10 ^ 8) {a b c : K}
    (h : |fl (sq (dot3R fl (a, b, c) (a, b, c)) - 1)| ≤ fl (fl (1 / 100000000) + fl (fl (1 / 100000) * 1))) :
    (1 - 101 / 10 ^ 7) ^ 2 ≤ a ^ 2 + b ^ 2 + c ^ 2 ∧ a ^ 2 + b ^ 2 + c ^ 2 ≤ (1 + 101 / 10 ^ 7) ^ 2 := by
  have h' := h.trans (tolR_near hr hu).2
  obtain ⟨e0, e1, e2⟩ := normR_sq hr hs hu a b c
  set n := sq (dot3R fl (a, b, c) (a, b, c))
  have hu0 := hr.u_nonneg
  have h3 := hr.err (n - 1)
  have h4 : u * |n - 1| ≤ 1 / 10 ^ 8 * |n - 1| := mul_le_mul_of_nonneg_right hu (abs_nonneg _)
  have h5 : |n - 1| ≤ |fl (n - 1) - (n - 1)| + |fl (n - 1)| := by
    have := abs_sub_abs_le_abs_sub (n - 1) (fl (n - 1))
    rw [abs_sub_comm (n - 1)] at this
    linarith
  have hn : |n - 1| ≤ 10011 / 10 ^ 9 := by
    norm_num at h4 h' ⊢
    linarith
  rw [abs_le] at hn
  have n1 : n ^ 2 ≤ (1 + 10011 / 10 ^ 9) ^ 2 := pow_le_pow_left₀ e0 (by linarith) 2
  have n2 : (1 - 10011 / 10 ^ 9) ^ 2 ≤ n ^ 2 := pow_le_pow_left₀ (by norm_num) (by linarith) 2
  norm_num at n1 n2 e1 e2 ⊢
  constructor <;> linarith

/-- Numbers of `np.random.uniform(-0.5, 0.5)`. -/
theorem uniformR_bounds (hr : Rounds fl u) (h1 : fl 1 = 1) (hh : HalfExact fl 1) {a : K} (h0 : 0 ≤ a) (ha : a < 1) :
    -(1 / 2) ≤ fl (-(1 / 2) + fl (fl (1 / 2 - -(1 / 2)) * a)) ∧ fl (-(1 / 2) + fl (fl (1 / 2 - -(1 / 2)) * a)) ≤ 1 / 2 := by
  have e : (1 / 2 - -(1 / 2) : K) = 1 := by norm_num
  rw [e, h1, one_mul]
  have b0 : 0 ≤ fl a := hr.nonneg h0
  have b1 : fl a ≤ 1 := by have := hr.mono a 1 ha.le; rwa [h1] at this
  have c1 := hr.mono (-(1 / 2)) (-(1 / 2) + fl a) (by linarith)
  have c2 := hr.mono (-(1 / 2) + fl a) (1 / 2) (by linarith)
  rw [hh.neg] at c1
  rw [hh.pos] at c2
  exact ⟨c1, c2⟩

/-- Positions stay in the box. -/
theorem scaledR_bounds (hr : Rounds fl u) {t S : K} (h1 : -(1 / 2) ≤ t) (h2 : t ≤ 1 / 2) (hS : 0 ≤ S) :
    fl (-(S / 2)) ≤ fl (t * S) ∧ fl (t * S) ≤ fl (S / 2) :=
  ⟨hr.mono _ _ (scaled_bounds h1 h2 hS).1, hr.mono _ _ (scaled_bounds h1 h2 hS).2⟩

/-- Direction computed from rounded products. -/
theorem productR_near (hr : Rounds fl u) (hu : u ≤ 1 / 10 ^ 8) {ε c d p q : K} (hp : |c ^ 2 + d ^ 2 - 1| ≤ ε) (hq : |p ^ 2 + q ^ 2 - 1| ≤ ε)
    (hε : ε ≤ 1 / 10 ^ 6) : |fl (c * p) ^ 2 + fl (d * p) ^ 2 + q ^ 2 - 1| ≤ 3 * ε + 3 * u := by
  have h := product_near hp hq hε
  have hu0 := hr.u_nonneg
  have hε0 : 0 ≤ ε := (abs_nonneg _).trans hp
  have key : ∀ x : K, |fl x ^ 2 - x ^ 2| ≤ 21 / 10 * u * x ^ 2 := by
    intro x
    have h1 := hr.err x
    have e : fl x ^ 2 - x ^ 2 = (fl x - x) * (fl x - x + 2 * x) := by ring
    rw [e, abs_mul]
    have h2 : |fl x - x + 2 * x| ≤ (2 + u) * |x| := by
      calc |fl x - x + 2 * x| ≤ |fl x - x| + |2 * x| := abs_add_le _ _
        _ ≤ u * |x| + 2 * |x| := by rw [abs_mul]; norm_num; exact h1
        _ = _ := by ring
    calc |fl x - x| * |fl x - x + 2 * x| ≤ (u * |x|) * ((2 + u) * |x|) := mul_le_mul h1 h2 (abs_nonneg _) (by positivity)
      _ = u * (2 + u) * x ^ 2 := by rw [← sq_abs x]; ring
      _ ≤ _ := by
        refine mul_le_mul_of_nonneg_right ?_ (sq_nonneg x)
        norm_num at hu
        nlinarith
  have k1 := abs_le.1 (key (c * p))
  have k2 := abs_le.1 (key (d * p))
  have hsum : (c * p) ^ 2 + (d * p) ^ 2 ≤ 1 + 3 * ε := by
    have := (abs_le.1 h).2
    linarith [sq_nonneg q]
  have hus : u * ((c * p) ^ 2 + (d * p) ^ 2) ≤ u * (1 + 3 * ε) := mul_le_mul_of_nonneg_left hsum hu0
  have hue : u * ε ≤ u * (1 / 10 ^ 6) := mul_le_mul_of_nonneg_left hε hu0
  have h' := abs_le.1 h
  norm_num at hue
  rw [abs_le]
  constructor <;> linarith [k1.1, k1.2, k2.1, k2.2, h'.1, h'.2]

end
end Fibermat
