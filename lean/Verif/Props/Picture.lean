import Verif.Spec.Picture
import Verif.Props.Render
import Mathlib.Tactic.ComputeDegree

/-! # C83, C84: deflection, rotation and curvature in the pictures; periodic pictures -/

set_option linter.unusedSectionVars false
set_option linter.unusedSimpArgs false

namespace Fibermat
open Spec Polynomial
variable {K : Type} [Field K] [LinearOrder K] [IsStrictOrderedRing K]

/-- A polynomial of degree at most three. -/
theorem cubic_form {w : K[X]} (h : w.natDegree ≤ 3) :
    ∃ a b c d : K, w = C a + C b * X + C c * X ^ 2 + C d * X ^ 3 := by
  refine ⟨w.coeff 0, w.coeff 1, w.coeff 2, w.coeff 3, ?_⟩
  conv_lhs => rw [w.as_sum_range_C_mul_X_pow' (n := 4) (by omega)]
  simp [Finset.sum_range_succ]

theorem deflection_values {l y0 y1 t0 t1 : K} {w : K[X]} (hw : Deflection l y0 y1 t0 t1 w) : ∃ c d : K,
    (∀ x, w.eval x = y0 + t0 * x + c * x ^ 2 + d * x ^ 3) ∧ (∀ x, (derivative w).eval x = t0 + 2 * c * x + 3 * d * x ^ 2) ∧
    (∀ x, (derivative (derivative w)).eval x = 2 * c + 6 * d * x) ∧
    y0 + t0 * l + c * l ^ 2 + d * l ^ 3 = y1 ∧ t0 + 2 * c * l + 3 * d * l ^ 2 = t1 := by
  obtain ⟨a, b, c, d, rfl⟩ := cubic_form hw.degree
  have h1 : ∀ x : K, (C a + C b * X + C c * X ^ 2 + C d * X ^ 3 : K[X]).eval x = a + b * x + c * x ^ 2 + d * x ^ 3 := by
    intro x; simp
  have h2 : ∀ x : K, (derivative (C a + C b * X + C c * X ^ 2 + C d * X ^ 3 : K[X])).eval x = b + 2 * c * x + 3 * d * x ^ 2 := by
    intro x; simp; ring
  have h3 : ∀ x : K, (derivative (derivative (C a + C b * X + C c * X ^ 2 + C d * X ^ 3 : K[X]))).eval x = 2 * c + 6 * d * x := by
    intro x; simp; ring
  have ea : a = y0 := by have := hw.left; rw [h1] at this; linarith
  have eb : b = t0 := by have := hw.slopeLeft; rw [h2] at this; linarith
  subst ea eb
  refine ⟨c, d, h1, h2, h3, ?_, ?_⟩
  · rw [← h1]; exact hw.right
  · rw [← h2]; exact hw.slopeRight

/-- C83: between two nodes at distance `l`, the picture shows the beam with the end displacements of the nodes but with end slopes
divided by `l`; the field called rotation is `l` times the slope of that line, the field called curvature `l²` times its second
derivative. -/
theorem C83_field (y d : List K) {j : ℕ} (hj : j + 1 < y.length) {l : K} (hl : 0 < l) {w : K[X]}
    (hw : Deflection l (y.getD j 0) (y.getD (j + 1) 0) (d.getD j 0 / l) (d.getD (j + 1) 0 / l) w) {r : K} (h0 : 0 ≤ r) (h1 : r < 1) :
    hermite y d (j + r) = w.eval (l * r) ∧ hermiteDeriv y d (j + r) = l * (derivative w).eval (l * r) ∧
      hermiteDeriv2 y d (j + r) = l ^ 2 * (derivative (derivative w)).eval (l * r) := by
  obtain ⟨c, e, e1, e2, e3, q1, q2⟩ := deflection_values hw
  have hi := interval_of hj (t := (j : K) + r) (by linarith) (by linarith)
  rw [e1, e2, e3]
  have hl0 : l ≠ 0 := hl.ne'
  rw [div_mul_cancel₀ _ hl0] at q1
  have q2' : d.getD j 0 + 2 * c * l ^ 2 + 3 * e * l ^ 3 = d.getD (j + 1) 0 := by
    have := congrArg (fun t => t * l) q2
    simp only [div_mul_cancel₀ _ hl0] at this
    rw [← this]
    field_simp
  unfold hermite hermiteDeriv hermiteDeriv2
  simp only [hi, add_sub_cancel_left]
  rw [← q2', ← q1]
  refine ⟨?_, ?_, ?_⟩ <;> field_simp <;> ring

/-- C83, partial: the deflection of the beam itself (end slopes equal to the rotations of the nodes), its slope and its curvature
are shown for beams of length one.  Missing: beams of any other length, where it is false (`C83_wrong`). -/
theorem C83_deflection_partial (y d : List K) {j : ℕ} (hj : j + 1 < y.length) {w : K[X]}
    (hw : Deflection 1 (y.getD j 0) (y.getD (j + 1) 0) (d.getD j 0) (d.getD (j + 1) 0) w) {r : K} (h0 : 0 ≤ r) (h1 : r < 1) :
    hermite y d (j + r) = w.eval r ∧ hermiteDeriv y d (j + r) = (derivative w).eval r ∧
      hermiteDeriv2 y d (j + r) = (derivative (derivative w)).eval r := by
  have := C83_field y d hj (l := 1) one_pos (w := w) (by simpa using hw) h0 h1
  simpa using this

/-- C83: how far the picture is from the deflection of the beam. -/
theorem C83_error (y d : List K) {j : ℕ} (hj : j + 1 < y.length) {l : K} (hl : 0 < l) {w : K[X]}
    (hw : Deflection l (y.getD j 0) (y.getD (j + 1) 0) (d.getD j 0) (d.getD (j + 1) 0) w) {r : K} (h0 : 0 ≤ r) (h1 : r < 1) :
    hermite y d (j + r) - w.eval (l * r) = (1 - l) * r * (1 - r) * ((1 - r) * d.getD j 0 - r * d.getD (j + 1) 0) := by
  obtain ⟨c, e, e1, e2, e3, q1, q2⟩ := deflection_values hw
  have hi := interval_of hj (t := (j : K) + r) (by linarith) (by linarith)
  rw [e1]
  unfold hermite
  simp only [hi, add_sub_cancel_left]
  rw [← q2, ← q1]
  ring

/-- C83: a rigid rotation (which carries no elastic force, C32) of a fiber with a beam of length 2 is not shown as a straight line, and
is shown with a non-zero curvature. -/
theorem C83_wrong : ∃ (s y d : List ℚ) (w : ℚ[X]), y = s.map (fun a => 1 * a) ∧ d = s.map (fun _ => 1) ∧
    Deflection 2 (y.getD 0 0) (y.getD 1 0) (d.getD 0 0) (d.getD 1 0) w ∧ derivative (derivative w) = 0 ∧
    hermite y d (1 / 4) ≠ w.eval (1 / 2) ∧ hermiteDeriv2 y d (1 / 4) ≠ 0 := by
  refine ⟨[0, 2], [0, 2], [1, 1], X, by norm_num, by norm_num, ⟨?_, ?_, ?_, ?_, ?_⟩, ?_, ?_, ?_⟩
  · simp
  · simp
  · simp
  · simp
  · simp
  · simp
  · simp only [eval_X]; decide +kernel
  · decide +kernel

/-! ## Periodic pictures -/

theorem minCoord_le {pts : List (K × K × K)} {p : K × K × K} (hp : p ∈ pts) : minCoord pts ≤ p.2.2 := by
  induction pts with
  | nil => cases hp
  | cons q l ih =>
    cases l with
    | nil =>
      simp only [List.mem_singleton] at hp
      subst hp
      exact (min_le_right _ _).trans (min_le_right _ _)
    | cons q' l' =>
      simp only [minCoord]
      rcases List.mem_cons.1 hp with rfl | hp
      · exact (min_le_left _ _).trans ((min_le_right _ _).trans (min_le_right _ _))
      · exact (min_le_right _ _).trans (ih hp)

theorem le_maxCoord {pts : List (K × K × K)} {p : K × K × K} (hp : p ∈ pts) : p.2.2 ≤ maxCoord pts := by
  induction pts with
  | nil => cases hp
  | cons q l ih =>
    cases l with
    | nil =>
      simp only [List.mem_singleton] at hp
      subst hp
      exact (le_max_right _ _).trans (le_max_right _ _)
    | cons q' l' =>
      simp only [maxCoord]
      rcases List.mem_cons.1 hp with rfl | hp
      · exact ((le_max_right _ _).trans (le_max_right _ _)).trans (le_max_left _ _)
      · exact (ih hp).trans (le_max_right _ _)

theorem mem_copies {size : K} {pts : List (K × K × K)} {p : K × K × K} :
    p ∈ copies size pts ↔ ∃ q ∈ pts, ∃ i j : ℤ, (-1 ≤ i ∧ i ≤ 1) ∧ (-1 ≤ j ∧ j ≤ 1) ∧ p = (q.1 + i * size, q.2.1 + j * size, q.2.2) := by
  constructor
  · intro h
    simp only [copies, List.flatten_cons, List.flatten_nil, List.append_nil, List.mem_append, translatePoints, List.mem_map] at h
    rcases h with h | ⟨q, hq, rfl⟩ | ⟨q, hq, rfl⟩ | ⟨q, hq, rfl⟩ | ⟨q, hq, rfl⟩ | ⟨q, hq, rfl⟩ | ⟨q, hq, rfl⟩ | ⟨q, hq, rfl⟩ | ⟨q, hq, rfl⟩
    · exact ⟨p, h, 0, 0, by omega, by omega, by simp⟩
    · exact ⟨q, hq, -1, 0, by omega, by omega, by simp⟩
    · exact ⟨q, hq, 1, 0, by omega, by omega, by simp⟩
    · exact ⟨q, hq, 0, -1, by omega, by omega, by simp⟩
    · exact ⟨q, hq, 0, 1, by omega, by omega, by simp⟩
    · exact ⟨q, hq, -1, -1, by omega, by omega, by simp⟩
    · exact ⟨q, hq, -1, 1, by omega, by omega, by simp⟩
    · exact ⟨q, hq, 1, -1, by omega, by omega, by simp⟩
    · exact ⟨q, hq, 1, 1, by omega, by omega, by simp⟩
  · rintro ⟨q, hq, i, j, hi, hj, rfl⟩
    simp only [copies, List.flatten_cons, List.flatten_nil, List.append_nil, List.mem_append, translatePoints, List.mem_map]
    obtain ⟨x, y, z⟩ := q
    rcases (by omega : i = -1 ∨ i = 0 ∨ i = 1) with rfl | rfl | rfl <;> rcases (by omega : j = -1 ∨ j = 0 ∨ j = 1) with rfl | rfl | rfl
    · exact Or.inr (Or.inr (Or.inr (Or.inr (Or.inr (Or.inl ⟨_, hq, by simp⟩)))))
    · exact Or.inr (Or.inl ⟨_, hq, by simp⟩)
    · exact Or.inr (Or.inr (Or.inr (Or.inr (Or.inr (Or.inr (Or.inl ⟨_, hq, by simp⟩))))))
    · exact Or.inr (Or.inr (Or.inr (Or.inl ⟨_, hq, by simp⟩)))
    · left; simpa using hq
    · exact Or.inr (Or.inr (Or.inr (Or.inr (Or.inl ⟨_, hq, by simp⟩))))
    · exact Or.inr (Or.inr (Or.inr (Or.inr (Or.inr (Or.inr (Or.inr (Or.inl ⟨_, hq, by simp⟩)))))))
    · exact Or.inr (Or.inr (Or.inl ⟨_, hq, by simp⟩))
    · exact Or.inr (Or.inr (Or.inr (Or.inr (Or.inr (Or.inr (Or.inr (Or.inr ⟨_, hq, by simp⟩)))))))

theorem image_index {size x : K} (hs : 0 < size) (h1 : -size < x) (h2 : x < size) {i : ℤ} (h3 : -size ≤ x + i * size)
    (h4 : x + i * size ≤ size) : -1 ≤ i ∧ i ≤ 1 := by
  constructor
  · by_contra hc
    have : (i : K) ≤ -2 := by exact_mod_cast (by omega : i ≤ -2)
    nlinarith
  · by_contra hc
    have : (2 : K) ≤ i := by exact_mod_cast (by omega : 2 ≤ i)
    nlinarith

/-- C84: when the fibers do not reach further than one period from the centre of the box, the picture is the part of the infinite tiling
inside the square of side two periods; nothing is cut in the direction of the thickness. -/
theorem C84_tiling {size : K} (hs : 0 < size) {pts : List (K × K × K)}
    (hpts : ∀ q ∈ pts, (-size < q.1 ∧ q.1 < size) ∧ (-size < q.2.1 ∧ q.2.1 < size)) (p : K × K × K) :
    p ∈ periodicPicture size pts ↔ InTiling size pts p ∧ (-size ≤ p.1 ∧ p.1 ≤ size) ∧ (-size ≤ p.2.1 ∧ p.2.1 ≤ size) := by
  simp only [periodicPicture, clipBox, List.mem_filter, mem_copies, decide_eq_true_eq]
  constructor
  · rintro ⟨⟨q, hq, i, j, -, -, e⟩, h1, h2, h3, h4, -, -⟩
    exact ⟨⟨q, hq, i, j, e⟩, ⟨h1, h2⟩, h3, h4⟩
  · rintro ⟨⟨q, hq, i, j, rfl⟩, ⟨h1, h2⟩, h3, h4⟩
    obtain ⟨⟨a1, a2⟩, b1, b2⟩ := hpts q hq
    exact ⟨⟨q, hq, i, j, image_index hs a1 a2 h1 h2, image_index hs b1 b2 h3 h4, rfl⟩, h1, h2, h3, h4,
      minCoord_le (p := q) hq, le_maxCoord (p := q) hq⟩

/-- C84: the picture is periodic as far as it goes. -/
theorem C84_periodic {size : K} (hs : 0 < size) {pts : List (K × K × K)}
    (hpts : ∀ q ∈ pts, (-size < q.1 ∧ q.1 < size) ∧ (-size < q.2.1 ∧ q.2.1 < size)) {p : K × K × K}
    (hp : p ∈ periodicPicture size pts) (i j : ℤ) (hx : -size ≤ p.1 + i * size ∧ p.1 + i * size ≤ size)
    (hy : -size ≤ p.2.1 + j * size ∧ p.2.1 + j * size ≤ size) :
    (p.1 + i * size, p.2.1 + j * size, p.2.2) ∈ periodicPicture size pts := by
  rw [C84_tiling hs hpts] at hp ⊢
  obtain ⟨⟨q, hq, i', j', rfl⟩, -⟩ := hp
  refine ⟨⟨q, hq, i' + i, j' + j, ?_⟩, hx, hy⟩
  simp only [Prod.mk.injEq, and_true]
  push_cast
  constructor <;> ring

theorem clip_length {size z1 z2 : K} {pts : List (K × K × K)}
    (hpts : ∀ q ∈ pts, (-size < q.1 ∧ q.1 < size ∧ q.1 ≠ 0) ∧ (-size < q.2.1 ∧ q.2.1 < size ∧ q.2.1 ≠ 0) ∧ z1 ≤ q.2.2 ∧ q.2.2 ≤ z2) :
    (clipBox size z1 z2 (copies size pts)).length = 4 * pts.length := by
  unfold clipBox
  rw [← List.countP_eq_length_filter]
  simp only [copies, List.flatten_cons, List.flatten_nil, List.append_nil, List.countP_append, translatePoints, List.countP_map]
  induction pts with
  | nil => simp
  | cons q l ih =>
    have ih := ih (fun q' hq' => hpts q' (List.mem_cons_of_mem _ hq'))
    obtain ⟨⟨a1, a2, a3⟩, ⟨b1, b2, b3⟩, c1, c2⟩ := hpts q (List.mem_cons_self ..)
    simp only [List.countP_cons, Function.comp, List.length_cons, c1, c2, and_true, decide_eq_true_eq] at ih ⊢
    have x0 : -size ≤ q.1 ∧ q.1 ≤ size := ⟨a1.le, a2.le⟩
    have y0 : -size ≤ q.2.1 ∧ q.2.1 ≤ size := ⟨b1.le, b2.le⟩
    rcases lt_or_gt_of_ne a3 with hx | hx <;> rcases lt_or_gt_of_ne b3 with hy | hy
    · have x1 : ¬ -size ≤ q.1 + -size := by linarith
      have x2 : -size ≤ q.1 + size := by linarith
      have x3 : q.1 + size ≤ size := by linarith
      have y1 : ¬ -size ≤ q.2.1 + -size := by linarith
      have y2 : -size ≤ q.2.1 + size := by linarith
      have y3 : q.2.1 + size ≤ size := by linarith
      simp only [x0.1, x0.2, y0.1, y0.2, x1, x2, x3, y1, y2, y3, add_zero, true_and, false_and, and_false, and_true, if_true, if_false] at ih ⊢
      omega
    · have x1 : ¬ -size ≤ q.1 + -size := by linarith
      have x2 : -size ≤ q.1 + size := by linarith
      have x3 : q.1 + size ≤ size := by linarith
      have y1 : ¬ q.2.1 + size ≤ size := by linarith
      have y2 : -size ≤ q.2.1 + -size := by linarith
      have y3 : q.2.1 + -size ≤ size := by linarith
      simp only [x0.1, x0.2, y0.1, y0.2, x1, x2, x3, y1, y2, y3, add_zero, true_and, false_and, and_false, and_true, if_true, if_false] at ih ⊢
      omega
    · have x1 : ¬ q.1 + size ≤ size := by linarith
      have x2 : -size ≤ q.1 + -size := by linarith
      have x3 : q.1 + -size ≤ size := by linarith
      have y1 : ¬ -size ≤ q.2.1 + -size := by linarith
      have y2 : -size ≤ q.2.1 + size := by linarith
      have y3 : q.2.1 + size ≤ size := by linarith
      simp only [x0.1, x0.2, y0.1, y0.2, x1, x2, x3, y1, y2, y3, add_zero, true_and, false_and, and_false, and_true, if_true, if_false] at ih ⊢
      omega
    · have x1 : ¬ q.1 + size ≤ size := by linarith
      have x2 : -size ≤ q.1 + -size := by linarith
      have x3 : q.1 + -size ≤ size := by linarith
      have y1 : ¬ q.2.1 + size ≤ size := by linarith
      have y2 : -size ≤ q.2.1 + -size := by linarith
      have y3 : q.2.1 + -size ≤ size := by linarith
      simp only [x0.1, x0.2, y0.1, y0.2, x1, x2, x3, y1, y2, y3, add_zero, true_and, false_and, and_false, and_true, if_true, if_false] at ih ⊢
      omega

/-- C84: the square has the area of four periods, and every point of the fibers is shown exactly four times in it (points on the two
medians of the box excepted, which lie on a side of some copy). -/
theorem C84_four {size : K} {pts : List (K × K × K)}
    (hpts : ∀ q ∈ pts, (-size < q.1 ∧ q.1 < size ∧ q.1 ≠ 0) ∧ (-size < q.2.1 ∧ q.2.1 < size ∧ q.2.1 ≠ 0)) :
    (periodicPicture size pts).length = 4 * pts.length :=
  clip_length (fun q hq => ⟨(hpts q hq).1, (hpts q hq).2, minCoord_le hq, le_maxCoord hq⟩)

/-- C84: without the condition on the reach of the fibers the picture has holes: a point further than two periods from the centre is not
shown at all, though its tiling crosses the box. -/
theorem C84_long : ∃ (size : ℚ) (pts : List (ℚ × ℚ × ℚ)) (p : ℚ × ℚ × ℚ), 0 < size ∧ InTiling size pts p ∧
    (-size ≤ p.1 ∧ p.1 ≤ size) ∧ (-size ≤ p.2.1 ∧ p.2.1 ≤ size) ∧ p ∉ periodicPicture size pts ∧ periodicPicture size pts = [] := by
  refine ⟨50, [(125, 10, 1)], (25, 10, 1), by norm_num, ⟨(125, 10, 1), by simp, -2, 0, by norm_num⟩, by norm_num, by norm_num, ?_, ?_⟩
  · decide +kernel
  · decide +kernel

/-- Three points of a mat of size 50. -/
def somePoints : List (ℚ × ℚ × ℚ) := [(10, -20, 1), (-30, 5, 2), (1 / 2, 49, 3)]

/- A beam of length 2 whose ends are displaced by 0 and 1, with rotations 1 and 0. -/
example : Deflection (2 : ℚ) (([0, 1] : List ℚ).getD 0 0) (([0, 1] : List ℚ).getD 1 0) (([1, 0] : List ℚ).getD 0 0 / 2)
    (([1, 0] : List ℚ).getD 1 0 / 2) (C (1 / 2) * X + C (1 / 4) * X ^ 2 - C (1 / 8) * X ^ 3) := by
  refine ⟨?_, ?_, ?_, ?_, ?_⟩
  · compute_degree
  all_goals (simp; try norm_num)

/- The same with the rotations as slopes (`C83_error`), and a beam of length 1 (`C83_deflection_partial`). -/
example : Deflection (2 : ℚ) 0 1 1 0 (X - C (1 / 4) * X ^ 2) := by
  refine ⟨?_, ?_, ?_, ?_, ?_⟩
  · compute_degree!
  all_goals (simp; try norm_num)

example : Deflection (1 : ℚ) 0 1 1 0 (X + X ^ 2 - X ^ 3) := by
  refine ⟨?_, ?_, ?_, ?_, ?_⟩
  · compute_degree
  all_goals (simp; try norm_num)

example : ∀ q ∈ somePoints, (-50 < q.1 ∧ q.1 < 50 ∧ q.1 ≠ 0) ∧ (-50 < q.2.1 ∧ q.2.1 < 50 ∧ q.2.1 ≠ 0) := by decide +kernel

example : (periodicPicture 50 somePoints).length = 12 ∧ (-40, -20, 1) ∈ periodicPicture 50 somePoints := by decide +kernel

end Fibermat
