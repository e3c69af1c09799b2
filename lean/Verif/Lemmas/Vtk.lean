import Verif.Spec.Vtk
import Verif.Spec.Checks
import Mathlib.Tactic.Ring
import Mathlib.Tactic.Linarith
import Mathlib.Tactic.FieldSimp
import Mathlib.Tactic.Positivity

/-! # The frame of a fiber in pictures, and lists of points -/

set_option linter.unusedSectionVars false

namespace Fibermat
open Spec
variable {K : Type} [Field K] [LinearOrder K] [IsStrictOrderedRing K]

theorem vclose_iff (a b : V3 K) : vclose a b = true ↔ |a.1 - b.1| ≤ 1 / 10 ^ 8 + 1 / 10 ^ 5 * |b.1| ∧
    |a.2.1 - b.2.1| ≤ 1 / 10 ^ 8 + 1 / 10 ^ 5 * |b.2.1| ∧ |a.2.2 - b.2.2| ≤ 1 / 10 ^ 8 + 1 / 10 ^ 5 * |b.2.2| := by
  simp [vclose, near, and_assoc]

theorem unit_vertical {root : K → K} (hr : SquareRoot root) {c : K} (hc : c ≠ 0) : unit root (0, 0, c) = (0, 0, c / |c|) := by
  unfold unit
  simp only [mul_zero, zero_add, hr c, zero_div]

/-- The frame of a horizontal direction `(c, s, 0)` of norm 1. -/
theorem frame_unit {root : K → K} (hr : SquareRoot root) {d : V3 K} {c s : K} (hd : unit root d = (c, s, 0)) (h1 : c ^ 2 + s ^ 2 = 1) :
    ∃ e : K, (e = 1 ∨ e = -1) ∧ pvFrame root d = ((c, s, 0), (-e * s, e * c, 0), (0, 0, e)) := by
  have hsign : ∀ x : K, x ≠ 0 → (x / |x| = 1 ∨ x / |x| = -1) := by
    intro x hx
    rcases lt_or_gt_of_ne hx with h | h
    · right; rw [abs_of_neg h, div_neg, div_self hx]
    · left; rw [abs_of_pos h, div_self hx]
  have key : ∀ x : K, x ≠ 0 → ∃ e : K, (e = 1 ∨ e = -1) ∧ unit root (0, 0, x) = (0, 0, e) ∧
      cross (0, 0, e) (c, s, 0) = (-e * s, e * c, 0) := by
    intro x hx
    refine ⟨x / |x|, hsign x hx, unit_vertical hr hx, ?_⟩
    simp [cross]
  have close1 : |(1 : K)| = 1 := abs_one
  unfold pvFrame
  simp only [hd]
  by_cases c1 : vclose (c, s, (0 : K)) (0, 1, 0) = true
  · simp only [c1, if_true]
    have hs : s ≠ 0 := by
      rintro rfl
      have := ((vclose_iff _ _).1 c1).2.1
      simp only [zero_sub, abs_neg, abs_one] at this
      norm_num at this
    obtain ⟨e, he, h2, h3⟩ := key s hs
    refine ⟨e, he, ?_⟩
    rw [show cross (c, s, (0 : K)) (-1, 0, 0) = (0, 0, s) by simp [cross], h2, h3]
  · have c1' := Bool.eq_false_iff.2 c1
    simp only [c1', Bool.false_eq_true, if_false]
    by_cases c2 : vclose (c, s, (0 : K)) (0, -1, 0) = true
    · simp only [c2, if_true]
      have hs : s ≠ 0 := by
        rintro rfl
        have := ((vclose_iff _ _).1 c2).2.1
        simp only [zero_sub, neg_neg, abs_one, abs_neg] at this
        norm_num at this
      obtain ⟨e, he, h2, h3⟩ := key (-s) (neg_ne_zero.2 hs)
      refine ⟨e, he, ?_⟩
      rw [show cross (c, s, (0 : K)) (1, 0, 0) = (0, 0, -s) by simp [cross], h2, h3]
    · have c2' := Bool.eq_false_iff.2 c2
      simp only [c2', Bool.false_eq_true, if_false]
      have hc : c ≠ 0 := by
        rintro rfl
        have hs : s * s = 1 := by linarith [h1, sq s, (by ring : (0 : K) ^ 2 = 0)]
        rcases mul_self_eq_one_iff.1 hs with rfl | rfl
        · apply c1
          rw [vclose_iff]
          norm_num
        · apply c2
          rw [vclose_iff]
          norm_num
      obtain ⟨e, he, h2, h3⟩ := key c hc
      refine ⟨e, he, ?_⟩
      rw [show cross (c, s, (0 : K)) (0, 1, 0) = (0, 0, c) by simp [cross], h2, h3]

theorem frame_planar {root : K → K} (hr : SquareRoot root) {u v n : K} (hn : 0 < n) (h : n * n = u ^ 2 + v ^ 2) :
    ∃ e : K, (e = 1 ∨ e = -1) ∧
      pvFrame root (u, v, 0) = ((u / n, v / n, 0), (-e * (v / n), e * (u / n), 0), (0, 0, e)) := by
  refine frame_unit hr ?_ ?_
  · unfold unit
    have : u * u + v * v + 0 * 0 = n * n := by rw [h]; ring
    simp only [this, hr n, abs_of_pos hn, zero_div]
  · field_simp
    rw [← h]; ring

/-- The norm of a vector in a field with square roots. -/
theorem unit_norm {root : K → K} (hr : SquareRoot root) (hsq : ∀ a : K, 0 ≤ a → IsSquare a) (a : V3 K) (ha : 0 < dot3 a a) :
    ∃ n : K, 0 < n ∧ n * n = dot3 a a ∧ unit root a = (a.1 / n, a.2.1 / n, a.2.2 / n) ∧ dot3 (unit root a) (unit root a) = 1 := by
  obtain ⟨b, hb⟩ := hsq _ ha.le
  have hb0 : b ≠ 0 := by rintro rfl; rw [hb] at ha; simp at ha
  have hpos : 0 < |b| := abs_pos.2 hb0
  have hbb : |b| * |b| = dot3 a a := by rw [abs_mul_abs_self, hb]
  have hu : unit root a = (a.1 / |b|, a.2.1 / |b|, a.2.2 / |b|) := by
    unfold unit
    have : a.1 * a.1 + a.2.1 * a.2.1 + a.2.2 * a.2.2 = b * b := hb
    simp only [this, hr b]
  refine ⟨|b|, hpos, hbb, hu, ?_⟩
  rw [hu]
  unfold dot3
  have e : a.1 / |b| * (a.1 / |b|) + a.2.1 / |b| * (a.2.1 / |b|) + a.2.2 / |b| * (a.2.2 / |b|) = dot3 a a / (|b| * |b|) := by
    unfold dot3; field_simp
  simp only [e, hbb, div_self ha.ne']

/-- The frame is orthonormal, and its first vector is along the direction. -/
theorem frame_orthonormal {root : K → K} (hr : SquareRoot root) (hsq : ∀ a : K, 0 ≤ a → IsSquare a) (d : V3 K) (hd : 0 < dot3 d d) :
    ∃ (n : K) (x y z : V3 K), pvFrame root d = (x, y, z) ∧ 0 < n ∧ n * n = dot3 d d ∧
      x = (d.1 / n, d.2.1 / n, d.2.2 / n) ∧ dot3 x x = 1 ∧ dot3 y y = 1 ∧ dot3 z z = 1 ∧ dot3 x y = 0 ∧ dot3 y z = 0 ∧ dot3 x z = 0 ∧
      y = cross z x := by
  obtain ⟨n, hn, hnn, hu, h1⟩ := unit_norm hr hsq d hd
  rw [hu] at h1
  set x : V3 K := (d.1 / n, d.2.1 / n, d.2.2 / n) with hx
  set t : V3 K := if vclose x (0, 1, 0) then (-1, 0, 0) else if vclose x (0, -1, 0) then (1, 0, 0) else (0, 1, 0) with ht
  have hlag : dot3 (cross x t) (cross x t) = dot3 x x * dot3 t t - dot3 x t * dot3 x t := by unfold dot3 cross; ring
  have htt : dot3 t t = 1 := by rw [ht]; split_ifs <;> simp [dot3]
  have hlt : dot3 x t * dot3 x t < 1 := by
    have small : ∀ a : K, |a| ≤ 1 / 10 ^ 8 → a * a < 1 := by
      intro a ha
      have h2 : |a| * |a| ≤ 1 / 10 ^ 8 * (1 / 10 ^ 8) := mul_le_mul ha ha (abs_nonneg a) (by positivity)
      rw [abs_mul_abs_self] at h2
      exact lt_of_le_of_lt h2 (by norm_num)
    have hxs : x.1 * x.1 + x.2.1 * x.2.1 + x.2.2 * x.2.2 = 1 := h1
    by_cases c1 : vclose x (0, 1, 0) = true
    · have e : t = (-1, 0, 0) := by rw [ht, if_pos c1]
      have := ((vclose_iff _ _).1 c1).1
      simp only [sub_zero, abs_zero, mul_zero, add_zero] at this
      rw [e]; simpa [dot3] using small _ this
    · by_cases c2 : vclose x (0, -1, 0) = true
      · have e : t = (1, 0, 0) := by rw [ht, if_neg c1, if_pos c2]
        have := ((vclose_iff _ _).1 c2).1
        simp only [sub_zero, abs_zero, mul_zero, add_zero] at this
        rw [e]; simpa [dot3] using small _ this
      · have e : t = (0, 1, 0) := by rw [ht, if_neg c1, if_neg c2]
        have hle : x.2.1 * x.2.1 ≤ 1 := by nlinarith [mul_self_nonneg x.1, mul_self_nonneg x.2.2]
        rw [e]
        simp only [dot3, mul_zero, mul_one, zero_add, add_zero]
        rcases lt_or_eq_of_le hle with h | h
        · exact h
        · exfalso
          have ha : x.1 = 0 := by
            have := mul_self_nonneg x.1
            have := mul_self_nonneg x.2.2
            exact mul_self_eq_zero.1 (by linarith)
          have hb : x.2.2 = 0 := by
            have := mul_self_nonneg x.1
            have := mul_self_nonneg x.2.2
            exact mul_self_eq_zero.1 (by linarith)
          rcases mul_self_eq_one_iff.1 h with h | h
          · apply c1; rw [vclose_iff, ha, hb, h]; norm_num
          · apply c2; rw [vclose_iff, ha, hb, h]; norm_num
  have hpos : 0 < dot3 (cross x t) (cross x t) := by rw [hlag, h1, htt]; linarith
  obtain ⟨k, hk, hkk, hz, hz1⟩ := unit_norm hr hsq _ hpos
  set z := unit root (cross x t) with hzdef
  have hxz : dot3 x z = 0 := by
    rw [hz]
    unfold dot3 cross
    field_simp
    ring
  refine ⟨n, x, cross z x, z, ?_, hn, hnn, rfl, h1, ?_, hz1, ?_, ?_, hxz, rfl⟩
  · unfold pvFrame
    simp only [hu]
    rfl
  · have : dot3 (cross z x) (cross z x) = dot3 z z * dot3 x x - dot3 x z * dot3 x z := by unfold dot3 cross; ring
    rw [this, hz1, h1, hxz]; ring
  · unfold dot3 cross; ring
  · unfold dot3 cross; ring

/-! ### Lists -/

theorem mapE_ok {α β : Type} {f : α → Except Err β} {g : α → β} {l : List α} (h : ∀ a ∈ l, f a = .ok (g a)) :
    mapE f l = .ok (l.map g) := by
  induction l with
  | nil => rfl
  | cons a l ih =>
    rw [mapE, h a (by simp), ih (fun b hb => h b (by simp [hb]))]
    rfl

theorem flatten_get {α : Type} {L : List (List α)} {m : ℕ} (h : ∀ l ∈ L, l.length = m) {i k : ℕ} {l : List α} (hi : L[i]? = some l)
    (hk : k < m) : L.flatten[i * m + k]? = l[k]? := by
  induction L generalizing i with
  | nil => simp at hi
  | cons a L ih =>
    have ha := h a (by simp)
    rw [List.flatten_cons]
    rcases i with _ | i
    · simp at hi; subst hi
      rw [zero_mul, zero_add, List.getElem?_append_left (by omega)]
    · simp at hi
      rw [List.getElem?_append_right (by rw [ha, add_mul]; omega), ← ih (fun l hl => h l (by simp [hl])) hi]
      congr 1
      rw [ha, add_mul]; omega

theorem flatten_length {α : Type} {L : List (List α)} {m : ℕ} (h : ∀ l ∈ L, l.length = m) : L.flatten.length = L.length * m := by
  induction L with
  | nil => simp
  | cons a L ih =>
    rw [List.flatten_cons, List.length_append, ih (fun l hl => h l (by simp [hl])), h a (by simp), List.length_cons, add_mul]
    omega

/-- The points of fiber `i`. -/
def pointsOf (root : K → K) (cyl : List (V3 K)) (f : Fiber K) (i : ℕ) : List (VtkPoint K) :=
  vtkFiber root cyl f.l f.b f.h f.x f.y f.z f.u f.v f.w f.G f.E i

theorem pointsOf_length (root : K → K) (cyl : List (V3 K)) (f : Fiber K) (i : ℕ) : (pointsOf root cyl f i).length = cyl.length := by
  simp [pointsOf, vtkFiber]

theorem vtkMat_ok {α : Type} {root : K → K} {cyl : List (V3 K)} {func : ℕ → VtkPoint K → Except Err α} {g : ℕ → VtkPoint K → α}
    {mat : Mat K} (hc : matCheck mat.frame = .ok ())
    (hf : ∀ (i : ℕ) (f : Fiber K), mat.fibers[i]? = some f → ∀ p ∈ pointsOf root cyl f i, func i p = .ok (g i p)) :
    ∃ pts, vtkMat root cyl func mat = .ok pts ∧ pts.length = mat.fibers.length * cyl.length ∧
      ∀ (i : ℕ) (f : Fiber K) (k : ℕ), mat.fibers[i]? = some f → k < cyl.length →
        pts[i * cyl.length + k]? = ((pointsOf root cyl f i)[k]?).map (g i) := by
  have h1 : mapE (fun p : Fiber K × ℕ => mapE (func p.2)
      (vtkFiber root cyl p.1.l p.1.b p.1.h p.1.x p.1.y p.1.z p.1.u p.1.v p.1.w p.1.G p.1.E p.2)) mat.fibers.zipIdx =
      .ok (mat.fibers.zipIdx.map (fun p : Fiber K × ℕ => (pointsOf root cyl p.1 p.2).map (g p.2))) := by
    refine mapE_ok (g := fun p : Fiber K × ℕ => (pointsOf root cyl p.1 p.2).map (g p.2)) fun p hp => ?_
    have hp' := List.mem_zipIdx_iff_getElem?.1 hp
    exact mapE_ok (hf p.2 p.1 hp')
  have hlen : ∀ l ∈ mat.fibers.zipIdx.map (fun p : Fiber K × ℕ => (pointsOf root cyl p.1 p.2).map (g p.2)), l.length = cyl.length := by
    intro l hl
    obtain ⟨p, -, rfl⟩ := List.mem_map.1 hl
    rw [List.length_map, pointsOf_length]
  refine ⟨(mat.fibers.zipIdx.map (fun p : Fiber K × ℕ => (pointsOf root cyl p.1 p.2).map (g p.2))).flatten, ?_, ?_, ?_⟩
  · unfold vtkMat
    rw [hc]
    simp only [bind, Except.bind, h1, pure, Except.pure]
  · rw [flatten_length hlen]; simp
  · intro i f k hi hk
    rw [flatten_get hlen (l := (pointsOf root cyl f i).map (g i)) (by simp [hi]) hk, List.getElem?_map]

/-! ### The nodes of a fiber in a sorted mesh -/

/-- The labels of the nodes of a fiber are consecutive. -/
theorem filter_consecutive {rows : List (MeshRow K)} (hs : NodesSorted rows) (i : Int) (n : ℕ) :
    ∃ first, ((rows.zipIdx n).filter (fun q => q.1.fiber = i)).map (fun q => q.2) =
      (List.range ((rows.zipIdx n).filter (fun q => q.1.fiber = i)).length).map (fun k => first + k) := by
  induction rows generalizing n with
  | nil => exact ⟨0, by simp⟩
  | cons a rows ih =>
    obtain ⟨hlt, hs'⟩ := List.pairwise_cons.1 hs
    rw [List.zipIdx_cons]
    by_cases ha : a.fiber = i
    · refine ⟨n, ?_⟩
      -- the nodes that follow: a prefix of the rest
      have pre : ∀ (l : List (MeshRow K)) (c : ℕ), NodesSorted l → (∀ b ∈ l, i ≤ b.fiber) →
          ((l.zipIdx c).filter (fun q => q.1.fiber = i)).map (fun q => q.2) =
            (List.range ((l.zipIdx c).filter (fun q => q.1.fiber = i)).length).map (fun k => c + k) := by
        intro l
        induction l with
        | nil => intro c _ _; simp
        | cons b l ihl =>
          intro c hsl hle
          obtain ⟨hbl, hsl'⟩ := List.pairwise_cons.1 hsl
          rw [List.zipIdx_cons]
          by_cases hb : b.fiber = i
          · rw [List.filter_cons_of_pos (by simpa using hb), List.map_cons, ihl (c + 1) hsl' (fun x hx => hle x (by simp [hx])),
              List.length_cons, List.range_succ_eq_map, List.map_cons, List.map_map]
            simp only [add_zero, List.cons.injEq, true_and]
            apply List.map_congr_left
            intro k _
            simp only [Function.comp]; omega
          · have : (l.zipIdx (c + 1)).filter (fun q => decide (q.1.fiber = i)) = [] := by
              rw [List.filter_eq_nil_iff]
              intro q hq
              have hq' : q.1 ∈ l := List.mem_of_getElem? (List.mem_zipIdx_iff_le_and_getElem?_sub.1 hq).2
              have h1 := hle b (by simp)
              simp only [decide_eq_true_eq]
              rcases hbl _ hq' with h2 | ⟨h2, -⟩ <;> omega
            rw [List.filter_cons_of_neg (by simpa using hb), this]
            simp
      have hle : ∀ b ∈ rows, i ≤ b.fiber := by
        intro b hb
        rcases hlt b hb with h | ⟨h, -⟩ <;> omega
      rw [List.filter_cons_of_pos (by simpa using ha), List.map_cons, pre rows (n + 1) hs' hle, List.length_cons,
        List.range_succ_eq_map, List.map_cons, List.map_map]
      simp only [add_zero, List.cons.injEq, true_and]
      apply List.map_congr_left
      intro k _
      simp only [Function.comp]; omega
    · obtain ⟨first, h⟩ := ih hs' (n + 1)
      refine ⟨first, ?_⟩
      rw [List.filter_cons_of_neg (by simpa using ha)]
      exact h

end Fibermat
