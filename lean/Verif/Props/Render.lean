import Verif.Spec.Render
import Verif.Model.Render
import Verif.Lemmas.Interp

/-! # C56-C57: rendered fields -/

set_option linter.unusedSectionVars false

namespace Fibermat
open Spec
variable {K : Type} [Field K] [LinearOrder K] [IsStrictOrderedRing K]

theorem pyGet_nat {α : Type} (a : List α) {k : ℕ} (hk : k < a.length) : pyGet a (k : ℤ) = .ok a[k] := by
  unfold pyGet
  rw [if_neg (by omega), if_neg (by omega : ¬ ((k : ℤ) < 0))]
  simp [hk]

/-- C56: whatever nearest neighbour the tree returns, a point inside the fiber gets the label of the node before it plus its
relative distance to that node. -/
theorem C56_locate {s : List K} (hs : s.Pairwise (· < ·)) (first : ℕ) {x : K} {k : ℕ} (hk : Nearest s x k)
    (h0 : s.getD 0 0 < x) (h1 : x ≤ s.getD (s.length - 1) 0) :
    ∃ (j : ℕ) (r : K), j + 1 < s.length ∧ s.getD j 0 < x ∧ x ≤ s.getD (j + 1) 0 ∧
      r = (x - s.getD j 0) / (s.getD (j + 1) 0 - s.getD j 0) ∧ 0 < r ∧ r ≤ 1 ∧
      nodeCoord s first x k = .ok (.fin (((first + j : ℕ) : K) + r)) := by
  obtain ⟨hkl, hnear⟩ := hk
  have hlt : ∀ a b, a < b → b < s.length → s.getD a 0 < s.getD b 0 := by
    intro a b hab hb
    have := List.pairwise_iff_getElem.1 hs a b (by omega) hb hab
    simpa [List.getD_eq_getElem?_getD, hb, (by omega : a < s.length)] using this
  -- evaluation of the model once the index is known
  have heval : ∀ j, j + 1 < s.length → correctIndex x (s.getD k 0) k = (j : ℤ) → nodeCoord s first x k =
      .ok (.fin (((first + j : ℕ) : K) + (x - s.getD j 0) / (s.getD (j + 1) 0 - s.getD j 0))) := by
    intro j hj hc
    have hd : s.getD (j + 1) 0 - s.getD j 0 ≠ 0 := (sub_pos.2 (hlt j (j + 1) (by omega) hj)).ne'
    have gk : s[k] = s.getD k 0 := by simp [List.getD_eq_getElem?_getD, hkl]
    have gj : s[j] = s.getD j 0 := by simp [List.getD_eq_getElem?_getD, (by omega : j < s.length)]
    have gj1 : s[j + 1] = s.getD (j + 1) 0 := by simp [List.getD_eq_getElem?_getD, hj]
    have hdiv : (Cell.fin (x - s.getD j 0) / Cell.fin (s.getD (j + 1) 0 - s.getD j 0) : Cell K) =
        .fin ((x - s.getD j 0) / (s.getD (j + 1) 0 - s.getD j 0)) := by
      show Cell.div _ _ = _
      simp only [Cell.div, hd, if_false]
    unfold nodeCoord
    rw [pyGet_nat s hkl]
    simp only [Bind.bind, Except.bind, gk]
    rw [hc, pyGet_nat s (by omega : j < s.length)]
    simp only
    rw [show ((j : ℤ) + 1) = ((j + 1 : ℕ) : ℤ) by push_cast; ring, pyGet_nat s hj]
    simp only [gj, gj1, hdiv]
    rw [pyGet_nat _ (by simpa using (by omega : j < s.length))]
    simp only [List.getElem_map, List.getElem_range, pure, Except.pure, Except.ok.injEq]
    rw [if_neg (by simp)]
    show Cell.add _ _ = _
    simp [Cell.add, add_comm]
  by_cases hx : s.getD k 0 < x
  · have hk1 : k + 1 < s.length := by
      by_contra hcon
      have : k = s.length - 1 := by omega
      rw [← this] at h1
      exact absurd hx (not_lt.2 h1)
    have hx1 : x ≤ s.getD (k + 1) 0 := by
      by_contra hcon
      have hcon := not_le.1 hcon
      have h2 := hnear (k + 1) hk1
      have h3 := hlt k (k + 1) (by omega) hk1
      rw [abs_of_nonpos (by linarith), abs_of_nonpos (by linarith)] at h2
      linarith
    have hd := sub_pos.2 (hlt k (k + 1) (by omega) hk1)
    refine ⟨k, _, hk1, hx, hx1, rfl, div_pos (by linarith) hd, (div_le_one hd).2 (by linarith), heval k hk1 ?_⟩
    simp only [correctIndex]; rw [if_pos hx]
  · have hx' := not_lt.1 hx
    have hk0 : 0 < k := by
      rcases Nat.eq_zero_or_pos k with rfl | h
      · exact absurd h0 hx
      · exact h
    obtain ⟨j, rfl⟩ : ∃ j, k = j + 1 := ⟨k - 1, by omega⟩
    have hxj : s.getD j 0 < x := by
      by_contra hcon
      have hcon := not_lt.1 hcon
      have h2 := hnear j (by omega)
      have h3 := hlt j (j + 1) (by omega) hkl
      rw [abs_of_nonneg (by linarith), abs_of_nonneg (by linarith)] at h2
      linarith
    have hd := sub_pos.2 (hlt j (j + 1) (by omega) hkl)
    refine ⟨j, _, hkl, hxj, hx', rfl, div_pos (by linarith) hd, (div_le_one hd).2 (by linarith), heval j hkl ?_⟩
    simp only [correctIndex]; rw [if_neg hx]; push_cast; ring

/-- Evaluation of the node coordinate between two nodes at the same place. -/
theorem nodeCoord_dup {s : List K} (first : ℕ) {x : K} {k j : ℕ} (hk : k < s.length) (hj : j + 1 < s.length)
    (hc : correctIndex x (s.getD k 0) k = (j : ℤ)) (hd : s.getD (j + 1) 0 = s.getD j 0) :
    nodeCoord s first x k = .ok (if s.getD j 0 < x then .fin ((first + j : ℕ) : K) else if x = s.getD j 0 then .nan else .ninf) := by
  have gk : s[k] = s.getD k 0 := by simp [List.getD_eq_getElem?_getD, hk]
  have gj : s[j] = s.getD j 0 := by simp [List.getD_eq_getElem?_getD, (by omega : j < s.length)]
  have gj1 : s[j + 1] = s.getD (j + 1) 0 := by simp [List.getD_eq_getElem?_getD, hj]
  have hdiv : (Cell.fin (x - s.getD j 0) / Cell.fin (s.getD (j + 1) 0 - s.getD j 0) : Cell K) =
      if s.getD j 0 < x then .pinf else if x = s.getD j 0 then .nan else .ninf := by
    show Cell.div _ _ = _
    simp only [Cell.div, hd, sub_self, if_true, sub_eq_zero, sub_pos]
    split_ifs with h1 h2 <;> first | rfl | (exfalso; subst h1; exact absurd ‹_› (lt_irrefl _))
  unfold nodeCoord
  rw [pyGet_nat s hk]
  simp only [Bind.bind, Except.bind, gk]
  rw [hc, pyGet_nat s (by omega : j < s.length)]
  simp only
  rw [show ((j : ℤ) + 1) = ((j + 1 : ℕ) : ℤ) by push_cast; ring, pyGet_nat s hj]
  simp only [gj, gj1, hdiv]
  rw [pyGet_nat _ (by simpa using (by omega : j < s.length))]
  simp only [List.getElem_map, List.getElem_range, pure, Except.pure, Except.ok.injEq]
  by_cases h1 : s.getD j 0 < x
  · simp only [if_pos h1, if_true]
    show Cell.add _ _ = _
    simp [Cell.add]
  · by_cases h2 : x = s.getD j 0
    · simp only [if_neg h1, if_pos h2, reduceCtorEq, if_false]
      rfl
    · simp only [if_neg h1, if_neg h2, reduceCtorEq, if_false]
      rfl

/-- C56: two nodes of the fiber at the same place, `x` being nearest to one of them (`k`). A point after them gets the label of the
first one if that is the answer of the tree (not the node before it, which is the second one); a point before them gets `-inf` and a
point at the same place NaN if the answer is the second one. -/
theorem C56_duplicate {s : List K} (first : ℕ) {x : K} {j : ℕ} (hj : j + 1 < s.length) (hd : s.getD (j + 1) 0 = s.getD j 0) :
    (s.getD j 0 < x → nodeCoord s first x j = .ok (.fin ((first + j : ℕ) : K))) ∧
      (x < s.getD j 0 → nodeCoord s first x (j + 1) = .ok .ninf) ∧
      (x = s.getD j 0 → nodeCoord s first x (j + 1) = .ok .nan) := by
  refine ⟨fun h => ?_, fun h => ?_, fun h => ?_⟩
  · rw [nodeCoord_dup first (by omega) hj (by simp only [correctIndex]; rw [if_pos h]) hd, if_pos h]
  · rw [nodeCoord_dup first hj hj (by simp only [correctIndex]; rw [if_neg (by rw [hd]; exact not_lt.2 h.le)]; push_cast; ring) hd,
      if_neg (not_lt.2 h.le), if_neg h.ne]
  · rw [nodeCoord_dup first hj hj (by simp only [correctIndex]; rw [if_neg (by rw [hd, h]; exact lt_irrefl _)]; push_cast; ring) hd,
      if_neg (by rw [h]; exact lt_irrefl _), if_pos h]

/-- C56: the points of the rendered fiber, whose abscissae are within the fiber, are shrunk strictly inside it. -/
theorem C56_shrunk {l X : K} (hl : 0 < l) (hX : |X| ≤ l / 2) : -(l / 2) < shrink X ∧ shrink X < l / 2 := by
  obtain ⟨h1, h2⟩ := abs_le.1 hX
  unfold shrink
  constructor
  · by_cases h : 0 ≤ X
    · have : 0 ≤ X * (9999 / 10000) := by positivity
      linarith
    · have h := not_le.1 h
      have e : X * (9999 / 10000) = X - X * (1 / 10000) := by ring
      have : X * (1 / 10000) < 0 := mul_neg_of_neg_of_pos h (by positivity)
      linarith
  · by_cases h : X ≤ 0
    · have : X * (9999 / 10000) ≤ 0 := mul_nonpos_of_nonpos_of_nonneg h (by positivity)
      linarith
    · have h := not_le.1 h
      have e : X * (9999 / 10000) = X - X * (1 / 10000) := by ring
      have : 0 < X * (1 / 10000) := by positivity
      linarith

/-- Position of the interval used by the spline. -/
theorem interval_count (m : ℕ) (t : K) : (List.range m).countP (fun (k : ℕ) => decide ((k : K) ≤ t)) ≤ m ∧
    ∀ k, k < m → ((k : K) ≤ t ↔ k < (List.range m).countP (fun (k : ℕ) => decide ((k : K) ≤ t))) := by
  have h := countP_range_down (p := fun (k : ℕ) => decide ((k : K) ≤ t)) (n := m) (by
    intro a b hab _ hb
    simp only [decide_eq_true_eq] at hb ⊢
    exact le_trans (by exact_mod_cast hab) hb)
  simpa using h

theorem interval_of {m j : ℕ} (hj : j + 1 < m) {t : K} (h0 : (j : K) ≤ t) (h1 : t < j + 1) : interval m t = j := by
  obtain ⟨h2, h3⟩ := interval_count m t
  have ha := (h3 j (by omega)).1 h0
  have hb : ¬ (j + 1 < (List.range m).countP (fun (k : ℕ) => decide ((k : K) ≤ t))) := by
    rw [← h3 (j + 1) hj]
    push_cast
    exact not_le.2 h1
  unfold interval
  omega

theorem interval_last {m : ℕ} (hm : 2 ≤ m) : interval m ((m - 1 : ℕ) : K) = m - 2 := by
  obtain ⟨h2, h3⟩ := interval_count m ((m - 1 : ℕ) : K)
  have ha := (h3 (m - 1) (by omega)).1 le_rfl
  unfold interval
  omega

/-- The spline between two nodes, ends included, is the cubic of these two nodes only. -/
theorem hermite_between (y d : List K) {j : ℕ} (hj : j + 1 < y.length) {r : K} (h0 : 0 ≤ r) (h1 : r ≤ 1) :
    hermite y d ((j : K) + r) = cubic (y.getD j 0) (y.getD (j + 1) 0) (d.getD j 0) (d.getD (j + 1) 0) r := by
  rcases lt_or_eq_of_le h1 with hlt | rfl
  · have := interval_of hj (t := (j : K) + r) (by linarith) (by linarith)
    unfold hermite cubic
    simp only [this]
    ring
  · by_cases hl : j + 2 < y.length
    · have := interval_of (j := j + 1) hl (t := (j : K) + 1) (by push_cast; exact le_rfl) (by push_cast; linarith)
      unfold hermite cubic
      simp only [this]
      push_cast
      ring
    · have hm : y.length = j + 2 := by omega
      have := interval_last (K := K) (m := j + 2) (by omega)
      simp only [Nat.add_sub_cancel, show j + 2 - 1 = j + 1 by omega] at this
      push_cast at this
      unfold hermite cubic
      simp only [hm, this]
      ring

/-- C56: the field at a point of a fiber is the cubic of the two nodes around it, both nodes of that fiber; other nodes do not
matter. -/
theorem C56_no_mixing {s : List K} (hs : s.Pairwise (· < ·)) {first : ℕ} {x : K} {k : ℕ} (hk : Nearest s x k)
    (h0 : s.getD 0 0 < x) (h1 : x ≤ s.getD (s.length - 1) 0) (y d : List K) (hfit : first + s.length ≤ y.length) :
    ∃ (j : ℕ) (t r : K), j + 1 < s.length ∧ s.getD j 0 < x ∧ x ≤ s.getD (j + 1) 0 ∧
      r = (x - s.getD j 0) / (s.getD (j + 1) 0 - s.getD j 0) ∧ nodeCoord s first x k = .ok (.fin t) ∧
      hermite y d t = cubic (y.getD (first + j) 0) (y.getD (first + j + 1) 0) (d.getD (first + j) 0)
        (d.getD (first + j + 1) 0) r := by
  obtain ⟨j, r, hj, ha, hb, hr, hr0, hr1, hc⟩ := C56_locate hs first hk h0 h1
  exact ⟨j, _, r, hj, ha, hb, hr, hc, hermite_between y d (by omega) hr0.le hr1⟩

/-- C57: at a node, the rendered displacement is the displacement of the node and its slope is the rotation of the node. -/
theorem C57_nodes (y d : List K) (hy : 2 ≤ y.length) {k : ℕ} (hk : k < y.length) :
    hermite y d (k : K) = y.getD k 0 ∧ hermiteDeriv y d (k : K) = d.getD k 0 := by
  by_cases hl : k + 1 < y.length
  · have := interval_of hl (t := (k : K)) le_rfl (by linarith)
    unfold hermite hermiteDeriv
    simp only [this]
    constructor <;> ring
  · obtain ⟨j, rfl⟩ : ∃ j, k = j + 1 := ⟨k - 1, by omega⟩
    have hm : y.length = j + 2 := by omega
    have := interval_last (K := K) (m := j + 2) (by omega)
    simp only [Nat.add_sub_cancel, show j + 2 - 1 = j + 1 by omega] at this
    unfold hermite hermiteDeriv
    simp only [hm, this]
    push_cast
    constructor <;> ring

/-- C57: the slope returned with the displacement is its derivative: between two nodes, it is the limit of difference quotients
(the error of the quotient is bounded by a multiple of the step). -/
theorem C57_slope (y d : List K) {j : ℕ} (hj : j + 1 < y.length) {r : K} (h0 : 0 ≤ r) (h1 : r < 1) :
    ∃ M, ∀ e : K, e ≠ 0 → 0 ≤ r + e → r + e < 1 →
      |(hermite y d ((j : K) + (r + e)) - hermite y d ((j : K) + r)) / e - hermiteDeriv y d ((j : K) + r)| ≤ M * |e| := by
  have i1 := interval_of hj (t := (j : K) + r) (by linarith) (by linarith)
  set a := d.getD j 0 + d.getD (j + 1) 0 - 2 * (y.getD (j + 1) 0 - y.getD j 0) with ha
  set b := 3 * (y.getD (j + 1) 0 - y.getD j 0) - 2 * d.getD j 0 - d.getD (j + 1) 0 with hb
  refine ⟨3 * |a| + |b| + |a|, ?_⟩
  intro e he hre0 hre1
  have i2 := interval_of hj (t := (j : K) + (r + e)) (by linarith) (by linarith)
  have hexp : (hermite y d ((j : K) + (r + e)) - hermite y d ((j : K) + r)) / e - hermiteDeriv y d ((j : K) + r)
      = (3 * a * r + b + a * e) * e := by
    unfold hermite hermiteDeriv
    simp only [i1, i2, add_sub_cancel_left, ← ha, ← hb]
    field_simp
    ring
  rw [hexp, abs_mul]
  apply mul_le_mul_of_nonneg_right _ (abs_nonneg e)
  have he1 : |e| ≤ 1 := by rw [abs_le]; constructor <;> linarith
  have hr1 : |r| ≤ 1 := by rw [abs_le]; constructor <;> linarith
  calc |3 * a * r + b + a * e| ≤ |3 * a * r| + |b| + |a * e| := by
        exact (abs_add_le _ _).trans (by gcongr; exact abs_add_le _ _)
    _ ≤ 3 * |a| + |b| + |a| := by
        rw [abs_mul, abs_mul, abs_mul, abs_of_nonneg (by norm_num : (0 : K) ≤ 3)]
        have h3 := mul_le_mul_of_nonneg_left hr1 (by positivity : 0 ≤ 3 * |a|)
        have h4 := mul_le_mul_of_nonneg_left he1 (abs_nonneg a)
        linarith

/-- C57: a uniform translation without rotation is rendered exactly, at every point. -/
theorem C57_translation (n : ℕ) (hn : 2 ≤ n) (c t : K) :
    hermite (List.replicate n c) (List.replicate n 0) t = c ∧
    hermiteDeriv (List.replicate n c) (List.replicate n 0) t = 0 := by
  have hi : interval n t + 1 < n := by unfold interval; omega
  have e1 : ∀ k, k < n → (List.replicate n c).getD k 0 = c := by
    intro k hk; simp [List.getD_eq_getElem?_getD, hk]
  have e2 : ∀ k, (List.replicate n (0 : K)).getD k 0 = 0 := by
    intro k
    by_cases hk : k < n <;> simp [List.getD_eq_getElem?_getD, hk]
  unfold hermite hermiteDeriv
  simp only [List.length_replicate, e1 _ hi, e1 _ (by omega : interval n t < n), e2]
  constructor <;> ring

/-! ### Non-vacuity -/

/-- C56: four nodes from label 7; a point between the second and the third; both nearest neighbours of a midpoint. -/
example : nodeCoord [-(5 : ℚ), 0, 2, 5] 7 (1 / 2) 1 = .ok (.fin (8 + 1 / 4)) := by decide +kernel
example : nodeCoord [-(5 : ℚ), 0, 2, 5] 7 1 1 = .ok (.fin (8 + 1 / 2)) := by decide +kernel
example : nodeCoord [-(5 : ℚ), 0, 2, 5] 7 1 2 = .ok (.fin (8 + 1 / 2)) := by decide +kernel
example : ([-5, 0, 2, 5] : List ℚ).Pairwise (· < ·) := by decide +kernel
example : Nearest [-(5 : ℚ), 0, 2, 5] 1 1 ∧ Nearest [-(5 : ℚ), 0, 2, 5] 1 2 := by
  refine ⟨⟨by simp, ?_⟩, ⟨by simp, ?_⟩⟩ <;>
  · intro j hj
    simp only [List.length_cons, List.length_nil] at hj
    rcases (by omega : j = 0 ∨ j = 1 ∨ j = 2 ∨ j = 3) with rfl | rfl | rfl | rfl <;> norm_num [List.getD]
/-- With two nodes at the same place (periodic meshes), a point just before them may get an infinite coordinate, depending on
which of the two the tree returns; a point just after them may get the wrong beam. -/
example : nodeCoord [-(5 : ℚ), 0, 0, 5] 7 1 1 = .ok (.fin 8) ∧ nodeCoord [-(5 : ℚ), 0, 0, 5] 7 1 2 = .ok (.fin (9 + 1 / 5)) := by
  decide +kernel
example : nodeCoord [-(5 : ℚ), 0, 0, 5] 7 (-1) 2 = .ok .ninf ∧ nodeCoord [-(5 : ℚ), 0, 0, 5] 7 (-1) 1 = .ok (.fin (7 + 4 / 5)) := by
  decide +kernel
/-- C57 -/
example : hermite [(1 : ℚ), 3, 2] [0, 1, 5] 1 = 3 ∧ hermiteDeriv [(1 : ℚ), 3, 2] [0, 1, 5] 2 = 5 := by decide +kernel

end Fibermat
