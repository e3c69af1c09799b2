import Verif.Spec.Rounded
import Verif.Lemmas.Solver

/-! # Lemmas on the solver with rounded arithmetic -/

set_option linter.unusedSectionVars false
set_option linter.unusedSimpArgs false

namespace Fibermat
open Spec
variable {K : Type} [Field K] [LinearOrder K] [IsStrictOrderedRing K]

/-! ## Roundings -/

section
variable {fl : K → K} {u : K}

theorem Spec.Rounds.zero (h : Rounds fl u) : fl 0 = 0 := by
  have := h.err 0
  rw [abs_zero, mul_zero, sub_zero] at this
  exact abs_eq_zero.1 (le_antisymm this (abs_nonneg _))

theorem Spec.Rounds.le (h : Rounds fl u) (a : K) : |fl a| ≤ (1 + u) * |a| := by
  have h1 := h.err a
  have h2 : |fl a| ≤ |fl a - a| + |a| := by
    calc |fl a| = |(fl a - a) + a| := by rw [sub_add_cancel]
      _ ≤ _ := abs_add_le _ _
  linarith

theorem Spec.Rounds.nonneg (h : Rounds fl u) {a : K} (ha : 0 ≤ a) : 0 ≤ fl a := by
  have := h.mono 0 a ha
  rwa [h.zero] at this

theorem Spec.Rounds.nonpos (h : Rounds fl u) {a : K} (ha : a ≤ 0) : fl a ≤ 0 := by
  have := h.mono a 0 ha
  rwa [h.zero] at this

/-- Product by a sign, added to zero. -/
theorem Spec.Rounds.one (h : Rounds fl u) (h0 : 0 ≤ u) (hu : u ≤ 1 / 1000) {s x : K} (hs : |s| = 1) :
    |fl (0 + fl (s * x)) - s * x| ≤ 3 * u * |x| := by
  have e : |s * x| = |x| := by rw [abs_mul, hs, one_mul]
  have h1 := h.err (s * x)
  have h2 := h.err (0 + fl (s * x))
  have h3 := h.le (s * x)
  rw [zero_add] at h2 ⊢
  rw [e] at h1 h3
  have h4 : |fl (fl (s * x)) - s * x| ≤ |fl (fl (s * x)) - fl (s * x)| + |fl (s * x) - s * x| := abs_sub_le _ _ _
  have h5 : u * |fl (s * x)| ≤ u * (2 * |x|) := by
    apply mul_le_mul_of_nonneg_left _ h0
    nlinarith [abs_nonneg x]
  linarith

/-- Two products by signs. -/
theorem Spec.Rounds.two (h : Rounds fl u) (h0 : 0 ≤ u) (hu : u ≤ 1 / 1000) {s s' x y : K} (hs : |s| = 1) (hs' : |s'| = 1) :
    |fl (fl (0 + fl (s * x)) + fl (s' * y)) - (s * x + s' * y)| ≤ 5 * u * (|x| + |y|) := by
  have e : |s * x| = |x| := by rw [abs_mul, hs, one_mul]
  have e' : |s' * y| = |y| := by rw [abs_mul, hs', one_mul]
  have h1 := h.one h0 hu (x := x) hs
  have h2 := h.err (s' * y)
  rw [e'] at h2
  set a := fl (0 + fl (s * x)) with ha
  set b := fl (s' * y) with hb
  have h3 := h.err (a + b)
  have ux : 0 ≤ u * |x| := mul_nonneg h0 (abs_nonneg _)
  have uy : 0 ≤ u * |y| := mul_nonneg h0 (abs_nonneg _)
  have u3x : 3 * u * |x| ≤ |x| := by nlinarith [abs_nonneg x]
  have u1y : u * |y| ≤ |y| := by nlinarith [abs_nonneg y]
  have h4 : |a + b| ≤ 2 * |x| + 2 * |y| := by
    have a1 : |a| ≤ |a - s * x| + |s * x| := by
      calc |a| = |(a - s * x) + s * x| := by rw [sub_add_cancel]
        _ ≤ _ := abs_add_le _ _
    have b1 : |b| ≤ |b - s' * y| + |s' * y| := by
      calc |b| = |(b - s' * y) + s' * y| := by rw [sub_add_cancel]
        _ ≤ _ := abs_add_le _ _
    have := abs_add_le a b
    rw [e] at a1; rw [e'] at b1
    linarith
  have h5 : |fl (a + b) - (s * x + s' * y)| ≤ |fl (a + b) - (a + b)| + (|a - s * x| + |b - s' * y|) := by
    have e : fl (a + b) - (s * x + s' * y) = (fl (a + b) - (a + b)) + ((a - s * x) + (b - s' * y)) := by ring
    rw [e]
    exact (abs_add_le _ _).trans (add_le_add_right (abs_add_le _ _) _)
  have h6 : u * |a + b| ≤ u * (2 * |x| + 2 * |y|) := mul_le_mul_of_nonneg_left h4 h0
  nlinarith

end

/-! ## Products of rows -/

section
variable {S : Sys K} {A : Floats K} {u : K}

theorem Cell.round_fin (fl : K → K) (a : K) : (Cell.fin a).round fl = .fin (fl a) := rfl

theorem foldl_nan {α : Type} (f : α → Cell K) (fl : K → K) (l : List α) (acc : Cell K) (h : acc = .nan ∨ ∃ c ∈ l, f c = .nan) :
    l.foldl (fun acc c => (acc + (f c).round fl).round fl) acc = .nan := by
  induction l generalizing acc with
  | nil =>
    rcases h with h | ⟨c, hc, -⟩
    · exact h
    · simp at hc
  | cons a l ih =>
    rw [List.foldl_cons]
    apply ih
    rcases h with rfl | ⟨c, hc, hn⟩
    · left; cases f a <;> rfl
    · rcases List.mem_cons.1 hc with rfl | hc
      · left
        rw [hn]
        cases acc <;> rfl
      · exact Or.inr ⟨c, hc, hn⟩

theorem foldl_fin {α : Type} (f : α → Cell K) (fl : K → K) (l : List α) (acc : K) (h : ∀ c ∈ l, ∃ y, f c = .fin y) :
    ∃ z, l.foldl (fun acc c => (acc + (f c).round fl).round fl) (.fin acc) = .fin z := by
  induction l generalizing acc with
  | nil => exact ⟨acc, rfl⟩
  | cons a l ih =>
    obtain ⟨y, hy⟩ := h a (by simp)
    rw [List.foldl_cons, hy]
    exact ih _ (fun c hc => h c (by simp [hc]))

theorem dotR_fin {cs : List ℕ} {x : ℕ → K} {r : ℕ} (h : ∀ c ∈ cs, ∃ m, S.P r c = .fin m) : ∃ y, S.dotR A cs x r = .fin y := by
  unfold Sys.dotR
  apply foldl_fin (f := fun c => S.P r c * Cell.fin (x c))
  intro c hc
  obtain ⟨m, hm⟩ := h c (List.mem_filter.1 hc).1
  exact ⟨m * x c, by rw [hm, Cell.fin_mul_fin]⟩

theorem dotR_rigid {cs : List ℕ} {x : ℕ → K} {r : ℕ} (h : S.P r r = .pinf) (hr : r ∈ cs) (hx : x r = 0) :
    S.dotR A cs x r = .nan := by
  unfold Sys.dotR
  apply foldl_nan (f := fun c => S.P r c * Cell.fin (x c))
  right
  refine ⟨r, List.mem_filter.2 ⟨hr, by rw [h]; simp⟩, ?_⟩
  rw [h, hx]
  change Cell.mul _ _ = _
  simp [Cell.mul]

theorem short_list {l : List ℕ} (hn : l.Nodup) {a b : ℕ} (h : ∀ c ∈ l, c = a ∨ c = b) :
    l = [] ∨ l = [a] ∨ l = [b] ∨ l = [a, b] ∨ l = [b, a] := by
  match l, hn, h with
  | [], _, _ => exact Or.inl rfl
  | [c], _, h => rcases h c (by simp) with rfl | rfl <;> simp
  | [c, d], hn, h =>
    have hcd : c ≠ d := by
      intro e; subst e; simp at hn
    rcases h c (by simp) with rfl | rfl <;> rcases h d (by simp) with rfl | rfl <;> simp_all
  | c :: d :: e :: l, hn, h =>
    exfalso
    have h1 : c ≠ d := by intro e; subst e; simp at hn
    have h2 : c ≠ e := by intro e; subst e; simp at hn
    have h3 : d ≠ e := by intro e; subst e; simp at hn
    rcases h c (by simp) with rfl | rfl <;> rcases h d (by simp) with rfl | rfl <;> rcases h e (by simp) with rfl | rfl <;>
      simp_all

/-- Left side of constraint `d` of a connection. -/
def cval (d : ℕ) (a b : K) : K := if d = 0 then -a else if d = 1 then a - b else b

theorem dotR_contact (h : Rounds A.fl u) (h0 : 0 ≤ u) (hu : u ≤ 1 / 1000) {cs : List ℕ} (hn : cs.Nodup) {x : ℕ → K} {r d i j : ℕ}
    (hd : d < 3) (hP : ∀ c ∈ cs, S.P r c = .fin (coef d i j c)) (hx : ∀ c, c = 2 * i ∨ c = 2 * j → c ∉ cs → x c = 0) :
    ∃ y, S.dotR A cs x r = .fin y ∧ |y - cval d (x (2 * i)) (x (2 * j))| ≤ 5 * u * (|x (2 * i)| + |x (2 * j)|) := by
  have hF : cs.filter (fun c => decide (S.P r c ≠ .fin 0)) = cs.filter (fun c => decide (coef d i j c ≠ (0 : K))) := by
    apply List.filter_congr
    intro c hc
    rw [hP c hc, decide_eq_decide]
    simp
  have hin : ∀ c, c ∈ cs.filter (fun c => decide (coef d i j c ≠ (0 : K))) ↔ c ∈ cs ∧ coef d i j c ≠ (0 : K) := by
    intro c; simp
  have hnd := hn.filter (fun c => decide (coef d i j c ≠ (0 : K)))
  have hev : S.dotR A cs x r = (cs.filter (fun c => decide (coef d i j c ≠ (0 : K)))).foldl
      (fun acc c => (acc + (Cell.fin (coef d i j c * x c)).round A.fl).round A.fl) (.fin 0) := by
    unfold Sys.dotR
    rw [hF]
    apply List.foldl_ext
    intro acc c hc
    rw [hP c ((hin c).1 hc).1, Cell.fin_mul_fin]
  rw [hev]
  set F := cs.filter (fun c => decide (coef d i j c ≠ (0 : K))) with hFd
  have ux : ∀ a : K, 0 ≤ u * |a| := fun a => mul_nonneg h0 (abs_nonneg _)
  have hab : ∀ c ∈ F, c = 2 * i ∨ c = 2 * j := by
    intro c hc
    have := ((hin c).1 hc).2
    by_contra hcon
    push Not at hcon
    apply this
    simp [coef, hcon.1, hcon.2]
  have hout : ∀ c, coef d i j c ≠ (0 : K) → c ∉ F → x c = 0 := by
    intro c h1 h2
    apply hx
    · by_contra hcon
      push Not at hcon
      apply h1
      simp [coef, hcon.1, hcon.2]
    · intro h3
      exact h2 ((hin c).2 ⟨h3, h1⟩)
  have hpos : 0 ≤ 5 * u * (|x (2 * i)| + |x (2 * j)|) := by nlinarith [ux (x (2 * i)), ux (x (2 * j))]
  obtain rfl | rfl | rfl : d = 0 ∨ d = 1 ∨ d = 2 := by omega
  · -- floor
    have hall : ∀ c ∈ F, c = 2 * i := by
      intro c hc
      by_contra hcon
      exact ((hin c).1 hc).2 (by simp [coef, hcon])
    rcases short_list hnd (a := 2 * i) (b := 2 * i) (fun c hc => Or.inl (hall c hc)) with e | e | e | e | e
    · have := hout (2 * i) (by simp [coef]) (by rw [e]; simp)
      rw [e]
      exact ⟨0, rfl, by simpa [cval, this] using mul_nonneg (by linarith) (abs_nonneg _)⟩
    · rw [e]
      refine ⟨A.fl (0 + A.fl (-1 * x (2 * i))), by simp [Cell.round_fin, coef], ?_⟩
      have := h.one h0 hu (s := -1) (x := x (2 * i)) (by simp)
      simp only [cval, if_true]
      rw [show -x (2 * i) = -1 * x (2 * i) by ring]
      nlinarith [ux (x (2 * i)), ux (x (2 * j))]
    · rw [e]
      refine ⟨A.fl (0 + A.fl (-1 * x (2 * i))), by simp [Cell.round_fin, coef], ?_⟩
      have := h.one h0 hu (s := -1) (x := x (2 * i)) (by simp)
      simp only [cval, if_true]
      rw [show -x (2 * i) = -1 * x (2 * i) by ring]
      nlinarith [ux (x (2 * i)), ux (x (2 * j))]
    · rw [e] at hnd; simp at hnd
    · rw [e] at hnd; simp at hnd
  · by_cases hij : i = j
    · subst hij
      have : F = [] := by
        apply List.eq_nil_iff_forall_not_mem.2
        intro c hc
        exact ((hin c).1 hc).2 (by simp [coef])
      rw [this]
      exact ⟨0, rfl, by simpa [cval] using hpos⟩
    · have hne : 2 * i ≠ 2 * j := by omega
      have c1 : coef 1 i j (2 * i) = (1 : K) := by simp [coef, hne]
      have c2 : coef 1 i j (2 * j) = (-1 : K) := by simp [coef, hne.symm]
      rcases short_list hnd hab with e | e | e | e | e
      · have x1 := hout (2 * i) (by rw [c1]; simp) (by rw [e]; simp)
        have x2 := hout (2 * j) (by rw [c2]; simp) (by rw [e]; simp)
        rw [e]
        exact ⟨0, rfl, by simp [cval, x1, x2]⟩
      · have x2 := hout (2 * j) (by rw [c2]; simp) (by rw [e]; simpa using hne.symm)
        rw [e]
        refine ⟨A.fl (0 + A.fl (1 * x (2 * i))), by simp [Cell.round_fin, c1], ?_⟩
        have := h.one h0 hu (s := 1) (x := x (2 * i)) (by simp)
        simp only [cval, x2, sub_zero, if_true, one_ne_zero, if_false]
        rw [one_mul] at this ⊢
        nlinarith [ux (x (2 * i)), ux (0 : K)]
      · have x1 := hout (2 * i) (by rw [c1]; simp) (by rw [e]; simpa using hne)
        rw [e]
        refine ⟨A.fl (0 + A.fl (-1 * x (2 * j))), by simp [Cell.round_fin, c2], ?_⟩
        have := h.one h0 hu (s := -1) (x := x (2 * j)) (by simp)
        simp only [cval, x1, if_true, one_ne_zero, if_false]
        rw [show 0 - x (2 * j) = -1 * x (2 * j) by ring]
        nlinarith [ux (x (2 * j)), ux (0 : K)]
      · rw [e]
        refine ⟨A.fl (A.fl (0 + A.fl (1 * x (2 * i))) + A.fl (-1 * x (2 * j))), by simp [Cell.round_fin, c1, c2], ?_⟩
        have := h.two h0 hu (s := 1) (s' := -1) (x := x (2 * i)) (y := x (2 * j)) (by simp) (by simp)
        simp only [cval, if_true, one_ne_zero, if_false]
        rwa [show x (2 * i) - x (2 * j) = 1 * x (2 * i) + -1 * x (2 * j) by ring]
      · rw [e]
        refine ⟨A.fl (A.fl (0 + A.fl (-1 * x (2 * j))) + A.fl (1 * x (2 * i))), by simp [Cell.round_fin, c1, c2], ?_⟩
        have := h.two h0 hu (s := -1) (s' := 1) (x := x (2 * j)) (y := x (2 * i)) (by simp) (by simp)
        simp only [cval, if_true, one_ne_zero, if_false]
        rw [show x (2 * i) - x (2 * j) = -1 * x (2 * j) + 1 * x (2 * i) by ring, add_comm |x (2 * i)|]
        exact this
  · -- roof
    have hall : ∀ c ∈ F, c = 2 * j := by
      intro c hc
      by_contra hcon
      exact ((hin c).1 hc).2 (by simp [coef, hcon])
    rcases short_list hnd (a := 2 * j) (b := 2 * j) (fun c hc => Or.inl (hall c hc)) with e | e | e | e | e
    · have := hout (2 * j) (by simp [coef]) (by rw [e]; simp)
      rw [e]
      exact ⟨0, rfl, by simpa [cval, this] using mul_nonneg (by linarith) (abs_nonneg _)⟩
    · rw [e]
      refine ⟨A.fl (0 + A.fl (1 * x (2 * j))), by simp [Cell.round_fin, coef], ?_⟩
      have := h.one h0 hu (s := 1) (x := x (2 * j)) (by simp)
      simp only [cval]
      norm_num at this ⊢
      nlinarith [ux (x (2 * i)), ux (x (2 * j))]
    · rw [e]
      refine ⟨A.fl (0 + A.fl (1 * x (2 * j))), by simp [Cell.round_fin, coef], ?_⟩
      have := h.one h0 hu (s := 1) (x := x (2 * j)) (by simp)
      simp only [cval]
      norm_num at this ⊢
      nlinarith [ux (x (2 * i)), ux (x (2 * j))]
    · rw [e] at hnd; simp at hnd
    · rw [e] at hnd; simp at hnd

end

theorem cval_le (d : ℕ) (a b : K) : |cval d a b| ≤ |a| + |b| := by
  unfold cval
  split_ifs
  · rw [abs_neg]; linarith [abs_nonneg b]
  · exact abs_sub _ _
  · linarith [abs_nonneg a]

theorem Spec.Rounds.sub_err {fl : K → K} {u : K} (h : Rounds fl u) (h0 : 0 ≤ u) (hu : u ≤ 1 / 1000) {q y y0 X : K}
    (hy : |y - y0| ≤ 5 * u * X) (hX : |y0| ≤ X) : |fl (q - y) - (q - y0)| ≤ u * |q| + 7 * u * X := by
  have hX0 : 0 ≤ X := (abs_nonneg _).trans hX
  have h1 := h.err (q - y)
  have h2 : |y| ≤ 2 * X := by
    have : |y| ≤ |y - y0| + |y0| := by
      calc |y| = |(y - y0) + y0| := by rw [sub_add_cancel]
        _ ≤ _ := abs_add_le _ _
    nlinarith
  have h3 : |q - y| ≤ |q| + |y| := abs_sub _ _
  have h4 : |fl (q - y) - (q - y0)| ≤ |fl (q - y) - (q - y)| + |y - y0| := by
    have e : fl (q - y) - (q - y0) = (fl (q - y) - (q - y)) - (y - y0) := by ring
    rw [e]
    exact abs_sub _ _
  have h5 : u * |q - y| ≤ u * (|q| + 2 * X) := mul_le_mul_of_nonneg_left (by linarith) h0
  linarith

theorem Spec.Rounds.sub_err' {fl : K → K} {u : K} (h : Rounds fl u) (h0 : 0 ≤ u) (hu : u ≤ 1 / 1000) {q y y0 X : K}
    (hy : |y - y0| ≤ 5 * u * X) (hX : |y0| ≤ X) : |fl (y - q) - (y0 - q)| ≤ u * |q| + 7 * u * X := by
  have hX0 : 0 ≤ X := (abs_nonneg _).trans hX
  have h1 := h.err (y - q)
  have h2 : |y| ≤ 2 * X := by
    have : |y| ≤ |y - y0| + |y0| := by
      calc |y| = |(y - y0) + y0| := by rw [sub_add_cancel]
        _ ≤ _ := abs_add_le _ _
    nlinarith
  have h3 : |y - q| ≤ |y| + |q| := abs_sub _ _
  have h4 : |fl (y - q) - (y0 - q)| ≤ |fl (y - q) - (y - q)| + |y - y0| := by
    have e : fl (y - q) - (y0 - q) = (fl (y - q) - (y - q)) + (y - y0) := by ring
    rw [e]
    exact abs_add_le _ _
  have h5 : u * |y - q| ≤ u * (|q| + 2 * X) := mul_le_mul_of_nonneg_left (by linarith) h0
  linarith

theorem limit_arith {u q y0 D V v X W t E η : K} (hE : 0 ≤ E) (hη : 0 ≤ η * t) (uX : 0 ≤ u * X)
    (h1 : D - (q - y0) ≤ u * |q| + 7 * u * X) (h2 : t * v ≤ t * V + u * (t + 7 * (W * t))) (h3 : t * V ≤ (1 + u) * D)
    (h4 : u * D ≤ u * (2 * |q| + 2 * X)) :
    -(E + η * t + u * (3 * |q| + 10 * X + t + 7 * (W * t))) ≤ q - y0 - t * v := by
  linarith

theorem free_arith {u q y0 D V v X W t E η : K} (hE : 0 ≤ E) (hη : 0 ≤ η * t) (uX : 0 ≤ u * X) (uq : 0 ≤ u * |q|)
    (h1 : D - (q - y0) ≤ u * |q| + 7 * u * X) (h2 : t * v ≤ t * V + u * (t + 7 * (W * t))) (h3 : t * V ≤ 0) (h4 : 0 ≤ D) :
    -(E + η * t + u * (3 * |q| + 10 * X + t + 7 * (W * t))) ≤ q - y0 - t * v := by
  linarith

theorem active_arith {u q y0 v X W t E η : K} (uX : 0 ≤ u * X) (uq : 0 ≤ u * |q|)
    (h1 : -E ≤ q - y0) (h2 : t * v ≤ t * (η + (u + 7 * u * W))) :
    -(E + η * t + u * (3 * |q| + 10 * X + t + 7 * (W * t))) ≤ q - y0 - t * v := by
  linarith

/-! ## Steps -/

section
variable {S : Sys K} {A : Floats K} {u κ E0 B : K} {rigid : ℕ → Prop} {pairs : List (ℕ × ℕ)} {o : Opts K}

/-- What a step with rounding does. -/
structure SteppedR (S : Sys K) (A : Floats K) (u η : K) (rigid : ℕ → Prop) (pairs : List (ℕ × ℕ)) (a b : Rec K) (dx : ℕ → K)
    (t : K) : Prop where
  pos : 0 ≤ t
  x : ∀ c, b.x c = A.fl (a.x c + A.fl (dx c * -t))
  q : ∀ r, b.q r = (a.q r + .fin (A.fl (S.dq r * -t))).round A.fl
  Z : b.Z = A.fl (a.Z + -t)
  lam : b.rlambda = (Cell.fin S.Z0 / Cell.fin b.Z).round A.fl
  frozen : ∀ r, rigid r → dx r = 0
  row : ∀ k i j, pairs[k]? = some (i, j) → ∀ d, d < 3 → ¬ (d = 1 ∧ i = j) → ∀ q, a.q (S.nK + (3 * k + d)) = .fin q →
    ∀ E, 0 ≤ E → -E ≤ q - cval d (a.x (2 * i)) (a.x (2 * j)) →
    -(E + η * t + u * (3 * |q| + 10 * (|a.x (2 * i)| + |a.x (2 * j)|) + t + 7 * ((|dx (2 * i)| + |dx (2 * j)|) * t))) ≤
      q - cval d (a.x (2 * i)) (a.x (2 * j)) - t * ((if d = 2 then 1 else 0) - cval d (dx (2 * i)) (dx (2 * j)))

theorem directionR_zero {a : Rec K} {dx : ℕ → K} (hd : S.directionR A o a = some dx) {r : ℕ}
    (hr : S.activeR A o.tol a.x a.q r = false) : dx r = 0 := by
  unfold Sys.directionR at hd
  simp only [Option.map_eq_some_iff] at hd
  obtain ⟨sol, -, rfl⟩ := hd
  simp only
  rw [if_neg]
  intro hm
  have := (List.mem_filter.1 hm).2
  rw [hr] at this
  cases this

theorem Spec.Presses.not_active (h : Presses A.fl E0 B S rigid pairs) {x : ℕ → K} (q : ℕ → Cell K) {r : ℕ} (hr : rigid r)
    (hx : x r = 0) (tol : K) : S.residR A x q r = .nan ∧ S.activeR A tol x q r = false := by
  have e : S.residR A x q r = .nan := by
    unfold Sys.residR
    rw [dotR_rigid (h.diag r hr) (List.mem_range.2 (by have := h.lt r hr; unfold Sys.n; omega)) hx]
    cases q r <;> rfl
  exact ⟨e, by rw [Sys.activeR, e]; rfl⟩

theorem minCells_nonneg (hr : Rounds A.fl u) (htol : 0 ≤ o.tol) {a : Rec K} {dx : ℕ → K} {t : K}
    (hmc : minCells ((S.limitingR A o a (S.rateR A dx)).map (fun r => (S.residR A a.x a.q r / S.rateR A dx r).round A.fl)) = some t) :
    0 ≤ t := by
  obtain ⟨m1, m2⟩ := minCells_spec hmc
  have hlim : ∀ r, r ∈ S.limitingR A o a (S.rateR A dx) ↔ r < S.n ∧ Cell.lt (.fin o.tol) (S.residR A a.x a.q r) = true ∧
      Cell.lt (.fin 0) (S.rateR A dx r) = true := by
    intro r; simp [Sys.limitingR]
  obtain ⟨r0, hr0, e0⟩ := List.mem_map.1 m2
  obtain ⟨-, r2, r3⟩ := (hlim r0).1 hr0
  cases ed : S.residR A a.x a.q r0 with
  | fin d =>
    cases ev : S.rateR A dx r0 with
    | fin v =>
      rw [ed, Cell.lt_fin_iff] at r2
      rw [ev, Cell.lt_fin_iff] at r3
      rw [ed, ev, Cell.fin_div_fin r3.ne', Cell.round_fin, Cell.fin.injEq] at e0
      rw [← e0]
      exact hr.nonneg (div_nonneg (htol.trans r2.le) r3.le)
    | pinf =>
      rw [ed, ev] at e0
      change Cell.round A.fl (.fin 0) = _ at e0
      rw [Cell.round_fin, hr.zero, Cell.fin.injEq] at e0
      exact e0.le
    | ninf => rw [ev] at r3; cases r3
    | nan => rw [ev] at r3; cases r3
  | pinf =>
    cases ev : S.rateR A dx r0 with
    | fin v =>
      rw [ev, Cell.lt_fin_iff] at r3
      rw [ed, ev] at e0
      change Cell.round A.fl (Cell.div _ _) = _ at e0
      simp [Cell.div, r3.le, Cell.round] at e0
    | pinf => rw [ed, ev] at e0; cases e0
    | ninf => rw [ev] at r3; cases r3
    | nan => rw [ev] at r3; cases r3
  | ninf => rw [ed] at r2; cases r2
  | nan => rw [ed] at r2; cases r2

/-- The upper plate is moved down by a number. -/
theorem stepR_down (hr : Rounds A.fl u) (htol : 0 ≤ o.tol) {a b : Rec K} (hs : S.stepR A o a = .ok b) :
    ∃ t, 0 ≤ t ∧ b.Z = A.fl (a.Z + -t) ∧ b.rlambda = (Cell.fin S.Z0 / Cell.fin b.Z).round A.fl := by
  unfold Sys.stepR at hs
  cases hd : S.directionR A o a with
  | none =>
    rw [hd] at hs
    simp only at hs
    split_ifs at hs
  | some dx =>
    rw [hd] at hs
    simp only at hs
    split_ifs at hs with h1 h2
    cases hmc : minCells ((S.limitingR A o a (S.rateR A dx)).map (fun r => (S.residR A a.x a.q r / S.rateR A dx r).round A.fl)) with
    | none => rw [hmc] at hs; cases hs
    | some t =>
      rw [hmc] at hs
      simp only [Except.ok.injEq] at hs
      subst hs
      exact ⟨t, minCells_nonneg hr htol hmc, rfl, rfl⟩

theorem Spec.Presses.step (h : Presses A.fl E0 B S rigid pairs) (hr : Rounds A.fl u) (h0 : 0 ≤ u) (hu : u ≤ 1 / 1000)
    (hn : NormTest A.tooBig κ) (htol : 0 ≤ o.tol) (herr : 0 ≤ κ * o.errtol) {a b : Rec K} (hi : ∀ r, rigid r → a.x r = 0) (hs : S.stepR A o a = .ok b) :
    ∃ dx t, SteppedR S A u (κ * o.errtol) rigid pairs a b dx t := by
  unfold Sys.stepR at hs
  cases hd : S.directionR A o a with
  | none =>
    rw [hd] at hs
    simp only at hs
    split_ifs at hs
  | some dx =>
    rw [hd] at hs
    simp only at hs
    split_ifs at hs with h1 h2
    have hoff : ∀ r, S.activeR A o.tol a.x a.q r = false → dx r = 0 := fun r hr => directionR_zero hd hr
    have hact : ∀ r, S.activeR A o.tol a.x a.q r = true → ¬ rigid r := by
      intro r hr hg
      rw [(h.not_active a.q hg (hi r hg) o.tol).2] at hr; cases hr
    cases hmc : minCells ((S.limitingR A o a (S.rateR A dx)).map (fun r => (S.residR A a.x a.q r / S.rateR A dx r).round A.fl)) with
    | none => rw [hmc] at hs; cases hs
    | some t =>
      rw [hmc] at hs
      simp only [Except.ok.injEq] at hs
      obtain ⟨m1, m2⟩ := minCells_spec hmc
      have hlim : ∀ r, r ∈ S.limitingR A o a (S.rateR A dx) ↔ r < S.n ∧ Cell.lt (.fin o.tol) (S.residR A a.x a.q r) = true ∧
          Cell.lt (.fin 0) (S.rateR A dx r) = true := by
        intro r; simp [Sys.limitingR]
      -- the step is not negative
      have hpos : 0 ≤ t := minCells_nonneg hr htol hmc
      -- the computed residuals are numbers
      have hnum : ∀ r, S.activeR A o.tol a.x a.q r = true → ∃ g, (S.dotR A ((List.range S.n).filter (S.activeR A o.tol a.x a.q)) dx r
          - .fin (S.dq r)).round A.fl = Cell.fin g := by
        intro r hra
        obtain ⟨y, hy⟩ := dotR_fin (A := A) (S := S) (cs := (List.range S.n).filter (S.activeR A o.tol a.x a.q)) (x := dx) (r := r)
          (fun c _ => h.num r c (fun hh => hact r hra hh.1))
        exact ⟨_, by rw [hy, Cell.fin_sub_fin, Cell.round_fin]⟩
      choose! g hg using hnum
      have herrs : S.errsR A (S.activeR A o.tol a.x a.q) dx =
          (((List.range S.n).filter (S.activeR A o.tol a.x a.q)).map g).map Cell.fin := by
        unfold Sys.errsR
        rw [List.map_map]
        apply List.map_congr_left
        intro r hra
        exact hg r (List.mem_filter.1 hra).2
      have hsmall : ∀ r, r < S.n → S.activeR A o.tol a.x a.q r = true → |g r| ≤ κ * o.errtol := by
        intro r hrn hra
        refine hn o.errtol _ ?_ (g r) (List.mem_map_of_mem (List.mem_filter.2 ⟨List.mem_range.2 hrn, hra⟩))
        rw [← herrs]
        simpa using h2
      refine ⟨dx, t, ?_⟩
      subst hs
      refine ⟨hpos, fun _ => rfl, fun _ => rfl, rfl, rfl, fun r hg => hoff r (h.not_active a.q hg (hi r hg) o.tol).2, ?_⟩
      intro k i j hk d hd3 hself q hq E hE hgap
      have hkl := (List.getElem?_eq_some_iff.1 hk).1
      obtain ⟨hij, hjn⟩ := h.nodes _ (List.mem_of_getElem? hk)
      simp only at hij hjn
      have hrn : S.nK + (3 * k + d) < S.n := by unfold Sys.n; rw [h.size]; omega
      have hdq := h.rate k hkl d hd3
      have hPr := fun c hc => (h.entry k i j hk d hd3 c hc).1
      have hsn : S.nK ≤ S.n := by unfold Sys.n; omega
      -- the computed gap and rate
      obtain ⟨y, ey, hy⟩ := dotR_contact (S := S) (A := A) hr h0 hu (List.nodup_range (n := S.n)) (x := a.x)
        (r := S.nK + (3 * k + d)) hd3 (fun c hc => hPr c (List.mem_range.1 hc)) (by
          rintro c (rfl | rfl) hc <;> exact absurd (List.mem_range.2 (by omega)) hc)
      obtain ⟨w, ew, hw⟩ := dotR_contact (S := S) (A := A) hr h0 hu (List.nodup_range (n := S.n)) (x := dx)
        (r := S.nK + (3 * k + d)) hd3 (fun c hc => hPr c (List.mem_range.1 hc)) (by
          rintro c (rfl | rfl) hc <;> exact absurd (List.mem_range.2 (by omega)) hc)
      have ed : S.residR A a.x a.q (S.nK + (3 * k + d)) = .fin (A.fl (q - y)) := by
        rw [Sys.residR, ey, hq, Cell.fin_sub_fin, Cell.round_fin]
      have ev : S.rateR A dx (S.nK + (3 * k + d)) = .fin (A.fl (S.dq (S.nK + (3 * k + d)) - w)) := by
        rw [Sys.rateR, ew, Cell.fin_sub_fin, Cell.round_fin]
      have hdd := hr.sub_err h0 hu (q := q) hy (cval_le d _ _)
      have hvv := hr.sub_err h0 hu (q := S.dq (S.nK + (3 * k + d))) hw (cval_le d _ _)
      have hdq1 : |S.dq (S.nK + (3 * k + d))| ≤ 1 := by
        rw [hdq]; split_ifs <;> simp
      rw [← hdq]
      set dq := S.dq (S.nK + (3 * k + d)) with hdqd
      set X := |a.x (2 * i)| + |a.x (2 * j)| with hX
      set W := |dx (2 * i)| + |dx (2 * j)| with hW
      set y0 := cval d (a.x (2 * i)) (a.x (2 * j)) with hy0
      set w0 := cval d (dx (2 * i)) (dx (2 * j)) with hw0
      set D := A.fl (q - y) with hD
      set V := A.fl (dq - w) with hV
      have hX0 : 0 ≤ X := by positivity
      have hW0 : 0 ≤ W := by positivity
      have uq : 0 ≤ u * |q| := mul_nonneg h0 (abs_nonneg _)
      have uX : 0 ≤ u * X := mul_nonneg h0 hX0
      have uW : 0 ≤ u * W := mul_nonneg h0 hW0
      have hvv' : |V - (dq - w0)| ≤ u + 7 * u * W := by
        have : u * |dq| ≤ u * 1 := mul_le_mul_of_nonneg_left hdq1 h0
        linarith
      have hvt : t * |V - (dq - w0)| ≤ t * (u + 7 * u * W) := mul_le_mul_of_nonneg_left hvv' hpos
      have hsplit : t * (dq - w0) ≤ t * V + t * |V - (dq - w0)| := by
        have := neg_abs_le (V - (dq - w0))
        nlinarith [mul_nonneg hpos (by linarith : 0 ≤ V - (dq - w0) + |V - (dq - w0)|)]
      have herrt : t * (u + 7 * u * W) = u * (t + 7 * (W * t)) := by ring
      have hsum : t * (dq - w0) ≤ t * V + u * (t + 7 * (W * t)) := by rw [← herrt]; linarith
      have ha := abs_le.1 hdd
      have hηt : 0 ≤ κ * o.errtol * t := mul_nonneg herr hpos
      have hqy : |q - y0| ≤ |q| + X := (abs_sub _ _).trans (add_le_add_right (cval_le d _ _) _)
      have hDle : D ≤ 2 * |q| + 2 * X := by
        have := le_abs_self (q - y0)
        nlinarith [abs_nonneg q]
      rcases lt_or_ge o.tol D with hD1 | hD1
      · have hDu : u * D ≤ u * (2 * |q| + 2 * X) := mul_le_mul_of_nonneg_left hDle h0
        rcases lt_or_ge 0 V with hV1 | hV1
        · -- a limiting row
          have hm : S.nK + (3 * k + d) ∈ S.limitingR A o a (S.rateR A dx) := by
            rw [hlim, ed, ev, Cell.lt_fin_iff, Cell.lt_fin_iff]
            exact ⟨hrn, hD1, hV1⟩
          obtain ⟨z, e, hz⟩ := m1 _ (List.mem_map_of_mem hm)
          rw [ed, ev, Cell.fin_div_fin hV1.ne', Cell.round_fin, Cell.fin.injEq] at e
          have hD0 : 0 ≤ D := htol.trans hD1.le
          have h3 := hr.le (D / V)
          rw [abs_of_nonneg (div_nonneg hD0 hV1.le)] at h3
          have h4 : t ≤ (1 + u) * (D / V) := hz.trans ((le_abs_self z).trans (by rw [← e]; exact h3))
          have h5 : t * V ≤ (1 + u) * D := by
            have := mul_le_mul_of_nonneg_right h4 hV1.le
            rwa [mul_assoc, div_mul_cancel₀ _ hV1.ne'] at this
          exact limit_arith hE hηt uX ha.2 hsum h5 hDu
        · exact free_arith hE hηt uX uq ha.2 hsum (mul_nonpos_of_nonneg_of_nonpos hpos hV1) (htol.trans hD1.le)
      · -- an active row
        have hcol : Cell.lt (.fin 0) (S.colSum (S.nK + (3 * k + d))) = true := by
          have e : S.colSum (S.nK + (3 * k + d)) = .fin (∑ c ∈ Finset.range S.n, |coef d i j c|) := by
            unfold Sys.colSum
            apply cellSum_range
            intro c hc
            rw [(h.entry k i j hk d hd3 c hc).2]
            rfl
          rw [e, Cell.lt_fin_iff]
          apply Finset.sum_pos'
          · intro c _; exact abs_nonneg _
          · obtain rfl | rfl | rfl : d = 0 ∨ d = 1 ∨ d = 2 := by omega
            · exact ⟨2 * i, Finset.mem_range.2 (by omega), by simp [coef]⟩
            · have : 2 * i ≠ 2 * j := by have := fun e => hself ⟨rfl, e⟩; omega
              exact ⟨2 * i, Finset.mem_range.2 (by omega), by simp [coef, this]⟩
            · exact ⟨2 * j, Finset.mem_range.2 (by omega), by simp [coef]⟩
        have hra : S.activeR A o.tol a.x a.q (S.nK + (3 * k + d)) = true := by
          rw [Sys.activeR, ed, hcol, Bool.and_true, Cell.le_fin_iff]
          exact hD1
        have hg1 := hsmall _ hrn hra
        obtain ⟨w', ew', hw'⟩ := dotR_contact (S := S) (A := A) hr h0 hu
          ((List.nodup_range (n := S.n)).filter (S.activeR A o.tol a.x a.q)) (x := dx) (r := S.nK + (3 * k + d)) hd3
          (fun c hc => hPr c (List.mem_range.1 (List.mem_filter.1 hc).1)) (by
            intro c hc hcs
            apply hoff
            by_contra hcon
            apply hcs
            refine List.mem_filter.2 ⟨List.mem_range.2 ?_, by simpa using hcon⟩
            rcases hc with rfl | rfl <;> omega)
        have eg := hg _ hra
        rw [ew', Cell.fin_sub_fin, Cell.round_fin, Cell.fin.injEq] at eg
        have h6 := hr.sub_err' h0 hu (q := dq) hw' (cval_le d _ _)
        rw [eg] at h6
        have h7 : u * |dq| ≤ u * 1 := mul_le_mul_of_nonneg_left hdq1 h0
        have h8 : dq - w0 ≤ κ * o.errtol + (u + 7 * u * W) := by
          have a1 := (abs_le.1 h6).2
          have a2 := (abs_le.1 hg1).1
          linarith
        have h9 : t * (dq - w0) ≤ t * (κ * o.errtol + (u + 7 * u * W)) := mul_le_mul_of_nonneg_left h8 hpos
        exact active_arith uX uq hgap h9

/-! ## Runs -/

inductive ChainR (S : Sys K) (A : Floats K) (o : Opts K) : Rec K → List (Rec K) → Prop
  | nil (a) : ChainR S A o a []
  | cons {a b l} : S.stepR A o a = .ok b → ChainR S A o b l → ChainR S A o a (b :: l)

theorem loopR_chain (S : Sys K) (A : Floats K) (o : Opts K) (n : ℕ) (a : Rec K) : ChainR S A o a (S.loopR A o n a).1 := by
  induction n generalizing a with
  | zero => exact ChainR.nil a
  | succ n ih =>
    unfold Sys.loopR
    split_ifs with h
    · cases hs : S.stepR A o a with
      | error e => exact ChainR.nil a
      | ok b => exact ChainR.cons hs (ih b)
    · exact ChainR.nil a

theorem chainR_next {a : Rec K} {l : List (Rec K)} (h : ChainR S A o a l) {k : ℕ} {b c : Rec K}
    (hb : (a :: l)[k]? = some b) (hc : (a :: l)[k + 1]? = some c) : S.stepR A o b = .ok c := by
  induction h generalizing k with
  | nil a => simp at hc
  | cons h2 _ ih =>
    cases k with
    | zero =>
      simp only [List.getElem?_cons_zero, Option.some.injEq] at hb
      simp only [zero_add, List.getElem?_cons_succ, List.getElem?_cons_zero, Option.some.injEq] at hc
      subst hb hc
      exact h2
    | succ k =>
      exact ih (by simpa using hb) (by simpa using hc)

theorem runR_next {k : ℕ} {b c : Rec K} (hb : (S.runR A o).1[k]? = some b) (hc : (S.runR A o).1[k + 1]? = some c) :
    S.stepR A o b = .ok c :=
  chainR_next (loopR_chain S A o o.itermax (S.initR A o)) hb hc

/-- Induction along a history, with the number of steps made. -/
theorem runR_induction {p : ℕ → Rec K → Prop} (h0 : p 0 (S.initR A o)) {N : ℕ}
    (hs : ∀ n a b, n + 1 ≤ N → p n a → S.stepR A o a = .ok b → p (n + 1) b) {k : ℕ} (hk : k ≤ N) {a : Rec K}
    (ha : (S.runR A o).1[k]? = some a) : p k a := by
  induction k generalizing a with
  | zero =>
    have : (S.runR A o).1[0]? = some (S.initR A o) := rfl
    rw [this] at ha; cases ha; exact h0
  | succ k ih =>
    have hk' : k < (S.runR A o).1.length := by
      have := (List.getElem?_eq_some_iff.1 ha).1; omega
    have hb : (S.runR A o).1[k]? = some ((S.runR A o).1[k]) := List.getElem?_eq_getElem hk'
    exact hs k _ _ hk (ih (by omega) hb) (runR_next hb ha)

/-! ## Bounds for one connection -/

theorem Spec.Rounds.update {fl : K → K} (h : Rounds fl u) (h0 : 0 ≤ u) (hu : u ≤ 1 / 1000) (a c t : K) :
    |fl (a + fl (c * -t)) - (a - c * t)| ≤ u * |a| + 3 * u * |c * t| := by
  have h1 := h.err (c * -t)
  have h2 := h.err (a + fl (c * -t))
  have e : |c * -t| = |c * t| := by rw [mul_neg, abs_neg]
  rw [e] at h1
  have h3 := h.le (c * -t)
  rw [e] at h3
  have h4 : |a + fl (c * -t)| ≤ |a| + 2 * |c * t| := by
    have := abs_add_le a (fl (c * -t))
    nlinarith [abs_nonneg (c * t)]
  have h5 : |fl (a + fl (c * -t)) - (a - c * t)| ≤ |fl (a + fl (c * -t)) - (a + fl (c * -t))| + |fl (c * -t) - c * -t| := by
    have e : fl (a + fl (c * -t)) - (a - c * t) = (fl (a + fl (c * -t)) - (a + fl (c * -t))) + (fl (c * -t) - c * -t) := by ring
    rw [e]
    exact abs_add_le _ _
  have h6 := mul_le_mul_of_nonneg_left h4 h0
  linarith

theorem pair_bounds {E xi xj qf qp qr : K} (hE : 0 ≤ E) (hEB : E ≤ B) (h1 : qf ≤ B) (h2 : qp ≤ B) (h3 : qr ≤ B)
    (g0 : -E ≤ qf + xi) (g1 : -E ≤ qp - (xi - xj)) (g2 : -E ≤ qr - xj) :
    |xi| ≤ 4 * B ∧ |xj| ≤ 4 * B ∧ -(2 * B + 3 * E) ≤ qr := by
  refine ⟨abs_le.2 ⟨?_, ?_⟩, abs_le.2 ⟨?_, ?_⟩, ?_⟩ <;> linarith

/-- The step and the displacements stay of the size of the mat. -/
theorem pair_step_bounds {E η t xi xj di dj qf qp qr X W : K} (h0 : 0 ≤ u) (hu : u ≤ 1 / 1000) (hη0 : 0 ≤ η) (hη : η ≤ 1 / 100)
    (ht : 0 ≤ t) (hEB : E ≤ B) (hB : 0 ≤ B) (h1 : |qf| ≤ B) (h2 : |qp| ≤ B) (h3 : |qr| ≤ 5 * B) (h3' : qr ≤ B)
    (hX : X = |xi| + |xj|) (hW : W = |di| + |dj|) (hxi : |xi| ≤ 4 * B) (hxj : |xj| ≤ 4 * B)
    (r0 : -(E + η * t + u * (3 * |qf| + 10 * X + t + 7 * (W * t))) ≤ qf + xi - t * di)
    (r1 : -(E + η * t + u * (3 * |qp| + 10 * X + t + 7 * (W * t))) ≤ qp - (xi - xj) + t * (di - dj))
    (r2 : -(E + η * t + u * (3 * |qr| + 10 * X + t + 7 * (W * t))) ≤ qr - xj - t * (1 - dj)) :
    t ≤ 7 * B ∧ W * t ≤ 18 * B := by
  have hWt : W * t = |t * di| + |t * dj| := by
    rw [hW, abs_mul, abs_mul, abs_of_nonneg ht]; ring
  have hWt0 : 0 ≤ W * t := by rw [hWt]; positivity
  set w := W * t with hw
  set F := E + t / 100 + (95 * B + t + 7 * w) / 1000 with hF
  have k1 : η * t ≤ t / 100 := by nlinarith
  have k2 : ∀ q : K, |q| ≤ 5 * B → u * (3 * |q| + 10 * X + t + 7 * w) ≤ (95 * B + t + 7 * w) / 1000 := by
    intro q hq
    have hT : 3 * |q| + 10 * X + t + 7 * w ≤ 95 * B + t + 7 * w := by rw [hX]; linarith
    have hT0 : 0 ≤ 3 * |q| + 10 * X + t + 7 * w := by rw [hX]; positivity
    have := mul_le_mul hu hT hT0 (by norm_num)
    linarith
  have m0 := k2 qf (by linarith)
  have m1 := k2 qp (by linarith)
  have m2 := k2 qr h3
  have s0 : -F ≤ qf + xi - t * di := by linarith
  have s1 : -F ≤ qp - (xi - xj) + t * (di - dj) := by linarith
  have s2 : -F ≤ qr - xj - t * (1 - dj) := by linarith
  have b1 := (abs_le.1 h1).2
  have b2 := (abs_le.1 h2).2
  have a1 := abs_le.1 hxi
  have a2 := abs_le.1 hxj
  have d1 : |t * di| ≤ 6 * B + 2 * F := by
    rw [abs_le]; constructor <;> linarith
  have d2 : |t * dj| ≤ 6 * B + 2 * F := by
    rw [abs_le]; constructor <;> linarith
  have ht3 : t ≤ 3 * B + 3 * F := by linarith
  have hw4 : w ≤ 12 * B + 4 * F := by linarith
  constructor <;> linarith

/-- Gaps after the step. -/
theorem pair_step_gaps {E η t xi xj di dj qf qp qr X W xi' xj' qr' : K} (h0 : 0 ≤ u) (hB : 0 ≤ B)
    (ht : 0 ≤ t) (h1 : |qf| ≤ B) (h2 : |qp| ≤ B) (h3 : |qr| ≤ 5 * B)
    (hX : X = |xi| + |xj|) (hW : W = |di| + |dj|) (hxi : |xi| ≤ 4 * B) (hxj : |xj| ≤ 4 * B)
    (r0 : -(E + η * t + u * (3 * |qf| + 10 * X + t + 7 * (W * t))) ≤ qf + xi - t * di)
    (r1 : -(E + η * t + u * (3 * |qp| + 10 * X + t + 7 * (W * t))) ≤ qp - (xi - xj) + t * (di - dj))
    (r2 : -(E + η * t + u * (3 * |qr| + 10 * X + t + 7 * (W * t))) ≤ qr - xj - t * (1 - dj))
    (htB : t ≤ 7 * B) (hWB : W * t ≤ 18 * B)
    (ei : |xi' - (xi - di * t)| ≤ u * |xi| + 3 * u * |di * t|) (ej : |xj' - (xj - dj * t)| ≤ u * |xj| + 3 * u * |dj * t|)
    (er : |qr' - (qr - 1 * t)| ≤ u * |qr| + 3 * u * |1 * t|) :
    -(E + η * t + 320 * u * B) ≤ qf + xi' ∧ -(E + η * t + 320 * u * B) ≤ qp - (xi' - xj') ∧
    -(E + η * t + 320 * u * B) ≤ qr' - xj' ∧ |qr' - (qr - t)| ≤ 26 * u * B := by
  have hWt : W * t = |di * t| + |dj * t| := by
    rw [hW, abs_mul, abs_mul, abs_of_nonneg ht]; ring
  have uB : 0 ≤ u * B := mul_nonneg h0 hB
  have ei' : |xi' - (xi - di * t)| + |xj' - (xj - dj * t)| ≤ 62 * (u * B) := by
    have e1 : u * (|xi| + |xj|) ≤ u * (8 * B) := mul_le_mul_of_nonneg_left (by linarith) h0
    have e2 : u * (W * t) ≤ u * (18 * B) := mul_le_mul_of_nonneg_left hWB h0
    rw [hWt] at e2
    linarith
  have er' : |qr' - (qr - t)| ≤ 26 * (u * B) := by
    rw [one_mul, abs_of_nonneg ht] at er
    have e1 : u * |qr| ≤ u * (5 * B) := mul_le_mul_of_nonneg_left h3 h0
    have e2 : u * t ≤ u * (7 * B) := mul_le_mul_of_nonneg_left htB h0
    linarith
  have k2 : ∀ q : K, |q| ≤ 5 * B → u * (3 * |q| + 10 * X + t + 7 * (W * t)) ≤ 228 * (u * B) := by
    intro q hq
    have hT : 3 * |q| + 10 * X + t + 7 * (W * t) ≤ 228 * B := by rw [hX]; linarith
    have := mul_le_mul_of_nonneg_left hT h0
    linarith
  have m0 := k2 qf (by linarith)
  have m1 := k2 qp (by linarith)
  have m2 := k2 qr h3
  have a1 := abs_le.1 (le_refl |xi' - (xi - di * t)|)
  have a2 := abs_le.1 (le_refl |xj' - (xj - dj * t)|)
  have a3 := abs_le.1 er'
  have p1 := abs_nonneg (xi' - (xi - di * t))
  have p2 := abs_nonneg (xj' - (xj - dj * t))
  refine ⟨?_, ?_, ?_, by linarith⟩ <;> linarith

end

end Fibermat
