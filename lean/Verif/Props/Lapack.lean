import Verif.Lemmas.Lapack
import Verif.Lemmas.Elimination
import Verif.Props.RoundedNet

/-! # C93: linear algebra of numpy for the normal equations -/

namespace Fibermat
open Spec
set_option linter.unusedSectionVars false
variable {K : Type} [Field K] [LinearOrder K] [IsStrictOrderedRing K]

theorem dot3R_id (a b : K × K × K) : dot3R id a b = a.1 * b.1 + a.2.1 * b.2.1 + a.2.2 * b.2.2 := rfl

theorem lastPivotR_id {a b c d : K} (ha : a ≠ 0) : lastPivotR id a b c d = (a * d - b * c) / a := by
  simp only [lastPivotR, id_eq]
  field_simp

theorem elimR_id {a b c d p q : K} (ha : a ≠ 0) :
    elimR id a b c d p q = if a * d - b * c ≠ 0 then some ((d * p - b * q) / (a * d - b * c), (a * q - c * p) / (a * d - b * c)) else none := by
  unfold elimR
  rw [if_neg ha, lastPivotR_id ha]
  by_cases h : a * d - b * c = 0
  · simp [h]
  · rw [if_neg (div_ne_zero h ha), if_pos h]
    simp only [id_eq, Option.some.injEq, Prod.mk.injEq]
    have hy : (q - c * (1 / a) * p) / ((a * d - b * c) / a) = (a * q - c * p) / (a * d - b * c) := by
      field_simp
    rw [hy]
    refine ⟨?_, rfl⟩
    rw [div_eq_div_iff ha h]
    field_simp
    ring

/-- C93: without rounding, the elimination gives Cramer's formulas. -/
theorem C93_exact (f g : Fiber K) : lapack id f g = NetArith.exact.sol f g := by
  have hc : dot3R id (g.u, g.v, g.w) (f.u, f.v, f.w) = dotU f g := by simp only [dot3R_id, dotU]; ring
  have hb : dot3R id (f.u, f.v, f.w) (g.u, g.v, g.w) = dotU f g := by simp only [dot3R_id, dotU]
  have ha : dot3R id (f.u, f.v, f.w) (f.u, f.v, f.w) = dotU f f := by simp only [dot3R_id, dotU]
  have hd : dot3R id (g.u, g.v, g.w) (g.u, g.v, g.w) = dotU g g := by simp only [dot3R_id, dotU]
  have hp : dot3R id (f.u, f.v, f.w) (id (g.x - f.x), id (g.y - f.y), id (g.z - f.z)) = dotR f f g := by simp only [dot3R_id, dotR, id_eq]
  have hq : dot3R id (g.u, g.v, g.w) (id (g.x - f.x), id (g.y - f.y), id (g.z - f.z)) = dotR g f g := by simp only [dot3R_id, dotR, id_eq]
  have hgf : dotU g f = dotU f g := by unfold dotU; ring
  simp only [lapack, ha, hb, hc, hd, hp, hq, NetArith.exact, detU, hgf]
  split_ifs with h1 h2 h2
  · have hne : dotU f g ≠ 0 := by
      intro h; rw [h, abs_zero] at h1; exact absurd h1 (not_lt.2 (abs_nonneg _))
    have h3 : dotU f g * dotU f g - dotU g g * dotU f f ≠ 0 := fun h => h2 (by linear_combination -h)
    rw [elimR_id hne, if_pos h3]
    simp only [Option.some.injEq, Prod.mk.injEq]
    constructor <;> rw [div_eq_div_iff h3 h2] <;> ring
  · have hne : dotU f g ≠ 0 := by
      intro h; rw [h, abs_zero] at h1; exact absurd h1 (not_lt.2 (abs_nonneg _))
    rw [elimR_id hne, if_neg]
    push Not at h2 ⊢
    linear_combination -h2
  · by_cases hz : dotU f f = 0
    · exfalso
      apply h2
      rw [hz, abs_zero] at h1
      have : dotU f g = 0 := abs_eq_zero.1 (le_antisymm (not_lt.1 h1) (abs_nonneg _))
      rw [hz, this]; ring
    · rw [elimR_id hz, if_pos h2]
  · by_cases hz : dotU f f = 0
    · simp [elimR, hz]
    · rw [elimR_id hz, if_neg h2]

/-- C93: heights of horizontal fibers do not matter. -/
theorem C93_heights {fl : K → K} (h0 : fl 0 = 0) (closer : K → K → K → Bool) : IgnoresHeights (⟨fl, closer, lapack fl⟩ : NetArith K) := by
  intro f g hf hg z z'
  simp only [lapack, dot3R, hf, hg, zero_mul, mul_zero, h0]

/-- Elimination for twice the same direction: the last pivot is zero if the reciprocal is exact enough. -/
theorem C93_self {fl : K → K} {u : K} (hr : Rounds fl u) {e f g : Fiber K} (hf : SameDir f e) (hg : SameDir g e)
    (h1 : fl (dot3R fl (e.u, e.v, e.w) (e.u, e.v, e.w) * fl (1 / dot3R fl (e.u, e.v, e.w) (e.u, e.v, e.w))) = 1) : lapack fl f g = none := by
  obtain ⟨a1, a2, a3⟩ := hf
  obtain ⟨b1, b2, b3⟩ := hg
  simp only [lapack, a1, a2, a3, b1, b2, b3, lt_irrefl, if_false, elimR, lastPivotR]
  set d := dot3R fl (e.u, e.v, e.w) (e.u, e.v, e.w) with hd
  have hdf : fl d = d := by rw [hd]; exact hr.idem _
  rw [h1, one_mul, hdf, sub_self, hr.zero]
  simp

/-- Error of a sum of three products. -/
theorem dot3R_near {fl : K → K} {u : K} (hr : Rounds fl u) (hu : u ≤ 1 / 4) (a b c x y z : K) :
    |dot3R fl (a, b, c) (x, y, z) - (a * x + b * y + c * z)| ≤ 4 * u * (|a * x| + |b * y| + |c * z|) := by
  have hu0 := hr.u_nonneg
  have key : ∀ x y e v : K, |y| ≤ e → |x - y| ≤ v * e → |fl x - y| ≤ (v + u + u * v) * e := by
    intro x y e v he h
    refine (fl_near hr h he).trans (le_of_eq ?_)
    ring
  have add : ∀ x y X Y e e' v : K, |x - X| ≤ v * e → |y - Y| ≤ v * e' → |x + y - (X + Y)| ≤ v * (e + e') := by
    intro x y X Y e e' v h1 h2
    calc |x + y - (X + Y)| = |(x - X) + (y - Y)| := by ring_nf
      _ ≤ |x - X| + |y - Y| := abs_add_le _ _
      _ ≤ _ := by linarith
  have hab : |a * x + b * y| ≤ |a * x| + |b * y| := abs_add_le _ _
  have habc : |a * x + b * y + c * z| ≤ |a * x| + |b * y| + |c * z| := (abs_add_le _ _).trans (by linarith)
  have h1 := key _ _ _ u hab (add _ _ _ _ _ _ u (hr.err (a * x)) (hr.err (b * y)))
  have hc : |fl (c * z) - c * z| ≤ (u + u + u * u) * |c * z| := by
    refine (hr.err (c * z)).trans (mul_le_mul_of_nonneg_right ?_ (abs_nonneg _))
    nlinarith
  have h2 := key _ _ _ (u + u + u * u) habc (add _ _ _ _ _ _ _ h1 hc)
  refine h2.trans (mul_le_mul_of_nonneg_right ?_ (by positivity))
  nlinarith [mul_nonneg hu0 hu0]

/-- Error of a sum of squares. -/
theorem dot3R_sq {fl : K → K} {u : K} (hr : Rounds fl u) (hu : u ≤ 1 / 4) (a b c : K) :
    |dot3R fl (a, b, c) (a, b, c) - (a ^ 2 + b ^ 2 + c ^ 2)| ≤ 4 * u * (a ^ 2 + b ^ 2 + c ^ 2) := by
  have := dot3R_near hr hu a b c a b c
  simpa only [← pow_two, abs_sq] using this

/-- C93: with binary arithmetic, the determinant of a fiber with itself is found to be zero when the norm of the direction is close
enough to one. -/
theorem C93_ends [FloorRing K] {n : ℕ} (hn : 3 ≤ n) (closer : K → K → K → Bool) {m : Mat K} {τ : K}
    (hdir : ∀ e ∈ m.fibers, |e.u ^ 2 + e.v ^ 2 + e.w ^ 2 - 1| ≤ τ)
    (hsmall : (τ + 4 / 2 ^ (n + 1) * (1 + τ)) ^ 2 ≤ 1 / (4 * 2 ^ n)) :
    FindsEnds (⟨binary (n + 1), closer, lapack (binary (n + 1))⟩ : NetArith K) m := by
  intro e he f g hf hg
  have hr : Rounds (binary (K := K) (n + 1)) (1 / 2 ^ (n + 1)) := binary_rounds (by omega)
  refine C93_self hr hf hg ?_
  set d := dot3R (binary (n + 1)) (e.u, e.v, e.w) (e.u, e.v, e.w) with hd
  have hdf : binary (n + 1) d = d := by rw [hd]; exact hr.idem _
  refine recip_one hn hdf ?_
  refine le_trans ?_ hsmall
  have h16 : (16 : K) ≤ 2 ^ (n + 1) := by
    calc (16 : K) = 2 ^ 4 := by norm_num
      _ ≤ 2 ^ (n + 1) := pow_le_pow_right₀ (by norm_num) (by omega)
  have hu : (1 : K) / 2 ^ (n + 1) ≤ 1 / 4 := by
    apply one_div_le_one_div_of_le (by norm_num); linarith
  have h1 := dot3R_sq hr hu e.u e.v e.w
  have h2 := hdir e he
  have h3 : e.u ^ 2 + e.v ^ 2 + e.w ^ 2 ≤ 1 + τ := by linarith [(abs_le.1 h2).2]
  have h4 : |d - 1| ≤ τ + 4 / 2 ^ (n + 1) * (1 + τ) := by
    calc |d - 1| = |(d - (e.u ^ 2 + e.v ^ 2 + e.w ^ 2)) + (e.u ^ 2 + e.v ^ 2 + e.w ^ 2 - 1)| := by ring_nf
      _ ≤ |d - (e.u ^ 2 + e.v ^ 2 + e.w ^ 2)| + |e.u ^ 2 + e.v ^ 2 + e.w ^ 2 - 1| := abs_add_le _ _
      _ ≤ 4 * (1 / 2 ^ (n + 1)) * (1 + τ) + τ :=
        add_le_add (h1.trans (mul_le_mul_of_nonneg_left h3 (by positivity))) h2
      _ = _ := by ring
  exact sq_le_sq' (by linarith [(abs_le.1 h4).1]) (by linarith [(abs_le.1 h4).2])

section
variable {fl : K → K} {u : K}

/-- Error of a right side of the normal equations. -/
theorem side_near (hr : Rounds fl u) (hu : u ≤ 1 / 1000) {α β x y z P : K} (hP : |α * x| + |β * y| ≤ P) :
    |dot3R fl (α, β, 0) (fl x, fl y, fl z) - (α * x + β * y)| ≤ 6 * u * P := by
  have hu0 := hr.u_nonneg
  have h1 := dot3R_near hr (by linarith) α β 0 (fl x) (fl y) (fl z)
  rw [zero_mul, abs_zero, add_zero, add_zero] at h1
  have one : ∀ α x : K, |α * fl x - α * x| ≤ u * |α * x| := by
    intro α x
    rw [← mul_sub, abs_mul, abs_mul]
    calc |α| * |fl x - x| ≤ |α| * (u * |x|) := mul_le_mul_of_nonneg_left (hr.err x) (abs_nonneg _)
      _ = _ := by ring
  have ha := one α x
  have hb := one β y
  have ha' := abs_near ha le_rfl
  have hb' := abs_near hb le_rfl
  have hs0 : 0 ≤ |α * x| + |β * y| := by positivity
  have h2 : |(α * fl x + β * fl y) - (α * x + β * y)| ≤ u * (|α * x| + |β * y|) := by
    calc |(α * fl x + β * fl y) - (α * x + β * y)| = |(α * fl x - α * x) + (β * fl y - β * y)| := by ring_nf
      _ ≤ |α * fl x - α * x| + |β * fl y - β * y| := abs_add_le _ _
      _ ≤ _ := by linarith
  have h3 : |α * fl x| + |β * fl y| ≤ (1 + u) * (|α * x| + |β * y|) := by linarith
  have h4 := near_trans (h1.trans (mul_le_mul_of_nonneg_left h3 (by positivity))) h2
  refine h4.trans ?_
  have h5 : 4 * u * ((1 + u) * (|α * x| + |β * y|)) + u * (|α * x| + |β * y|) = u * ((5 + 4 * u) * (|α * x| + |β * y|)) := by ring
  rw [h5]
  have h6 : (5 + 4 * u) * (|α * x| + |β * y|) ≤ 6 * P := by
    calc (5 + 4 * u) * (|α * x| + |β * y|) ≤ 6 * (|α * x| + |β * y|) := mul_le_mul_of_nonneg_right (by linarith) hs0
      _ ≤ 6 * P := by linarith
  calc u * ((5 + 4 * u) * (|α * x| + |β * y|)) ≤ u * (6 * P) := mul_le_mul_of_nonneg_left h6 hu0
    _ = _ := by ring

theorem gram_le {a b c d : K} (h1 : a ^ 2 + b ^ 2 ≤ 1001 / 1000) (h2 : c ^ 2 + d ^ 2 ≤ 1001 / 1000) : |a * c| + |b * d| ≤ 1001 / 1000 := by
  have e1 := two_mul_le_add_sq |a| |c|
  have e2 := two_mul_le_add_sq |b| |d|
  rw [sq_abs, sq_abs] at e1 e2
  rw [abs_mul, abs_mul]
  linarith

theorem gram_near (hr : Rounds fl u) (hu : u ≤ 1 / 1000) {a b c d : K} (h1 : a ^ 2 + b ^ 2 ≤ 1001 / 1000) (h2 : c ^ 2 + d ^ 2 ≤ 1001 / 1000) :
    |dot3R fl (a, b, 0) (c, d, 0) - (a * c + b * d)| ≤ 5 * u := by
  have hu0 := hr.u_nonneg
  have h3 := dot3R_near hr (by linarith) a b 0 c d 0
  rw [mul_zero, abs_zero, add_zero, add_zero] at h3
  have h4 := mul_le_mul_of_nonneg_left (gram_le h1 h2) (show 0 ≤ 4 * u by linarith)
  linarith

theorem cross_side {α β a b c d s t : K} (h0 : α ^ 2 + β ^ 2 ≤ 1001 / 1000) (h1 : a ^ 2 + b ^ 2 ≤ 1001 / 1000)
    (h2 : c ^ 2 + d ^ 2 ≤ 1001 / 1000) : |α * (s * a - t * c)| + |β * (s * b - t * d)| ≤ 1001 / 1000 * (|s| + |t|) := by
  have e1 := mul_le_mul_of_nonneg_left (gram_le h0 h1) (abs_nonneg s)
  have e2 := mul_le_mul_of_nonneg_left (gram_le h0 h2) (abs_nonneg t)
  have one : ∀ α a c : K, |α * (s * a - t * c)| ≤ |s| * |α * a| + |t| * |α * c| := by
    intro α a c
    calc |α * (s * a - t * c)| = |s * (α * a) - t * (α * c)| := by ring_nf
      _ ≤ |s * (α * a)| + |t * (α * c)| := abs_sub _ _
      _ = _ := by rw [abs_mul s, abs_mul t]
  have e3 := one α a c
  have e4 := one β b d
  linarith

/-- The abscissae of a crossing, computed by elimination. -/
theorem lapack_solves (hr : Rounds fl u) (hu : u ≤ 1 / 1000) {f g : Fiber K} {s t δ : K} (nf : NearUnitDir f) (ng : NearUnitDir g)
    (hc : LinesMeet f g s t) (hδ : 0 < δ) (hδu : 100 * u ≤ δ) (hD : δ ≤ (f.u * g.v - f.v * g.u) ^ 2) :
    ∃ R, lapack fl f g = some R ∧ |R.1 - s| ≤ 505 * u * (|s| + |t|) / δ ^ 2 ∧ |R.2 + t| ≤ 505 * u * (|s| + |t|) / δ ^ 2 := by
  obtain ⟨wf, wg, hx, hy⟩ := hc
  obtain ⟨f1, f2⟩ := nf
  obtain ⟨g1, g2⟩ := ng
  have hu0 := hr.u_nonneg
  have rx : g.x - f.x = s * f.u - t * g.u := by linarith
  have ry : g.y - f.y = s * f.v - t * g.v := by linarith
  set P := 101 / 100 * (|s| + |t|) with hP
  have hst : 0 ≤ |s| + |t| := by positivity
  have hP0 : 0 ≤ P := by positivity
  have pf : |f.u * (g.x - f.x)| + |f.v * (g.y - f.y)| ≤ P := by
    rw [rx, ry]; have := cross_side (s := s) (t := t) f2 f2 g2; linarith
  have pg : |g.u * (g.x - f.x)| + |g.v * (g.y - f.y)| ≤ P := by
    rw [rx, ry]; have := cross_side (s := s) (t := t) g2 f2 g2; linarith
  have bnd : ∀ {x y B : K}, |x| + |y| ≤ B → |x + y| ≤ B := fun h => (abs_add_le _ _).trans h
  have bnd' : ∀ {x y : K}, |x| + |y| ≤ 1001 / 1000 → |x + y| ≤ 101 / 100 := fun h => (bnd h).trans (by norm_num)
  have big : ∀ {x y : K}, |x - y| ≤ 5 * u → 999 / 1000 ≤ y → 9 / 10 ≤ |x| := by
    intro x y h1 h2
    have := (abs_le.1 h1).1
    refine le_trans ?_ (le_abs_self x)
    linarith
  have ha := gram_near hr hu f2 f2
  have hb := gram_near hr hu f2 g2
  have hc := gram_near hr hu g2 f2
  have hd := gram_near hr hu g2 g2
  have hp := side_near (z := g.z - f.z) hr hu pf
  have hq := side_near (z := g.z - f.z) hr hu pg
  have ba := big ha (by linarith [pow_two f.u, pow_two f.v])
  have hfin : 500 * u * P / δ ^ 2 = 505 * u * (|s| + |t|) / δ ^ 2 := by rw [hP]; ring
  have det : ∀ {d : K}, d ^ 2 = (f.u * g.v - f.v * g.u) ^ 2 * (f.u * g.v - f.v * g.u) ^ 2 → δ ≤ |d| := by
    intro d h
    have h1 : |d| = (f.u * g.v - f.v * g.u) ^ 2 := by
      rw [← abs_of_nonneg (sq_nonneg (f.u * g.v - f.v * g.u)), ← sq_eq_sq₀ (abs_nonneg _) (abs_nonneg _), sq_abs, sq_abs, h]; ring
    rw [h1]; exact hD
  simp only [lapack, wf, wg]
  split_ifs with hlt
  · have hn : NearSystem u P (g.u * f.u + g.v * f.v) (g.u * g.u + g.v * g.v) (f.u * f.u + f.v * f.v) (f.u * g.u + f.v * g.v)
        (g.u * (g.x - f.x) + g.v * (g.y - f.y)) (f.u * (g.x - f.x) + f.v * (g.y - f.y)) _ _ _ _ _ _ :=
      ⟨bnd' (gram_le g2 f2), bnd' (gram_le g2 g2), bnd' (gram_le f2 f2), bnd' (gram_le f2 g2), bnd pg, bnd pf, hc, hd, ha, hb, hq, hp,
        ba.trans hlt.le, hlt.le⟩
    obtain ⟨R, hR, r1, r2⟩ := elim_near (x := s) (y := -t) hr hu hP0 hn hδ hδu (det (by ring)) (by rw [rx, ry]; ring) (by rw [rx, ry]; ring)
    rw [hfin] at r1 r2
    exact ⟨R, hR, r1, by rwa [sub_neg_eq_add] at r2⟩
  · have hn : NearSystem u P (f.u * f.u + f.v * f.v) (f.u * g.u + f.v * g.v) (g.u * f.u + g.v * f.v) (g.u * g.u + g.v * g.v)
        (f.u * (g.x - f.x) + f.v * (g.y - f.y)) (g.u * (g.x - f.x) + g.v * (g.y - f.y)) _ _ _ _ _ _ :=
      ⟨bnd' (gram_le f2 f2), bnd' (gram_le f2 g2), bnd' (gram_le g2 f2), bnd' (gram_le g2 g2), bnd pf, bnd pg, ha, hb, hc, hd, hp, hq,
        ba, not_lt.1 hlt⟩
    obtain ⟨R, hR, r1, r2⟩ := elim_near (x := s) (y := -t) hr hu hP0 hn hδ hδu (det (by ring)) (by rw [rx, ry]; ring) (by rw [rx, ry]; ring)
    rw [hfin] at r1 r2
    exact ⟨R, hR, r1, by rwa [sub_neg_eq_add] at r2⟩

/-- A fiber of a valid mat that lies flat has a direction of norm close to one seen from above. -/
theorem GoodFiber.nearUnit {S : K} {f : Fiber K} (h : GoodFiber S f) (hw : f.w = 0) : NearUnitDir f := by
  have h1 := h.dir1
  have h2 := h.dir2
  rw [hw] at h1 h2
  constructor
  · have : (999 / 1000 : K) ≤ (1 - (1 / 10 ^ 5 + 1 / 10 ^ 8)) ^ 2 := by norm_num
    linarith
  · have : ((1 + (1 / 10 ^ 5 + 1 / 10 ^ 8)) ^ 2 : K) ≤ 1001 / 1000 := by norm_num
    linarith

theorem abs_comp_le {f : Fiber K} (h : NearUnitDir f) : |f.u| ≤ 1001 / 1000 ∧ |f.v| ≤ 1001 / 1000 := by
  have h2 := h.2
  constructor <;> refine abs_le_of_sq_le_sq ?_ (by norm_num)
  · have := sq_nonneg f.v
    have : (1001 / 1000 : K) ≤ (1001 / 1000) ^ 2 := by norm_num
    linarith
  · have := sq_nonneg f.u
    have : (1001 / 1000 : K) ≤ (1001 / 1000) ^ 2 := by norm_num
    linarith

/-- Two lines in independent directions cross. -/
theorem exists_cross {p q f g : Fiber K} (hp : SameDir p f) (hq : SameDir q g) (wf : f.w = 0) (wg : g.w = 0)
    (hD : f.u * g.v - f.v * g.u ≠ 0) : ∃ s t, LinesMeet p q s t := by
  obtain ⟨a1, a2, a3⟩ := hp
  obtain ⟨b1, b2, b3⟩ := hq
  refine ⟨((q.x - p.x) * g.v - (q.y - p.y) * g.u) / (f.u * g.v - f.v * g.u), ((q.x - p.x) * f.v - (q.y - p.y) * f.u) / (f.u * g.v - f.v * g.u),
    a3.trans wf, b3.trans wg, ?_, ?_⟩
  · rw [a1, b1]
    generalize hd : f.u * g.v - f.v * g.u = D at hD
    field_simp
    linear_combination (q.x - p.x) * hd
  · rw [a2, b2]
    generalize hd : f.u * g.v - f.v * g.u = D at hD
    field_simp
    linear_combination (q.y - p.y) * hd

theorem numpy_sound {sq : K → K} (hr : Rounds fl u) (hs : RoundsSqrt sq u) (hu : u < 1) : SoundArith (numpyArith fl sq) u where
  rounds := hr
  lt := hu
  closer := by
    intro d hd
    have h0 := (hs 0 le_rfl)
    have h1 : sq 0 = 0 := by
      have := h0.2.2
      rw [mul_zero] at this
      exact pow_eq_zero_iff (two_ne_zero) |>.1 (le_antisymm this (sq_nonneg _))
    simp [numpyArith, normCloser, hr.zero, h1, hd]

/-- C93: computed distances are compared with an error of two roundings. -/
theorem C93_distance {sq : K → K} (hr : Rounds fl u) (hs : RoundsSqrt sq u) {ν : K} (hν0 : 0 < ν) (hν : 2 * u ≤ ν) (hν1 : ν ≤ 1) :
    NearTest (numpyArith fl sq) ν := by
  intro dx dy d hd h
  have hu0 := hr.u_nonneg
  have hs2 : (0 : K) ≤ dx ^ 2 + dy ^ 2 := by positivity
  have two : fl (fl (dx * dx) + fl (dy * dy)) ≤ (1 + u) ^ 2 * (dx ^ 2 + dy ^ 2) ∧ 0 ≤ fl (fl (dx * dx) + fl (dy * dy)) := by
    have e1 := hr.err (dx * dx)
    have e2 := hr.err (dy * dy)
    rw [abs_of_nonneg (mul_self_nonneg dx)] at e1
    rw [abs_of_nonneg (mul_self_nonneg dy)] at e2
    have n1 := hr.nonneg (mul_self_nonneg dx)
    have n2 := hr.nonneg (mul_self_nonneg dy)
    have e3 := hr.err (fl (dx * dx) + fl (dy * dy))
    rw [abs_of_nonneg (add_nonneg n1 n2)] at e3
    refine ⟨?_, hr.nonneg (add_nonneg n1 n2)⟩
    have h1 : fl (dx * dx) + fl (dy * dy) ≤ (1 + u) * (dx ^ 2 + dy ^ 2) := by
      linarith [(abs_le.1 e1).2, (abs_le.1 e2).2, pow_two dx, pow_two dy]
    have h2 := mul_le_mul_of_nonneg_left h1 (show 0 ≤ 1 + u by linarith)
    have h3 := (abs_le.1 e3).2
    linarith [pow_two (1 + u)]
  obtain ⟨t1, t2⟩ := two
  obtain ⟨s0, -, s2⟩ := hs _ t2
  have hb : (sq (fl (fl (dx * dx) + fl (dy * dy)))) ^ 2 ≤ ((1 + u) ^ 2 * (1 - ν) * d) ^ 2 := by
    calc _ ≤ (1 + u) ^ 2 * fl (fl (dx * dx) + fl (dy * dy)) := s2
      _ ≤ (1 + u) ^ 2 * ((1 + u) ^ 2 * (dx ^ 2 + dy ^ 2)) := mul_le_mul_of_nonneg_left t1 (by positivity)
      _ ≤ (1 + u) ^ 2 * ((1 + u) ^ 2 * ((1 - ν) * d) ^ 2) := by gcongr
      _ = _ := by ring
  have hc := abs_le_of_sq_le_sq hb (mul_nonneg (mul_nonneg (by positivity) (by linarith)) hd.le)
  have hlt : (1 + u) ^ 2 * (1 - ν) < 1 := by
    rcases hu0.eq_or_lt with h0 | h0
    · rw [← h0]; linarith
    · have h1 : (1 + u) ^ 2 * (1 - ν) ≤ (1 + u) ^ 2 * (1 - 2 * u) := mul_le_mul_of_nonneg_left (by linarith) (by positivity)
      have h2 : (1 + u) ^ 2 * (1 - 2 * u) = 1 - 3 * u ^ 2 - 2 * u ^ 3 := by ring
      have h3 : 0 < 3 * u ^ 2 + 2 * u ^ 3 := by positivity
      linarith
  simp only [numpyArith, normCloser, decide_eq_true_eq]
  calc sq (fl (fl (dx * dx) + fl (dy * dy))) ≤ |sq (fl (fl (dx * dx) + fl (dy * dy)))| := le_abs_self _
    _ ≤ (1 + u) ^ 2 * (1 - ν) * d := hc
    _ < 1 * d := mul_lt_mul_of_pos_right hlt hd
    _ = d := one_mul d

/-- The abscissae of a crossing within the fibers. -/
theorem numpy_solves {sq : K → K} (hr : Rounds fl u) (hu : u ≤ 1 / 1000) {f g : Fiber K} {s t δ μ : K} (nf : NearUnitDir f)
    (ng : NearUnitDir g) (lf : 0 < f.l) (lg : 0 < g.l) (hμ0 : 0 ≤ μ) (hc : LinesMeet f g s t)
    (hsl : |s| ≤ (1 - μ) * (f.l / 2)) (htl : |t| ≤ (1 - μ) * (g.l / 2)) (hδ : 0 < δ) (hδu : 100 * u ≤ δ)
    (hD : δ ≤ (f.u * g.v - f.v * g.u) ^ 2) : SolvesWithin (numpyArith fl sq) (253 * u * (f.l + g.l) / δ ^ 2) f g s t := by
  have hu0 := hr.u_nonneg
  have hst : |s| + |t| ≤ (f.l + g.l) / 2 := by
    have h1 : (1 - μ) * (f.l / 2) ≤ f.l / 2 := mul_le_of_le_one_left (by linarith) (by linarith)
    have h2 : (1 - μ) * (g.l / 2) ≤ g.l / 2 := mul_le_of_le_one_left (by linarith) (by linarith)
    linarith
  have hη : ∀ x : K, x ≤ 505 * u * (|s| + |t|) / δ ^ 2 → x ≤ 253 * u * (f.l + g.l) / δ ^ 2 := by
    intro x hx
    refine hx.trans (div_le_div_of_nonneg_right ?_ (by positivity))
    have h1 := mul_le_mul_of_nonneg_left hst (show 0 ≤ 505 * u by positivity)
    have h2 : 0 ≤ u * (f.l + g.l) := mul_nonneg hu0 (by linarith)
    linarith
  obtain ⟨R, hR, r1, r2⟩ := lapack_solves hr hu nf ng hc hδ hδu hD
  obtain ⟨R', hR', r1', r2'⟩ := lapack_solves hr hu ng nf ⟨hc.wg, hc.wf, hc.x.symm, hc.y.symm⟩ hδ hδu
    (show δ ≤ (g.u * f.v - g.v * f.u) ^ 2 by rw [show (g.u * f.v - g.v * f.u) ^ 2 = (f.u * g.v - f.v * g.u) ^ 2 by ring]; exact hD)
  rw [add_comm |t|] at r1' r2'
  exact ⟨⟨R, hR, hη _ r1, hη _ r2⟩, ⟨R', hR', hη _ r1', hη _ r2'⟩⟩

/-- C93: two horizontal fibers that cross away from their ends, at an angle that is not too small, are connected and the computed
abscissae are close to those of the crossing. -/
theorem C93_found {sq : K → K} (hr : Rounds fl u) (hs : RoundsSqrt sq u) (hu : u ≤ 1 / 1000) {m : Mat K} {net : Net K}
    (hE : FindsEnds (numpyArith fl sq) m) (h : GoodMat m) (hn : netNewR (numpyArith fl sq) m false = .ok net) {μ : K}
    (hμ : 5 * u + 3 / 10 ^ 5 ≤ μ) (hμ1 : μ ≤ 1) {a b : ℕ} {f g : Fiber K} (hab : a < b)
    (hf : m.fibers[a]? = some f) (hg : m.fibers[b]? = some g) {s t δ : K} (hc : LinesMeet f g s t)
    (hsl : |s| ≤ (1 - μ) * (f.l / 2)) (htl : |t| ≤ (1 - μ) * (g.l / 2))
    (hδ : 0 < δ) (hδu : 100 * u ≤ δ) (hD : δ ≤ (f.u * g.v - f.v * g.u) ^ 2)
    (hf2 : 506 * u * (f.l + g.l) / δ ^ 2 < (μ - u) * f.l) (hg2 : 506 * u * (f.l + g.l) / δ ^ 2 < (μ - u) * g.l) :
    ∃ r ∈ net.rows, r.A = (a : Int) ∧ r.B = (b : Int) ∧ |r.sA - s| ≤ 253 * u * (f.l + g.l) / δ ^ 2 ∧
      |r.sB - t| ≤ 253 * u * (f.l + g.l) / δ ^ 2 := by
  have hu0 := hr.u_nonneg
  have hN := numpy_sound hr hs (by linarith)
  obtain ⟨S, hS, hgood, -, -⟩ := netNewR_ok hN hE h hn
  have gf := hgood f (List.mem_of_getElem? hf)
  have gg := hgood g (List.mem_of_getElem? hg)
  have nf := GoodFiber.nearUnit gf hc.wf
  have ng := GoodFiber.nearUnit gg hc.wg
  have lf := gf.l
  have lg := gg.l
  have hμ0 : 0 ≤ μ := by linarith [show (0 : K) < 3 / 10 ^ 5 by norm_num]
  have hsol := numpy_solves (sq := sq) hr hu nf ng lf lg hμ0 hc hsl htl hδ hδu hD
  have e2 : ∀ x : K, 2 * (253 * u * (f.l + g.l) / δ ^ 2) < x ↔ 506 * u * (f.l + g.l) / δ ^ 2 < x := by
    intro x; rw [show 2 * (253 * u * (f.l + g.l) / δ ^ 2) = 506 * u * (f.l + g.l) / δ ^ 2 by ring]
  refine C92_found hN hE h hn (ν := 2 * u + 1 / 10 ^ 5) (C93_distance hr hs (by positivity) (by linarith [show (0 : K) < 1 / 10 ^ 5 by norm_num])
    (by linarith [show (1 / 10 ^ 5 : K) ≤ 1 / 1000 by norm_num])) (by positivity) (by linarith) hμ1 hab hf hg hsl htl hc.x hc.y
    hsol ((e2 _).2 hf2) ((e2 _).2 hg2)

/-- C93: two horizontal fibers that cross away from their ends, at an angle that is not too small, are connected, in an open or in a
periodic box. -/
theorem C93_connected {sq : K → K} (hr : Rounds fl u) (hs : RoundsSqrt sq u) (hu : u ≤ 1 / 1000) {m : Mat K} {net : Net K} {periodic : Bool}
    (hE : FindsEnds (numpyArith fl sq) m) (h : GoodMat m) (hn : netNewR (numpyArith fl sq) m periodic = .ok net) {μ : K}
    (hμ : 5 * u + 3 / 10 ^ 5 ≤ μ) (hμ1 : μ ≤ 1) {a b : ℕ} {f g : Fiber K} (hab : a < b)
    (hf : m.fibers[a]? = some f) (hg : m.fibers[b]? = some g) {s t δ : K} (hc : LinesMeet f g s t)
    (hsl : |s| ≤ (1 - μ) * (f.l / 2)) (htl : |t| ≤ (1 - μ) * (g.l / 2))
    (hδ : 0 < δ) (hδu : 100 * u ≤ δ) (hD : δ ≤ (f.u * g.v - f.v * g.u) ^ 2)
    (hf2 : 506 * u * (f.l + g.l) / δ ^ 2 < (μ - u) * f.l) (hg2 : 506 * u * (f.l + g.l) / δ ^ 2 < (μ - u) * g.l) :
    ∃ r ∈ net.rows, r.A = (a : Int) ∧ r.B = (b : Int) := by
  have hu0 := hr.u_nonneg
  have hN := numpy_sound hr hs (by linarith)
  obtain ⟨S, hS, hgood, -, -⟩ := netNewR_ok hN hE h hn
  have gf := hgood f (List.mem_of_getElem? hf)
  have gg := hgood g (List.mem_of_getElem? hg)
  have nf := GoodFiber.nearUnit gf hc.wf
  have ng := GoodFiber.nearUnit gg hc.wg
  have lf := gf.l
  have lg := gg.l
  have hμ0 : 0 ≤ μ := by linarith [show (0 : K) < 3 / 10 ^ 5 by norm_num]
  have hsol := numpy_solves (sq := sq) hr hu nf ng lf lg hμ0 hc hsl htl hδ hδu hD
  have e2 : ∀ x : K, 2 * (253 * u * (f.l + g.l) / δ ^ 2) < x ↔ 506 * u * (f.l + g.l) / δ ^ 2 < x := by
    intro x; rw [show 2 * (253 * u * (f.l + g.l) / δ ^ 2) = 506 * u * (f.l + g.l) / δ ^ 2 by ring]
  refine C92_connected hN hE h hn (ν := 2 * u + 1 / 10 ^ 5) (C93_distance hr hs (by positivity) (by linarith [show (0 : K) < 1 / 10 ^ 5 by norm_num])
    (by linarith [show (1 / 10 ^ 5 : K) ≤ 1 / 1000 by norm_num])) (by positivity) (by linarith) hμ1 hab hf hg hsl htl hc.x hc.y
    hsol ((e2 _).2 hf2) ((e2 _).2 hg2)

/-- Accuracy of the points where two horizontal fibers are found to meet. -/
theorem lapack_meets {sq : K → K} (hr : Rounds fl u) (hu : u ≤ 1 / 1000) {f g : Fiber K} (nf : NearUnitDir f) (ng : NearUnitDir g)
    (wf : f.w = 0) (wg : g.w = 0) (lf : 0 < f.l) (lg : 0 < g.l) {δ : K} (hδ : 0 < δ) (hδu : 100 * u ≤ δ) (hδ2 : 2020 * u ≤ δ ^ 2)
    (hD : δ ≤ (f.u * g.v - f.v * g.u) ^ 2) : MeetsWithin (numpyArith fl sq) (1100 * u * (f.l + g.l) / δ ^ 2) f g := by
  intro p q R hp hq hR i1 i2
  have hu0 := hr.u_nonneg
  have hDne : f.u * g.v - f.v * g.u ≠ 0 := by
    intro h0; rw [h0] at hD; norm_num at hD; linarith
  obtain ⟨s, t, hc⟩ := exists_cross hp hq wf wg hDne
  obtain ⟨a1, a2, a3⟩ := hp
  obtain ⟨b1, b2, b3⟩ := hq
  have np : NearUnitDir p := by unfold NearUnitDir; rw [a1, a2]; exact nf
  have nq : NearUnitDir q := by unfold NearUnitDir; rw [b1, b2]; exact ng
  obtain ⟨R0, hR0, r1, r2⟩ := lapack_solves hr hu np nq hc hδ hδu (by rw [a1, a2, b1, b2]; exact hD)
  have hRR : R0 = R := by
    have : lapack fl p q = some R := hR
    rw [hR0] at this; exact Option.some.inj this
  subst hRR
  have hδp : 0 < δ ^ 2 := by positivity
  have hst0 : 0 ≤ |s| + |t| := by positivity
  set E := 505 * u * (|s| + |t|) / δ ^ 2 with hE
  have hE4 : E ≤ (|s| + |t|) / 4 := by
    rw [hE, div_le_iff₀ hδp]
    have := mul_le_mul_of_nonneg_left hδ2 hst0
    linarith
  have half : ∀ l : K, 0 < l → fl (l / 2) ≤ (1 + u) * (l / 2) := by
    intro l hl
    have := (abs_le.1 (hr.err (l / 2))).2
    rw [abs_of_pos (by linarith)] at this
    linarith
  have j1 : |R0.1| < fl (f.l / 2) := i1
  have j2 : |R0.2| < fl (g.l / 2) := i2
  have hs1 : |s| ≤ |R0.1| + E := abs_near ((abs_sub_comm _ _).trans_le r1) le_rfl
  have ht1 : |t| ≤ |R0.2| + E := by
    have : |(-t) - R0.2| ≤ E := by rw [show -t - R0.2 = -(R0.2 + t) by ring, abs_neg]; exact r2
    have := abs_near this le_rfl
    rwa [abs_neg] at this
  have hst : |s| + |t| ≤ 1001 / 1000 * (f.l + g.l) := by
    have h1 := half f.l lf
    have h2 := half g.l lg
    have h3 : u * (f.l + g.l) ≤ 1 / 1000 * (f.l + g.l) := mul_le_mul_of_nonneg_right hu (by linarith)
    linarith
  have hEf : E ≤ 506 * u * (f.l + g.l) / δ ^ 2 := by
    rw [hE]
    refine div_le_div_of_nonneg_right ?_ hδp.le
    have h1 := mul_le_mul_of_nonneg_left hst (show 0 ≤ 505 * u by positivity)
    have h2 : 0 ≤ u * (f.l + g.l) := mul_nonneg hu0 (by linarith)
    linarith
  have hE0 : 0 ≤ E := by positivity
  have fin : ∀ a b x y : K, |a| ≤ 1001 / 1000 → |b| ≤ 1001 / 1000 → |x| ≤ E → |y| ≤ E → |x * a + y * b| ≤ 1100 * u * (f.l + g.l) / δ ^ 2 := by
    intro a b x y ha hb hx hy
    have h1 : |x * a| ≤ E * (1001 / 1000) := by rw [abs_mul]; exact mul_le_mul hx ha (abs_nonneg _) hE0
    have h2 : |y * b| ≤ E * (1001 / 1000) := by rw [abs_mul]; exact mul_le_mul hy hb (abs_nonneg _) hE0
    have h3 := abs_add_le (x * a) (y * b)
    have e : 1100 * u * (f.l + g.l) / δ ^ 2 = 1100 / 506 * (506 * u * (f.l + g.l) / δ ^ 2) := by ring
    rw [e]
    linarith
  obtain ⟨cu, cv⟩ := abs_comp_le np
  obtain ⟨du, dv⟩ := abs_comp_le nq
  constructor
  · have := fin p.u q.u (R0.1 - s) (R0.2 + t) cu du r1 r2
    convert this using 2
    have := hc.x
    linear_combination this
  · have := fin p.v q.v (R0.1 - s) (R0.2 + t) cv dv r1 r2
    convert this using 2
    have := hc.y
    linear_combination this

/-- C93: the two nodes of a connection between horizontal fibers that are not nearly parallel are at the same place seen from above, up to
whole boxes and rounding errors. -/
theorem C93_crossing {sq : K → K} (hr : Rounds fl u) (hs : RoundsSqrt sq u) (hu : u ≤ 1 / 1000) {m : Mat K} {net : Net K} {periodic : Bool}
    (hE : FindsEnds (numpyArith fl sq) m) (h : GoodMat m) {S : K} (hS : m.attrs.size = some S)
    (hn : netNewR (numpyArith fl sq) m periodic = .ok net) {r : NetRow K} (hr' : r ∈ net.rows) (hAB : r.A < r.B) {f g : Fiber K}
    (hj : Joins m r f g) (wf : f.w = 0) (wg : g.w = 0) {δ : K} (hδ : 0 < δ) (hδu : 100 * u ≤ δ) (hδ2 : 2020 * u ≤ δ ^ 2)
    (hD : δ ≤ (f.u * g.v - f.v * g.u) ^ 2) :
    ∃ i j : ℤ, (periodic = false → i = 0 ∧ j = 0) ∧
      |(f.x + r.sA * f.u) - (g.x + i * S + r.sB * g.u)| ≤ 1100 * u * (f.l + g.l) / δ ^ 2 + 3 * u * S ∧
      |(f.y + r.sA * f.v) - (g.y + j * S + r.sB * g.v)| ≤ 1100 * u * (f.l + g.l) / δ ^ 2 + 3 * u * S := by
  have hN := numpy_sound hr hs (by linarith)
  obtain ⟨S', hS', hgood, -, -⟩ := netNewR_ok hN hE h hn
  obtain ⟨a, b, hA, hB, hfa, hgb⟩ := hj
  have gf := hgood f (List.mem_of_getElem? hfa)
  have gg := hgood g (List.mem_of_getElem? hgb)
  have nf := GoodFiber.nearUnit gf wf
  have ng := GoodFiber.nearUnit gg wg
  refine C92_crossing hN hE h hS hn hr' hAB ⟨a, b, hA, hB, hfa, hgb⟩ (lapack_meets hr hu nf ng wf wg gf.l gg.l hδ hδu hδ2 hD) ?_
  have := lapack_meets (sq := sq) hr hu ng nf wg wf gg.l gf.l hδ hδu hδ2
    (show δ ≤ (g.u * f.v - g.v * f.u) ^ 2 by rw [show (g.u * f.v - g.v * f.u) ^ 2 = (f.u * g.v - f.v * g.u) ^ 2 by ring]; exact hD)
  rwa [add_comm g.l] at this

end
end Fibermat
