import Verif.Props.MatCheck
import Verif.Lemmas.MatInit

/-! # C03, C04, C05: `Mat.init` -/

namespace Fibermat
open Spec
variable {σ K : Type} [Field K] [LinearOrder K]

theorem labels_frame (m : Mat K) : LabelsInOrder m.frame.rows := by
  intro i h
  simp [Mat.frame]

theorem topCell_positive (e : WithTop K) : Positive (topCell e) ↔ 0 < e := by
  cases e with
  | top => simp [topCell, Positive]
  | coe e =>
    have h : topCell (e : WithTop K) = .fin e := rfl
    rw [h]
    simp [Positive]

theorem goodRow_iff (S : K) (f : Fiber K) : GoodMatRow S f.row ↔ GoodFiber S f := by
  constructor
  · intro g
    obtain ⟨_, _, _, h1, h2, h3, h4, h5⟩ := g.dir
    cases h1; cases h2; cases h3
    obtain ⟨_, h6, h7, h8⟩ := g.x
    obtain ⟨_, h9, h10, h11⟩ := g.y
    cases h6; cases h9
    exact ⟨by simpa [Positive, Fiber.row] using g.l, by simpa [Positive, Fiber.row] using g.b,
      by simpa [Positive, Fiber.row] using g.h, h7, h8, h10, h11, h4, h5,
      by simpa [Positive, Fiber.row] using g.G, (topCell_positive _).1 g.E⟩
  · intro g
    exact ⟨Or.inl ⟨_, rfl, g.l⟩, Or.inl ⟨_, rfl, g.b⟩, Or.inl ⟨_, rfl, g.h⟩, ⟨_, rfl, g.x1, g.x2⟩, ⟨_, rfl, g.y1, g.y2⟩,
      ⟨_, _, _, rfl, rfl, rfl, g.dir1, g.dir2⟩, Or.inl ⟨_, rfl, g.G⟩, (topCell_positive _).2 g.E⟩

theorem frame_rows_length (m : Mat K) : m.frame.rows.length = m.fibers.length := by simp [Mat.frame]

theorem frame_rows_forall (m : Mat K) (P : MatRow (Cell K) → Prop) :
    (∀ r ∈ m.frame.rows, P r.2) ↔ ∀ f ∈ m.fibers, P f.row := by
  have h : m.frame.rows.map Prod.snd = m.fibers.map Fiber.row := by
    simp only [Mat.frame, List.map_map]
    conv_rhs => rw [← zipIdx_map_fst' m.fibers 0, List.map_map]
    rfl
  constructor
  · intro hh f hf
    have : f.row ∈ m.frame.rows.map Prod.snd := by rw [h]; exact List.mem_map_of_mem hf
    obtain ⟨r, hr, he⟩ := List.mem_map.1 this
    rw [← he]; exact hh r hr
  · intro hh r hr
    have : r.2 ∈ m.fibers.map Fiber.row := by rw [← h]; exact List.mem_map_of_mem hr
    obtain ⟨f, hf, he⟩ := List.mem_map.1 this
    rw [← he]; exact hh f hf

/-- `Mat.check` on a `Mat` object. -/
theorem validMat_frame_iff (m : Mat K) : ValidMat m.frame ↔ GoodMat m := by
  constructor
  · intro h
    obtain ⟨S, hS, hr⟩ := h.size
    refine ⟨by have := h.n; rwa [frame_rows_length] at this, S, hS, ?_⟩
    intro f hf
    rw [← goodRow_iff]
    exact (frame_rows_forall m (GoodMatRow S)).1 hr f hf
  · intro h
    obtain ⟨S, hS, hr⟩ := h.size
    refine ⟨?_, by rw [frame_rows_length]; exact h.n, labels_frame m, S, hS, ?_⟩
    · intro c hc; exact hc
    · apply (frame_rows_forall m (GoodMatRow S)).2
      intro f hf; rw [goodRow_iff]; exact hr f hf

theorem matCheck_frame_iff [IsStrictOrderedRing K] (m : Mat K) :
    matCheck m.frame = .ok () ↔ Skipped m.attrs ∨ GoodMat m := by
  rw [C01_matCheck_iff, validMat_frame_iff]; rfl

/-- All shape and material arguments are positive. -/
def Spec.PositiveArgs (a : MatArgs K) : Prop :=
  0 < a.length ∧ 0 < a.width ∧ 0 < a.thickness ∧ 0 < a.shear ∧ 0 < a.tensile

section
variable (g : Rng σ K) (cos sin : K → K) (e : σ) (a : MatArgs K) (s : σ)

/-- The mat computed by `Mat.init`. -/
def builtMat : Mat K :=
  { fibers := fibersOf cos sin a (columnsOf g a a.n.toNat (g.reseed e a.seed s))
    attrs := { n := some a.n, size := some a.size } }

theorem builtMat_length : (builtMat g cos sin e a s).fibers.length = a.n.toNat := by
  obtain ⟨h1, h2, h3, h4, h5⟩ := columns_lengths g a a.n.toNat (g.reseed e a.seed s)
  exact fibersOf_length cos sin a _ _ h1 h2 h3 h4 h5

theorem seedOk_iff (k : Option Int) : seedOk k = true ↔ GoodSeed k := by
  cases k with
  | none => simp [seedOk, GoodSeed]
  | some k => simp [seedOk, GoodSeed]

theorem matNew_of_seed (hs : ¬ GoodSeed a.seed) : matNew g cos sin e a s = .error .valueError := by
  rw [← seedOk_iff, Bool.not_eq_true] at hs
  simp [matNew, matInit_eq, hs, bind, Except.bind]

theorem matNew_seed {g : Rng σ K} {cos sin : K → K} {e : σ} {a : MatArgs K} {s : σ} {r : Mat K × σ}
    (h : matNew g cos sin e a s = .ok r) : GoodSeed a.seed := by
  by_contra hs
  rw [matNew_of_seed g cos sin e a s hs] at h
  cases h

theorem matNew_of_nonneg (hs : GoodSeed a.seed) (hn : 0 ≤ a.n) :
    matNew g cos sin e a s = (matCheck (builtMat g cos sin e a s).frame).map (fun _ =>
      (builtMat g cos sin e a s, stateAfter g (5 * a.n.toNat) (g.reseed e a.seed s))) := by
  rw [← seedOk_iff] at hs
  simp only [matNew, matInit_eq, hs, Bool.not_true, Bool.false_eq_true, if_false, if_neg (not_lt.2 hn), builtMat]
  cases h : matCheck ({ fibers := fibersOf cos sin a (columnsOf g a a.n.toNat (g.reseed e a.seed s))
                        attrs := { n := some a.n, size := some a.size } } : Mat K).frame <;>
    simp [h, bind, Except.bind, Except.map, pure, Except.pure]

theorem matNew_of_neg (hn : a.n < 0) : matNew g cos sin e a s = .error .valueError := by
  simp only [matNew, matInit_eq, if_pos hn, bind, Except.bind]
  split_ifs <;> rfl

variable [IsStrictOrderedRing K]

theorem uniform_bounds (hg : UnitInterval g) (i : Nat) (s : σ) :
    -(1 / 2) ≤ -(1 / 2) + (1 / 2 - -(1 / 2)) * drawn g s i ∧
    -(1 / 2) + (1 / 2 - -(1 / 2)) * drawn g s i ≤ (1 / 2 : K) := by
  have := hg (stateAfter g i s)
  unfold drawn
  constructor <;> norm_num <;> linarith

theorem scaled_bounds {t S : K} (h1 : -(1 / 2) ≤ t) (h2 : t ≤ 1 / 2) (hS : 0 ≤ S) :
    -(S / 2) ≤ t * S ∧ t * S ≤ S / 2 := by
  constructor <;> nlinarith

theorem product_near {ε c d p q : K} (hp : |c ^ 2 + d ^ 2 - 1| ≤ ε) (hq : |p ^ 2 + q ^ 2 - 1| ≤ ε) (hε : ε ≤ 1 / 10 ^ 6) :
    |(c * p) ^ 2 + (d * p) ^ 2 + q ^ 2 - 1| ≤ 3 * ε := by
  have h0 : 0 ≤ ε := (abs_nonneg _).trans hp
  rw [abs_le] at *
  have hp2 : p ^ 2 ≤ 2 := by nlinarith [sq_nonneg q]
  have e : (c * p) ^ 2 + (d * p) ^ 2 + q ^ 2 - 1 = p ^ 2 * (c ^ 2 + d ^ 2 - 1) + (p ^ 2 + q ^ 2 - 1) := by ring
  rw [e]
  constructor <;> nlinarith [mul_le_mul_of_nonneg_left hp.1 (sq_nonneg p), mul_le_mul_of_nonneg_left hp.2 (sq_nonneg p),
    mul_le_mul_of_nonneg_right hp2 h0]

theorem near_norm_low {ε t : K} (h : |t - 1| ≤ 3 * ε) (hε : ε ≤ 1 / 10 ^ 6) : (1 - (1 / 10 ^ 5 + 1 / 10 ^ 8)) ^ 2 ≤ t := by
  rw [abs_le] at h
  have : (1 - (1 / 10 ^ 5 + 1 / 10 ^ 8)) ^ 2 ≤ 1 - 3 * (1 / 10 ^ 6 : K) := by norm_num
  linarith [h.1]

theorem near_norm_high {ε t : K} (h : |t - 1| ≤ 3 * ε) (hε : ε ≤ 1 / 10 ^ 6) : t ≤ (1 + (1 / 10 ^ 5 + 1 / 10 ^ 8)) ^ 2 := by
  rw [abs_le] at h
  have : 1 + 3 * (1 / 10 ^ 6 : K) ≤ (1 + (1 / 10 ^ 5 + 1 / 10 ^ 8)) ^ 2 := by norm_num
  linarith [h.2]

/-- Position and orientation of the fibers of `Mat.init`. -/
theorem builtMat_fiber {ε : K} (hg : UnitInterval g) (hcs : NearUnit cos sin ε) (hε : ε ≤ 1 / 10 ^ 6) (hS : 0 ≤ a.size)
    (f : Fiber K) (hf : f ∈ (builtMat g cos sin e a s).fibers) :
    -(a.size / 2) ≤ f.x ∧ f.x ≤ a.size / 2 ∧ -(a.size / 2) ≤ f.y ∧ f.y ≤ a.size / 2 ∧
    -(a.size / 2) ≤ f.z ∧ f.z ≤ a.size / 2 ∧ |f.u ^ 2 + f.v ^ 2 + f.w ^ 2 - 1| ≤ 3 * ε ∧
    f.l = a.length ∧ f.b = a.width ∧ f.h = a.thickness ∧ f.G = a.shear ∧ f.E = a.tensile := by
  obtain ⟨h1, h2, h3, h4, h5⟩ := columns_lengths g a a.n.toNat (g.reseed e a.seed s)
  obtain ⟨i, hi, rfl⟩ := List.mem_iff_getElem.1 hf
  have hi' : i < a.n.toNat := by rwa [builtMat_length] at hi
  simp only [builtMat]
  rw [fibersOf_getElem cos sin a _ _ h1 h2 h3 h4 h5 i _ hi']
  have key : ∀ (s : σ) (t : K), t ∈ (g.uniform a.n.toNat s).1.map (· * a.size) →
      -(a.size / 2) ≤ t ∧ t ≤ a.size / 2 := by
    intro s t ht
    simp only [uniform_fst, List.map_map, List.mem_map, Function.comp_def] at ht
    obtain ⟨j, _, rfl⟩ := ht
    exact scaled_bounds (uniform_bounds g hg j s).1 (uniform_bounds g hg j s).2 hS
  have kx := key _ _ (List.getElem_mem (l := (columnsOf g a a.n.toNat (g.reseed e a.seed s)).xs) (h1 ▸ hi'))
  have ky := key _ _ (List.getElem_mem (l := (columnsOf g a a.n.toNat (g.reseed e a.seed s)).ys) (h2 ▸ hi'))
  have kz := key (stateAfter g (2 * a.n.toNat) (g.reseed e a.seed s)) _
    ((List.mem_insertionSort _).1 (List.getElem_mem (l := (columnsOf g a a.n.toNat (g.reseed e a.seed s)).zs) (h3 ▸ hi')))
  refine ⟨kx.1, kx.2, ky.1, ky.2, kz.1, kz.2, ?_, rfl, rfl, rfl, rfl, rfl⟩
  have hp := hcs (columnsOf g a a.n.toNat (g.reseed e a.seed s)).ps[i]
  have hq := hcs (columnsOf g a a.n.toNat (g.reseed e a.seed s)).qs[i]
  simp only
  exact product_near hp hq hε

/-- **C03.** `Mat(n, ...)` succeeds exactly when the seed is acceptable and `n = 0`, or `n > 0`, `size ≥ 0` and all dimensions and moduli are positive. -/
theorem C03_matNew_ok_iff {ε : K} (hg : UnitInterval g) (hcs : NearUnit cos sin ε) (hε : ε ≤ 1 / 10 ^ 6) :
    (∃ r, matNew g cos sin e a s = .ok r) ↔ GoodSeed a.seed ∧ (a.n = 0 ∨ (0 < a.n ∧ 0 ≤ a.size ∧ PositiveArgs a)) := by
  by_cases hs : GoodSeed a.seed
  swap
  · rw [matNew_of_seed g cos sin e a s hs]
    simp [hs]
  simp only [hs, true_and]
  rcases lt_or_ge a.n 0 with hn | hn
  · rw [matNew_of_neg g cos sin e a s hn]
    simp [hn.ne, not_lt.2 hn.le]
  · rw [matNew_of_nonneg g cos sin e a s hs hn]
    have hmap : (∃ r, (matCheck (builtMat g cos sin e a s).frame).map (fun _ =>
      (builtMat g cos sin e a s, stateAfter g (5 * a.n.toNat) (g.reseed e a.seed s))) = .ok r) ↔
      matCheck (builtMat g cos sin e a s).frame = .ok () := by
      cases matCheck (builtMat g cos sin e a s).frame <;> simp [Except.map]
    rw [hmap, matCheck_frame_iff]
    have hlen := builtMat_length g cos sin e a s
    have hskip : ¬ Skipped (builtMat g cos sin e a s).attrs := by simp [Skipped, builtMat]
    constructor
    · rintro (h | h)
      · exact absurd h hskip
      rcases hn.eq_or_lt with h0 | h0
      · exact Or.inl h0.symm
      right
      obtain ⟨S, hS, hr⟩ := h.size
      have hSS : S = a.size := by simpa [builtMat, eq_comm] using hS
      subst hSS
      have hi' : 0 < a.n.toNat := by omega
      obtain ⟨h1, h2, h3, h4, h5⟩ := columns_lengths g a a.n.toNat (g.reseed e a.seed s)
      have hpos : 0 < (fibersOf cos sin a (columnsOf g a a.n.toNat (g.reseed e a.seed s))).length := by
        rw [fibersOf_length cos sin a _ _ h1 h2 h3 h4 h5]; exact hi'
      have gf := hr _ (List.getElem_mem hpos)
      rw [fibersOf_getElem cos sin a _ _ h1 h2 h3 h4 h5 0 hpos hi'] at gf
      refine ⟨h0, ?_, gf.l, gf.b, gf.h, gf.G, gf.E⟩
      have := gf.x1.trans gf.x2
      linarith
    · intro h
      right
      refine ⟨by rw [hlen]; simp [builtMat, Int.toNat_of_nonneg hn], a.size, rfl, ?_⟩
      intro f hf
      rcases h with h0 | ⟨h0, hS, p1, p2, p3, p4, p5⟩
      · have : (builtMat g cos sin e a s).fibers = [] := by
          rw [← List.length_eq_zero_iff, hlen, h0]; rfl
        rw [this] at hf; simp at hf
      · obtain ⟨b1, b2, b3, b4, _, _, b5, b6, b7, b8, b9, b10⟩ := builtMat_fiber g cos sin e a s hg hcs hε hS f hf
        exact ⟨b6 ▸ p1, b7 ▸ p2, b8 ▸ p3, b1, b2, b3, b4, near_norm_low b5 hε, near_norm_high b5 hε, b9 ▸ p4, b10 ▸ p5⟩

/-- **C03.** In all other cases `Mat(n, ...)` raises ValueError. -/
theorem C03_matNew_error {ε : K} (hg : UnitInterval g) (hcs : NearUnit cos sin ε) (hε : ε ≤ 1 / 10 ^ 6)
    (h : ¬ (GoodSeed a.seed ∧ (a.n = 0 ∨ (0 < a.n ∧ 0 ≤ a.size ∧ PositiveArgs a)))) :
    matNew g cos sin e a s = .error .valueError := by
  have h1 : ¬ ∃ r, matNew g cos sin e a s = .ok r := fun h' =>
    h ((C03_matNew_ok_iff g cos sin e a s hg hcs hε).1 h')
  rcases lt_or_ge a.n 0 with hn | hn
  · exact matNew_of_neg g cos sin e a s hn
  by_cases hs : GoodSeed a.seed
  swap
  · exact matNew_of_seed g cos sin e a s hs
  rw [matNew_of_nonneg g cos sin e a s hs hn] at h1 ⊢
  have hlen := builtMat_length g cos sin e a s
  rcases matCheck_cases (builtMat g cos sin e a s).frame with h2 | h2 | h2 | ⟨_, _, n, S, hn2, hS, h3⟩
  · simp [h2.2, Except.map] at h1
  · exact absurd (fun c hc => hc) h2.2.1
  · rcases h2.2.2.1 with h3 | h3 <;> simp [builtMat, Mat.frame] at h3
  · have hn3 : n = a.n := by simpa [builtMat, Mat.frame, eq_comm] using hn2
    rcases h3 with h3 | h3 | h3 | h3
    · rw [h3.2]; rfl
    · exact absurd (labels_frame _) h3.2.1
    · rw [h3.2.2.2]; rfl
    · simp [h3.2.2.2, Except.map] at h1

/-- **C03.** The result has `n` fibers with the requested dimensions and moduli, in the box, with unit orientations, and the right
attributes. -/
theorem C03_matNew_result {ε : K} (hg : UnitInterval g) (hcs : NearUnit cos sin ε) (hε : ε ≤ 1 / 10 ^ 6)
    (hS : 0 ≤ a.size) (r : Mat K × σ) (hr : matNew g cos sin e a s = .ok r) :
    (r.1.fibers.length : Int) = a.n ∧ r.1.attrs = { n := some a.n, size := some a.size } ∧
    ∀ f ∈ r.1.fibers,
      |f.x| ≤ a.size / 2 ∧ |f.y| ≤ a.size / 2 ∧ |f.z| ≤ a.size / 2 ∧ |f.u ^ 2 + f.v ^ 2 + f.w ^ 2 - 1| ≤ 3 * ε ∧
      f.l = a.length ∧ f.b = a.width ∧ f.h = a.thickness ∧ f.G = a.shear ∧ f.E = a.tensile := by
  rcases lt_or_ge a.n 0 with hn | hn
  · rw [matNew_of_neg g cos sin e a s hn] at hr; cases hr
  rw [matNew_of_nonneg g cos sin e a s (matNew_seed hr) hn] at hr
  have hr' : r = (builtMat g cos sin e a s, stateAfter g (5 * a.n.toNat) (g.reseed e a.seed s)) := by
    cases hc : matCheck (builtMat g cos sin e a s).frame with
    | ok u => rw [hc] at hr; simpa [Except.map, eq_comm] using hr
    | error u => rw [hc] at hr; simp [Except.map] at hr
  subst hr'
  refine ⟨?_, rfl, ?_⟩
  · simp only [builtMat_length]; exact Int.toNat_of_nonneg hn
  · intro f hf
    obtain ⟨b1, b2, b3, b4, b5, b6, b7, b8, b9, b10, b11, b12⟩ := builtMat_fiber g cos sin e a s hg hcs hε hS f hf
    exact ⟨abs_le.2 ⟨b1, b2⟩, abs_le.2 ⟨b3, b4⟩, abs_le.2 ⟨b5, b6⟩, b7, b8, b9, b10, b11, b12⟩

end

/-- **C04.** A seeded `Mat` does not depend on the global generator state (nor on entropy). -/
theorem C04_seed_deterministic (g : Rng σ K) (cos sin : K → K) (e e' : σ) (a : MatArgs K) (k : Int)
    (hk : a.seed = some k) (s s' : σ) :
    matNew g cos sin e a s = matNew g cos sin e' a s' := by
  simp [matNew, matInit_eq, hk, Rng.reseed]

/-- **C04.** A seeded `Mat` leaves the generator in the state reached from the seed after `5 n` draws, whatever the state
before: the caller's random stream is overwritten. -/
theorem C04_seed_state (g : Rng σ K) (cos sin : K → K) (e : σ) (a : MatArgs K) (k : Int)
    (hk : a.seed = some k) (s : σ) (r : Mat K × σ) (hr : matNew g cos sin e a s = .ok r) :
    r.2 = stateAfter g (5 * a.n.toNat) (g.seed k) := by
  rcases lt_or_ge a.n 0 with hn | hn
  · rw [matNew_of_neg g cos sin e a s hn] at hr; cases hr
  rw [matNew_of_nonneg g cos sin e a s (matNew_seed hr) hn] at hr
  cases hc : matCheck (builtMat g cos sin e a s).frame with
  | ok u => rw [hc] at hr; simp only [Except.map, Except.ok.injEq] at hr; rw [← hr]; simp [hk, Rng.reseed]
  | error u => rw [hc] at hr; simp [Except.map] at hr

/-- **C05.** The exact dependence of every column on the arguments and on the random stream `drawn`: with `t_i` the `i`-th number
drawn after seeding, `x_i = size (t_i - 1/2)`, `y_i = size (t_{n+i} - 1/2)`, the `z` column is the sorted list of
`size (t_{2n+i} - 1/2)`, the angles are `theta (t_{3n+i} - 1/2)` and `psi (t_{4n+i} - 1/2)`. -/
theorem C05_columns [IsStrictOrderedRing K] (g : Rng σ K) (cos sin : K → K) (e : σ) (a : MatArgs K) (k : Int)
    (hk : a.seed = some k) (s : σ) (r : Mat K × σ) (hr : matNew g cos sin e a s = .ok r) :
    r.1.fibers.length = a.n.toNat ∧
    (∀ i (h : i < r.1.fibers.length),
      (r.1.fibers[i]).x = a.size * (drawn g (g.seed k) i - 1 / 2) ∧
      (r.1.fibers[i]).y = a.size * (drawn g (g.seed k) (a.n.toNat + i) - 1 / 2) ∧
      (let p := a.theta * (drawn g (g.seed k) (3 * a.n.toNat + i) - 1 / 2)
       let q := a.psi * (drawn g (g.seed k) (4 * a.n.toNat + i) - 1 / 2)
       (r.1.fibers[i]).u = cos p * cos q ∧ (r.1.fibers[i]).v = sin p * cos q ∧ (r.1.fibers[i]).w = sin q) ∧
      (r.1.fibers[i]).l = a.length ∧ (r.1.fibers[i]).b = a.width ∧ (r.1.fibers[i]).h = a.thickness ∧
      (r.1.fibers[i]).G = a.shear ∧ (r.1.fibers[i]).E = a.tensile) ∧
    (r.1.fibers.map (·.z)).Pairwise (· ≤ ·) ∧
    (r.1.fibers.map (·.z)).Perm
      ((List.range a.n.toNat).map (fun i => a.size * (drawn g (g.seed k) (2 * a.n.toNat + i) - 1 / 2))) := by
  rcases lt_or_ge a.n 0 with hn | hn
  · rw [matNew_of_neg g cos sin e a s hn] at hr; cases hr
  rw [matNew_of_nonneg g cos sin e a s (matNew_seed hr) hn] at hr
  have hr' : r.1 = builtMat g cos sin e a s := by
    cases hc : matCheck (builtMat g cos sin e a s).frame with
    | ok u => rw [hc] at hr; simp only [Except.map, Except.ok.injEq] at hr; rw [← hr]
    | error u => rw [hc] at hr; simp [Except.map] at hr
  rw [hr']
  have hlen := builtMat_length g cos sin e a s
  obtain ⟨h1, h2, h3, h4, h5⟩ := columns_lengths g a a.n.toNat (g.reseed e a.seed s)
  have hseed : g.reseed e a.seed s = g.seed k := by simp [hk, Rng.reseed]
  have hdr : ∀ m i, drawn g (stateAfter g m (g.seed k)) i = drawn g (g.seed k) (m + i) := by
    intro m i; simp [drawn, stateAfter_add]
  have hz : (builtMat g cos sin e a s).fibers.map (·.z) = (columnsOf g a a.n.toNat (g.reseed e a.seed s)).zs := by
    apply List.ext_getElem
    · simp [hlen, h3]
    · intro i q1 q2
      simp only [List.getElem_map, builtMat]
      rw [fibersOf_getElem cos sin a _ _ h1 h2 h3 h4 h5 i _ (by simpa [h3] using q2)]
  refine ⟨hlen, ?_, ?_, ?_⟩
  · intro i hi
    have hi' : i < a.n.toNat := by rwa [hlen] at hi
    simp only [builtMat]
    rw [fibersOf_getElem cos sin a _ _ h1 h2 h3 h4 h5 i _ hi']
    simp only [columnsOf, uniform_fst, List.getElem_map, List.getElem_range, hseed, hdr]
    have e1 : ∀ t b : K, (-(1 / 2) + (1 / 2 - -(1 / 2)) * t) * b = b * (t - 1 / 2) := by
      intro t b; ring
    simp only [e1, and_self]
  · rw [hz]
    exact List.pairwise_insertionSort _ _
  · rw [hz]
    refine (List.perm_insertionSort _ _).trans ?_
    rw [uniform_fst, List.map_map, hseed]
    apply List.Perm.of_eq
    apply List.map_congr_left
    intro i _
    simp only [Function.comp, hdr]
    ring

/-- **C05** (consequence). Two mats with the same seed and `n`: positions depend only on `size` and are proportional to it (`c ≥ 0`),
whatever the other arguments; orientations depend only on `theta`, `psi`. -/
theorem C05_independence [IsStrictOrderedRing K] (g : Rng σ K) (cos sin : K → K) (e e' : σ) (a a' : MatArgs K)
    (k : Int) (hk : a.seed = some k) (hk' : a'.seed = some k) (hnn : a.n = a'.n) (s s' : σ)
    (r r' : Mat K × σ) (hr : matNew g cos sin e a s = .ok r) (hr' : matNew g cos sin e' a' s' = .ok r') :
    (∀ c, 0 ≤ c → a'.size = c * a.size →
      r'.1.fibers.map (·.x) = r.1.fibers.map (fun f => c * f.x) ∧
      r'.1.fibers.map (·.y) = r.1.fibers.map (fun f => c * f.y) ∧
      r'.1.fibers.map (·.z) = r.1.fibers.map (fun f => c * f.z)) ∧
    (a'.theta = a.theta → a'.psi = a.psi →
      r'.1.fibers.map (fun f => (f.u, f.v, f.w)) = r.1.fibers.map (fun f => (f.u, f.v, f.w))) := by
  obtain ⟨l1, c1, z1, p1⟩ := C05_columns g cos sin e a k hk s r hr
  obtain ⟨l2, c2, z2, p2⟩ := C05_columns g cos sin e' a' k hk' s' r' hr'
  rw [← hnn] at l2 p2 c2
  refine ⟨?_, ?_⟩
  · intro c hc hS
    refine ⟨?_, ?_, ?_⟩
    · apply List.ext_getElem
      · simp [l1, l2]
      · intro i q1 q2
        simp only [List.getElem_map]
        simp only [List.length_map] at q1 q2
        rw [(c1 i q2).1, (c2 i q1).1, hS]; ring
    · apply List.ext_getElem
      · simp [l1, l2]
      · intro i q1 q2
        simp only [List.getElem_map]
        simp only [List.length_map] at q1 q2
        rw [(c1 i q2).2.1, (c2 i q1).2.1, hS]; ring
    · refine List.Perm.eq_of_pairwise' (r := (· ≤ ·)) z2 ?_ ?_
      · have : r.1.fibers.map (fun f => c * f.z) = (r.1.fibers.map (·.z)).map (c * ·) := by simp
        rw [this, List.pairwise_map]
        exact z1.imp (fun h => mul_le_mul_of_nonneg_left h hc)
      · refine p2.trans ?_
        have : r.1.fibers.map (fun f => c * f.z) = (r.1.fibers.map (·.z)).map (c * ·) := by simp
        rw [this]
        refine List.Perm.trans ?_ (p1.map _).symm
        apply List.Perm.of_eq
        rw [List.map_map]
        apply List.map_congr_left
        intro i _
        simp only [Function.comp, hS]; ring
  · intro ht hp
    apply List.ext_getElem
    · simp [l1, l2]
    · intro i q1 q2
      simp only [List.getElem_map]
      simp only [List.length_map] at q1 q2
      obtain ⟨_, _, ⟨a1, a2, a3⟩, _⟩ := c1 i q2
      obtain ⟨_, _, ⟨b1, b2, b3⟩, _⟩ := c2 i q1
      rw [a1, a2, a3, b1, b2, b3, ht, hp]

/-! ### Concrete cases -/

/-- A toy generator with values in `[0, 1)`. -/
def toyRng : Rng Nat ℚ where
  seed := fun k => k.toNat
  next := fun s => (((s % 7 : Nat) : ℚ) / 7, s + 3)

theorem toyRng_unit : UnitInterval toyRng := by
  intro s
  have h : s % 7 < 7 := Nat.mod_lt _ (by norm_num)
  constructor
  · simp only [toyRng]; positivity
  · simp only [toyRng]
    rw [div_lt_one (by norm_num)]
    exact_mod_cast h

theorem near_toy : NearUnit (fun _ : ℚ => 3 / 5) (fun _ => 4 / 5) 0 := by intro t; norm_num

/-- Arguments with an infinite tensile modulus; three fibers. -/
def toyArgs : MatArgs ℚ :=
  { n := 3, length := 2, width := 1, thickness := 1, size := 10, theta := 1, psi := 0, shear := 1
    tensile := ⊤, seed := some 0 }

example : ∃ r, matNew toyRng (fun _ => 3 / 5) (fun _ => 4 / 5) 0 toyArgs 17 = .ok r ∧ r.1.fibers.length = 3 := by
  obtain ⟨r, hr⟩ := (C03_matNew_ok_iff toyRng (fun _ => 3 / 5) (fun _ => 4 / 5) 0 toyArgs 17 toyRng_unit
    near_toy (by norm_num)).2 ⟨by simp [toyArgs, GoodSeed], Or.inr ⟨by decide, by norm_num [toyArgs], by norm_num [toyArgs],
      by norm_num [toyArgs], by norm_num [toyArgs], by norm_num [toyArgs], by simp [toyArgs]⟩⟩
  refine ⟨r, hr, ?_⟩
  have := (C03_matNew_result toyRng _ _ 0 toyArgs 17 toyRng_unit near_toy (by norm_num) (by norm_num [toyArgs]) r hr).1
  simp [toyArgs] at this
  exact_mod_cast this

/-- A negative seed is refused. -/
example : matNew toyRng (fun _ => 3 / 5) (fun _ => 4 / 5) 0 { toyArgs with seed := some (-1) } 17 = .error .valueError := by
  apply C03_matNew_error _ _ _ _ _ _ toyRng_unit near_toy (by norm_num)
  rintro ⟨h, -⟩
  have := (h (-1) rfl).1
  norm_num at this

/-- A non-positive thickness is refused. -/
example : matNew toyRng (fun _ => 3 / 5) (fun _ => 4 / 5) 0 { toyArgs with thickness := 0 } 17 = .error .valueError := by
  apply C03_matNew_error _ _ _ _ _ _ toyRng_unit near_toy (by norm_num)
  simp [toyArgs, PositiveArgs]

end Fibermat
