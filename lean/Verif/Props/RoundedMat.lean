import Verif.Lemmas.RoundedMat
import Verif.Props.RoundedStack
import Verif.Props.Rounded
import Verif.Props.Main

/-! # C94: the mat and the whole program with rounded arithmetic -/

namespace Fibermat
open Spec
variable {σ K : Type} [Field K] [LinearOrder K]

/-! ## Mat.init -/

theorem draws_mem (g : Rng σ K) (n : Nat) (s : σ) {a : K} (h : a ∈ (g.draws n s).1) : ∃ t, a = (g.next t).1 := by
  rw [draws_eq, List.mem_map] at h
  obtain ⟨i, -, rfl⟩ := h
  exact ⟨_, rfl⟩

/-- The number computed from a draw. -/
def unif (fl : K → K) (a : K) : K := fl (-(1 / 2) + fl (fl (1 / 2 - -(1 / 2)) * a))

theorem uniformR_mem (fl : K → K) (g : Rng σ K) (n : Nat) (s : σ) {t : K} (h : t ∈ (g.uniformR fl n s).1) :
    ∃ w, t = unif fl (g.next w).1 := by
  unfold Rng.uniformR at h
  obtain ⟨a, ha, rfl⟩ := List.mem_map.1 h
  obtain ⟨w, rfl⟩ := draws_mem g n s ha
  exact ⟨w, rfl⟩

theorem uniformR_length (fl : K → K) (g : Rng σ K) (n : Nat) (s : σ) : (g.uniformR fl n s).1.length = n := by
  simp [Rng.uniformR, draws_fst_length]

/-- Fibers of the mat computed by `Mat.init`. -/
theorem matInitR_fibers (fl : K → K) (g : Rng σ K) (cos sin : K → K) (e : σ) (a : MatArgs K) (s : σ) (hs : GoodSeed a.seed)
    (hn : 0 ≤ a.n) :
    ∃ fs s', matInitR fl g cos sin e a s = .ok ({ fibers := fs, attrs := { n := some a.n, size := some a.size } }, s') ∧
      fs.length = a.n.toNat ∧ ∀ f ∈ fs, ∃ wx wy wz wp wq : σ, f =
        { l := a.length, b := a.width, h := a.thickness
          x := fl (unif fl (g.next wx).1 * a.size), y := fl (unif fl (g.next wy).1 * a.size), z := fl (unif fl (g.next wz).1 * a.size)
          u := fl (cos (fl (unif fl (g.next wp).1 * a.theta)) * cos (fl (unif fl (g.next wq).1 * a.psi)))
          v := fl (sin (fl (unif fl (g.next wp).1 * a.theta)) * cos (fl (unif fl (g.next wq).1 * a.psi)))
          w := sin (fl (unif fl (g.next wq).1 * a.psi))
          G := a.shear, E := a.tensile } := by
  rw [← seedOk_iff] at hs
  unfold matInitR
  simp only [hs, Bool.not_true, Bool.false_eq_true, if_false, if_neg (not_lt.2 hn)]
  refine ⟨_, _, rfl, by simp [uniformR_length], ?_⟩
  intro f hf
  obtain ⟨⟨x, y, z, p, q⟩, hm, rfl⟩ := List.mem_map.1 hf
  have h1 := (List.of_mem_zip hm).1
  have h2 := List.of_mem_zip (List.of_mem_zip hm).2
  have h3 := List.of_mem_zip h2.2
  have h4 := List.of_mem_zip h3.2
  obtain ⟨tx, hx, rfl⟩ := List.mem_map.1 h1
  obtain ⟨ty, hy, rfl⟩ := List.mem_map.1 h2.1
  obtain ⟨tz, hz, rfl⟩ := List.mem_map.1 ((List.mem_insertionSort _).1 h3.1)
  obtain ⟨tp, hp, rfl⟩ := List.mem_map.1 h4.1
  obtain ⟨tq, hq, rfl⟩ := List.mem_map.1 h4.2
  obtain ⟨wx, rfl⟩ := uniformR_mem fl g _ _ hx
  obtain ⟨wy, rfl⟩ := uniformR_mem fl g _ _ hy
  obtain ⟨wz, rfl⟩ := uniformR_mem fl g _ _ hz
  obtain ⟨wp, rfl⟩ := uniformR_mem fl g _ _ hp
  obtain ⟨wq, rfl⟩ := uniformR_mem fl g _ _ hq
  exact ⟨wx, wy, wz, wp, wq, rfl⟩

section
variable [IsStrictOrderedRing K] {fl sq cos sin : K → K} {u ε : K} {g : Rng σ K} {e : σ} {a : MatArgs K} {s s' : σ} {m : Mat K}

/-- C94: mats accepted for sure by the computed `Mat.check`. -/
theorem C94_accepts (hr : Rounds fl u) (hs : RoundsSqrt sq u) (hu : u ≤ 1 / 10 ^ 8) (h : GoodMatUpTo (99 / 10 ^ 7) m)
    (hS : ∀ S, m.attrs.size = some S → HalfExact fl S) : matCheckR fl sq m.frame = .ok () := by
  obtain ⟨S, hS', hf⟩ := h.size
  have hh := hS S hS'
  rcases matCheckR_cases fl sq m with h1 | ⟨-, h1 | h1, -⟩ | ⟨-, n, S', hn, hS2, h1⟩
  · exact h1.2
  · rw [h.n] at h1; cases h1
  · rw [hS'] at h1; cases h1
  · rw [h1, if_pos]
    rw [hS'] at hS2; cases hS2
    rw [h.n] at hn; cases hn
    refine ⟨rfl, fun f hm => ?_⟩
    have k := hf f hm
    rw [hh.pos, hh.neg]
    exact ⟨⟨k.l, k.b, k.h⟩, ⟨⟨k.x1, k.x2⟩, k.y1, k.y2⟩, normR_accepts hr hs hu k.dir1 k.dir2, k.G, k.E⟩

/-- C94: mats accepted at all by the computed `Mat.check`. -/
theorem C94_only (hr : Rounds fl u) (hs : RoundsSqrt sq u) (hu : u ≤ 1 / 10 ^ 8)
    (hS : ∀ S, m.attrs.size = some S → HalfExact fl S) (h : matCheckR fl sq m.frame = .ok ()) :
    Skipped m.attrs ∨ GoodMatUpTo (101 / 10 ^ 7) m := by
  rcases matCheckR_cases fl sq m with h1 | ⟨-, -, h1⟩ | ⟨-, n, S, hn, hS', h1⟩
  · exact Or.inl h1.1
  · rw [h] at h1; cases h1
  · right
    rw [h] at h1
    split_ifs at h1 with h2
    refine ⟨by rw [hn, h2.1], S, hS', fun f hf => ?_⟩
    have hh := hS S hS'
    obtain ⟨⟨k1, k2, k3⟩, ⟨⟨k4, k5⟩, k6, k7⟩, k8, k9, k10⟩ := h2.2 f hf
    rw [hh.pos] at k5 k7
    rw [hh.neg] at k4 k6
    obtain ⟨d1, d2⟩ := normR_only hr hs hu k8
    exact ⟨k1, k2, k3, k4, k5, k6, k7, d1, d2, k9, k10⟩

theorem near_good {S : K} {f : Fiber K} (h : GoodUpTo S (99 / 10 ^ 7) f) : GoodFiber S f where
  l := h.l
  b := h.b
  h := h.h
  x1 := h.x1
  x2 := h.x2
  y1 := h.y1
  y2 := h.y2
  dir1 := le_trans (by norm_num) h.dir1
  dir2 := le_trans h.dir2 (by norm_num)
  G := h.G
  E := h.E

theorem matInitR_seed {fl : K → K} {g : Rng σ K} {cos sin : K → K} {e : σ} {a : MatArgs K} {s : σ} {r : Mat K × σ}
    (h : matInitR fl g cos sin e a s = .ok r) : GoodSeed a.seed := by
  rw [← seedOk_iff]
  by_contra hs
  rw [Bool.not_eq_true] at hs
  unfold matInitR at h
  simp [hs] at h

theorem matInitR_n {fl : K → K} {g : Rng σ K} {cos sin : K → K} {e : σ} {a : MatArgs K} {s : σ} {r : Mat K × σ}
    (h : matInitR fl g cos sin e a s = .ok r) : 0 ≤ a.n := by
  have hs := matInitR_seed h
  rw [← seedOk_iff] at hs
  by_contra hc
  unfold matInitR at h
  simp [hs, not_le.1 hc] at h

/-- The fibers computed by `Mat.init` are valid. -/
theorem matInitR_good (hr : Rounds fl u) (hu : u ≤ 1 / 10 ^ 8) (h1 : fl 1 = 1) (hh : HalfExact fl 1) (hS : HalfExact fl a.size)
    (hg : UnitInterval g) (hcs : NearUnit cos sin ε) (hε : ε ≤ 1 / 10 ^ 6) (ha : 0 ≤ a.size) (hp : PositiveArgs a)
    (h : matInitR fl g cos sin e a s = .ok (m, s')) :
    (m.fibers.length : Int) = a.n ∧ m.attrs = { n := some a.n, size := some a.size } ∧ GoodMatUpTo (99 / 10 ^ 7) m ∧
      ∀ f ∈ m.fibers, |f.u ^ 2 + f.v ^ 2 + f.w ^ 2 - 1| ≤ 3 * ε + 3 * u ∧ |f.z| ≤ a.size / 2 ∧
        f.l = a.length ∧ f.b = a.width ∧ f.h = a.thickness ∧ f.G = a.shear ∧ f.E = a.tensile ∧
        (a.psi = 0 → sin 0 = 0 → f.w = 0) := by
  have hn := matInitR_n h
  obtain ⟨fs, s1, e1, hl, hf⟩ := matInitR_fibers fl g cos sin e a s (matInitR_seed h) hn
  rw [e1] at h
  simp only [Except.ok.injEq, Prod.mk.injEq] at h
  obtain ⟨rfl, rfl⟩ := h
  have hlen : (fs.length : Int) = a.n := by rw [hl]; omega
  have bd : ∀ w, -(a.size / 2) ≤ fl (unif fl (g.next w).1 * a.size) ∧ fl (unif fl (g.next w).1 * a.size) ≤ a.size / 2 := by
    intro w
    obtain ⟨b1, b2⟩ := uniformR_bounds hr h1 hh (hg w).1 (hg w).2
    have := scaledR_bounds hr b1 b2 ha
    rwa [hS.pos, hS.neg] at this
  have dir : ∀ f ∈ fs, |f.u ^ 2 + f.v ^ 2 + f.w ^ 2 - 1| ≤ 3 * ε + 3 * u := by
    intro f hm
    obtain ⟨wx, wy, wz, wp, wq, rfl⟩ := hf f hm
    exact productR_near hr hu (hcs _) (hcs _) hε
  have small : 3 * ε + 3 * u ≤ 31 / 10 ^ 7 := by norm_num at hu hε ⊢; linarith
  refine ⟨hlen, rfl, ⟨by simp [hlen], a.size, rfl, ?_⟩, ?_⟩
  · intro f hm
    have d := abs_le.1 ((dir f hm).trans small)
    have d1 : (1 - 99 / 10 ^ 7) ^ 2 ≤ f.u ^ 2 + f.v ^ 2 + f.w ^ 2 := by
      have := d.1; norm_num at this ⊢; linarith
    have d2 : f.u ^ 2 + f.v ^ 2 + f.w ^ 2 ≤ (1 + 99 / 10 ^ 7) ^ 2 := by
      have := d.2; norm_num at this ⊢; linarith
    obtain ⟨wx, wy, wz, wp, wq, rfl⟩ := hf f hm
    exact ⟨hp.1, hp.2.1, hp.2.2.1, (bd wx).1, (bd wx).2, (bd wy).1, (bd wy).2, d1, d2, hp.2.2.2.1, hp.2.2.2.2⟩
  · intro f hm
    have d := dir f hm
    obtain ⟨wx, wy, wz, wp, wq, rfl⟩ := hf f hm
    refine ⟨d, abs_le.2 (bd wz), rfl, rfl, rfl, rfl, rfl, fun h0 hsin => ?_⟩
    simp only [h0, mul_zero, hr.zero, hsin]

/-- C94: `Mat(n, ...)` with rounding succeeds for the same arguments as with exact arithmetic, and otherwise raises the same exception. -/
theorem C94_matNew_ok_iff (hr : Rounds fl u) (hs : RoundsSqrt sq u) (hu : u ≤ 1 / 10 ^ 8) (h1 : fl 1 = 1) (hh : HalfExact fl 1)
    (hS : HalfExact fl a.size) (hg : UnitInterval g) (hcs : NearUnit cos sin ε) (hε : ε ≤ 1 / 10 ^ 6) :
    ((∃ r, matNewR fl sq g cos sin e a s = .ok r) ↔
      GoodSeed a.seed ∧ (a.n = 0 ∨ (0 < a.n ∧ 0 ≤ a.size ∧ PositiveArgs a))) ∧
    (¬ (GoodSeed a.seed ∧ (a.n = 0 ∨ (0 < a.n ∧ 0 ≤ a.size ∧ PositiveArgs a))) →
      matNewR fl sq g cos sin e a s = .error .valueError) := by
  have hu0 := hr.u_nonneg
  by_cases hseed : GoodSeed a.seed
  swap
  · have e1 : matNewR fl sq g cos sin e a s = .error .valueError := by
      rw [← seedOk_iff, Bool.not_eq_true] at hseed
      unfold matNewR matInitR
      simp [hseed, bind, Except.bind]
    exact ⟨⟨fun ⟨r, hr⟩ => (by rw [e1] at hr; cases hr), fun h => absurd h.1 hseed⟩, fun _ => e1⟩
  simp only [hseed, true_and]
  rcases lt_or_ge a.n 0 with hn | hn
  · have e1 : matNewR fl sq g cos sin e a s = .error .valueError := by
      unfold matNewR matInitR
      simp only [hn, if_true, bind, Except.bind]
      split_ifs <;> rfl
    refine ⟨⟨fun ⟨r, hr⟩ => (by rw [e1] at hr; cases hr), fun h => by omega⟩, fun _ => e1⟩
  obtain ⟨fs, s1, e1, hl, hf⟩ := matInitR_fibers fl g cos sin e a s hseed hn
  set m : Mat K := { fibers := fs, attrs := { n := some a.n, size := some a.size } } with hm
  have e2 : matNewR fl sq g cos sin e a s = (matCheckR fl sq m.frame).map (fun _ => (m, s1)) := by
    unfold matNewR
    rw [e1]
    simp only [bind, Except.bind, pure, Except.pure]
    cases matCheckR fl sq m.frame <;> rfl
  have hlen : (fs.length : Int) = a.n := by rw [hl]; omega
  have yes : a.n = 0 ∨ (0 < a.n ∧ 0 ≤ a.size ∧ PositiveArgs a) → matCheckR fl sq m.frame = .ok () := by
    rintro (h0 | ⟨h0, h2, h3⟩)
    · have : fs = [] := by rw [← List.length_eq_zero_iff]; omega
      refine C94_accepts hr hs hu ⟨by simp [hm, hlen], a.size, rfl, by simp [hm, this]⟩ ?_
      rintro S ⟨⟩
      exact hS
    · obtain ⟨-, -, h4, -⟩ := matInitR_good hr hu h1 hh hS hg hcs hε h2 h3 e1
      refine C94_accepts hr hs hu h4 ?_
      rintro S ⟨⟩
      exact hS
  have no : ¬ (a.n = 0 ∨ (0 < a.n ∧ 0 ≤ a.size ∧ PositiveArgs a)) → matCheckR fl sq m.frame = .error .valueError := by
    intro hno
    rcases matCheckR_cases fl sq m with h1 | ⟨-, h1 | h1, -⟩ | ⟨-, n, S', hn', hS2, h1⟩
    · exact absurd h1.1 (by simp [Skipped, hm])
    · cases h1
    · cases h1
    · rw [h1, if_neg]
      rintro ⟨-, h2⟩
      cases hS2
      have hpos : 0 < fs.length := by
        by_contra hc
        exact hno (Or.inl (by omega))
      have hmem : fs[0] ∈ fs := List.getElem_mem hpos
      have k := h2 _ hmem
      obtain ⟨wx, wy, wz, wp, wq, ef⟩ := hf _ hmem
      rw [ef] at k
      obtain ⟨⟨k1, k2, k3⟩, ⟨⟨k4, k5⟩, -⟩, -, k9, k10⟩ := k
      refine hno (Or.inr ⟨by omega, ?_, k1, k2, k3, k9, k10⟩)
      have := k4.trans k5
      rw [hS.pos, hS.neg] at this
      linarith
  constructor
  · constructor
    · rintro ⟨r, h⟩
      by_contra hc
      rw [e2, no hc] at h
      cases h
    · intro h
      exact ⟨(m, s1), by rw [e2, yes h]; rfl⟩
  · intro h
    rw [e2, no h]
    rfl

/-- C94: the mat built with rounding is also valid for the exact check; its fibers have the requested dimensions and moduli, their
directions have norm one up to `3 ε + 3 u` on squares, and they are horizontal if `psi = 0`. -/
theorem C94_matNew_result (hr : Rounds fl u) (hs : RoundsSqrt sq u) (hu : u ≤ 1 / 10 ^ 8) (h1 : fl 1 = 1) (hh : HalfExact fl 1)
    (hS : HalfExact fl a.size) (hg : UnitInterval g) (hcs : NearUnit cos sin ε) (hε : ε ≤ 1 / 10 ^ 6)
    (h : matNewR fl sq g cos sin e a s = .ok (m, s')) :
    (m.fibers.length : Int) = a.n ∧ m.attrs = { n := some a.n, size := some a.size } ∧ GoodMat m ∧
      ∀ f ∈ m.fibers, |f.u ^ 2 + f.v ^ 2 + f.w ^ 2 - 1| ≤ 3 * ε + 3 * u ∧ |f.z| ≤ a.size / 2 ∧
        f.l = a.length ∧ f.b = a.width ∧ f.h = a.thickness ∧ f.G = a.shear ∧ f.E = a.tensile ∧
        (a.psi = 0 → sin 0 = 0 → f.w = 0) := by
  have h2 := (C94_matNew_ok_iff (e := e) (s := s) hr hs hu h1 hh hS hg hcs hε).1.1 ⟨_, h⟩
  have h3 : matInitR fl g cos sin e a s = .ok (m, s') := by
    unfold matNewR at h
    cases hi : matInitR fl g cos sin e a s with
    | error x => rw [hi] at h; cases h
    | ok r =>
      rw [hi] at h
      simp only [bind, Except.bind, pure, Except.pure] at h
      cases hc : matCheckR fl sq r.1.frame with
      | error x => rw [hc] at h; cases h
      | ok _ => rw [hc] at h; exact h
  rcases h2 with ⟨hseed, h0 | ⟨-, h4, h5⟩⟩
  · obtain ⟨fs, s1, e1, hl, hf⟩ := matInitR_fibers fl g cos sin e a s hseed h0.ge
    rw [e1] at h3
    simp only [Except.ok.injEq, Prod.mk.injEq] at h3
    obtain ⟨rfl, rfl⟩ := h3
    have : fs = [] := by rw [← List.length_eq_zero_iff]; omega
    subst this
    exact ⟨by simp [h0], rfl, ⟨by simp [h0], a.size, rfl, by simp⟩, by simp⟩
  · obtain ⟨k1, k2, k3, k4⟩ := matInitR_good hr hu h1 hh hS hg hcs hε h4 h5 h3
    obtain ⟨S, hS', hf⟩ := k3.size
    exact ⟨k1, k2, ⟨k3.n, S, hS', fun f hm => near_good (hf f hm)⟩, k4⟩

omit [IsStrictOrderedRing K] in
theorem same_mem {m m' : Mat K} (h : SameExceptZ m m') {f : Fiber K} (hf : f ∈ m'.fibers) : ∃ f0 ∈ m.fibers, ∃ z, f = { f0 with z := z } := by
  have := List.mem_map_of_mem (f := fun f : Fiber K => { f with z := 0 }) hf
  rw [← h.2] at this
  obtain ⟨f0, hf0, e⟩ := List.mem_map.1 this
  refine ⟨f0, hf0, f.z, ?_⟩
  cases f; cases f0
  simp only [Fiber.mk.injEq] at e ⊢
  obtain ⟨rfl, rfl, rfl, rfl, rfl, -, rfl, rfl, rfl, rfl, rfl⟩ := e
  simp

theorem same_good {m m' : Mat K} (h : SameExceptZ m m') (hg : GoodMat m) : GoodMat m' := by
  obtain ⟨S, hS, hf⟩ := hg.size
  refine ⟨by rw [← h.1, hg.n, same_length h], S, by rw [← h.1, hS], fun f hm => ?_⟩
  obtain ⟨f0, hf0, z, rfl⟩ := same_mem h hm
  have k := hf f0 hf0
  exact ⟨k.l, k.b, k.h, k.x1, k.x2, k.y1, k.y2, k.dir1, k.dir2, k.G, k.E⟩

/-- C94: the check with rounding accepts a mat built by `Mat(n, ...)` also after its heights have been changed. -/
theorem C94_checks (hr : Rounds fl u) (hs : RoundsSqrt sq u) (hu : u ≤ 1 / 10 ^ 8) (h1 : fl 1 = 1) (hh : HalfExact fl 1)
    (hS : HalfExact fl a.size) (hg : UnitInterval g) (hcs : NearUnit cos sin ε) (hε : ε ≤ 1 / 10 ^ 6)
    (h : matNewR fl sq g cos sin e a s = .ok (m, s')) {m' : Mat K} (hm : SameExceptZ m m') :
    matCheckR fl sq m'.frame = .ok () ∧ matCheck m'.frame = .ok () := by
  obtain ⟨k1, k2, k3, k4⟩ := C94_matNew_result hr hs hu h1 hh hS hg hcs hε h
  have hgood : GoodMat m' := same_good hm k3
  refine ⟨?_, (matCheck_frame_iff m').2 (Or.inr hgood)⟩
  refine C94_accepts hr hs hu ⟨hgood.n, ?_⟩ ?_
  · obtain ⟨S, hS', hf⟩ := hgood.size
    refine ⟨S, hS', fun f hmem => ?_⟩
    have k := hf f hmem
    obtain ⟨f0, hf0, z, rfl⟩ := same_mem hm hmem
    have d := k4 f0 hf0
    have small : 3 * ε + 3 * u ≤ 31 / 10 ^ 7 := by norm_num at hu hε ⊢; linarith
    have d' := abs_le.1 (d.1.trans small)
    refine ⟨k.l, k.b, k.h, k.x1, k.x2, k.y1, k.y2, ?_, ?_, k.G, k.E⟩
    · have := d'.1; norm_num at this ⊢; linarith
    · have := d'.2; norm_num at this ⊢; linarith
  · intro S hS'
    rw [← hm.1, k2] at hS'
    cases hS'
    exact hS

/-! ## Comparison with exact arithmetic -/

/-- Sorting commutes with monotone functions. -/
theorem sort_map_mono {f : K → K} (hf : ∀ a b, a ≤ b → f a ≤ f b) (l : List K) :
    (l.map f).insertionSort (· ≤ ·) = (l.insertionSort (· ≤ ·)).map f := by
  refine List.Perm.eq_of_pairwise' (r := (· ≤ ·)) (List.pairwise_insertionSort _ _) ?_ ?_
  · rw [List.pairwise_map]
    exact (List.pairwise_insertionSort (· ≤ ·) l).imp fun h => hf _ _ h
  · exact (List.perm_insertionSort _ _).trans ((List.perm_insertionSort _ _).map f).symm

/-- Error of the numbers drawn and scaled. -/
theorem unif_near (hr : Rounds fl u) (h1 : fl 1 = 1) {t S : K} (h0 : 0 ≤ t) (ht : t < 1) (hh : HalfExact fl 1) :
    |fl (unif fl t * S) - (-(1 / 2) + (1 / 2 - -(1 / 2)) * t) * S| ≤ 2 * u * |S| := by
  have hu0 := hr.u_nonneg
  have b := uniformR_bounds hr h1 hh h0 ht
  have e : (1 / 2 - -(1 / 2) : K) = 1 := by norm_num
  unfold unif
  rw [e, h1, one_mul] at b ⊢
  have a0 : 0 ≤ fl t := hr.nonneg h0
  have a1 : fl t ≤ 1 := by have := hr.mono t 1 ht.le; rwa [h1] at this
  have c1 : |fl t - t| ≤ u := (hr.err t).trans (by rw [abs_of_nonneg h0]; nlinarith)
  have c2 : |fl (-(1 / 2) + fl t) - (-(1 / 2) + fl t)| ≤ u * (1 / 2) :=
    (hr.err _).trans (mul_le_mul_of_nonneg_left (abs_le.2 ⟨by linarith, by linarith⟩) hu0)
  set T := fl (-(1 / 2) + fl t)
  have c3 : |T - (-(1 / 2) + t)| ≤ u * (3 / 2) := by
    calc |T - (-(1 / 2) + t)| = |(T - (-(1 / 2) + fl t)) + (fl t - t)| := by ring_nf
      _ ≤ _ := abs_add_le _ _
      _ ≤ u * (3 / 2) := by linarith
  have c4 : |fl (T * S) - T * S| ≤ u * (1 / 2 * |S|) := by
    refine (hr.err _).trans (mul_le_mul_of_nonneg_left ?_ hu0)
    rw [abs_mul]
    exact mul_le_mul_of_nonneg_right (abs_le.2 ⟨by linarith [b.1], b.2⟩) (abs_nonneg _)
  calc |fl (T * S) - (-(1 / 2) + t) * S| = |(fl (T * S) - T * S) + (T - (-(1 / 2) + t)) * S| := by ring_nf
    _ ≤ |fl (T * S) - T * S| + |(T - (-(1 / 2) + t)) * S| := abs_add_le _ _
    _ ≤ u * (1 / 2 * |S|) + u * (3 / 2) * |S| := by
      refine add_le_add c4 ?_
      rw [abs_mul]
      exact mul_le_mul_of_nonneg_right c3 (abs_nonneg _)
    _ = _ := by ring

/-- Error of a product of two computed numbers. -/
theorem mul_track (hr : Rounds fl u) {c c' d d' α β : K} (h1 : |c' - c| ≤ α) (h2 : |d' - d| ≤ β) (hc : |c'| ≤ 1) (hd : |d| ≤ 1)
    (hd' : |d'| ≤ 1) : |fl (c' * d') - c * d| ≤ α + β + u := by
  have hu0 := hr.u_nonneg
  have k1 : |fl (c' * d') - c' * d'| ≤ u := by
    refine (hr.err _).trans ?_
    have : |c' * d'| ≤ 1 := by rw [abs_mul]; exact mul_le_one₀ hc (abs_nonneg _) hd'
    nlinarith
  have k2 : |c' * (d' - d)| ≤ β := by
    rw [abs_mul]
    calc |c'| * |d' - d| ≤ 1 * |d' - d| := mul_le_mul_of_nonneg_right hc (abs_nonneg _)
      _ ≤ β := by rw [one_mul]; exact h2
  have k3 : |(c' - c) * d| ≤ α := by
    rw [abs_mul]
    calc |c' - c| * |d| ≤ |c' - c| * 1 := mul_le_mul_of_nonneg_left hd (abs_nonneg _)
      _ ≤ α := by rw [mul_one]; exact h1
  calc |fl (c' * d') - c * d| = |(fl (c' * d') - c' * d') + (c' * (d' - d) + (c' - c) * d)| := by ring_nf
    _ ≤ |fl (c' * d') - c' * d'| + |c' * (d' - d) + (c' - c) * d| := abs_add_le _ _
    _ ≤ u + (β + α) := add_le_add k1 ((abs_add_le _ _).trans (add_le_add k2 k3))
    _ = _ := by ring

/-- C94: the mat built with rounding and the mat built with exact arithmetic from the same random numbers: corresponding fibers are at most
`2 u size` apart, and their directions at most `2 u (|theta| + |psi|) + 2 η + u`. -/
theorem C94_near {cos' sin' : K → K} {η : K} (hr : Rounds fl u) (h1 : fl 1 = 1) (hh : HalfExact fl 1) (hg : UnitInterval g)
    (hc : Tracks cos cos' η) (hsn : Tracks sin sin' η) (ha : 0 ≤ a.size) {m' : Mat K} {s1 s2 : σ}
    (h : matInit g cos sin e a s = .ok (m, s1)) (h' : matInitR fl g cos' sin' e a s = .ok (m', s2)) :
    s1 = s2 ∧ m'.attrs = m.attrs ∧ List.Forall₂ (NearFiber (2 * u * a.size) (2 * u * (|a.theta| + |a.psi|) + 2 * η + u)) m.fibers m'.fibers := by
  have hu0 := hr.u_nonneg
  have hη : 0 ≤ η := by have := (abs_nonneg _).trans (hc.near 0 0); simpa using this
  have hn := matInitR_n h'
  have hseed := matInitR_seed h'
  rw [← seedOk_iff] at hseed
  set n := a.n.toNat
  have key : ∀ (s : σ) (S : K), List.Forall₂ (fun x x' => |x' - x| ≤ 2 * u * |S|) ((g.uniform n s).1.map (· * S))
      ((g.uniformR fl n s).1.map (fun t => fl (t * S))) := by
    intro s S
    simp only [Rng.uniform, Rng.uniformR, List.map_map, List.forall₂_map_left_iff, List.forall₂_map_right_iff, Function.comp_def]
    rw [List.forall₂_same]
    intro t ht
    obtain ⟨w, rfl⟩ := draws_mem g n s ht
    exact unif_near hr h1 (hg w).1 (hg w).2 hh
  have keyz : ∀ (s : σ), List.Forall₂ (fun x x' => |x' - x| ≤ 2 * u * |a.size|) (((g.uniform n s).1.map (· * a.size)).insertionSort (· ≤ ·))
      (((g.uniformR fl n s).1.map (fun t => fl (t * a.size))).insertionSort (· ≤ ·)) := by
    intro s
    simp only [Rng.uniform, Rng.uniformR, List.map_map]
    rw [sort_map_mono, sort_map_mono]
    · simp only [List.forall₂_map_left_iff, List.forall₂_map_right_iff, Function.comp_def]
      rw [List.forall₂_same]
      intro t ht
      obtain ⟨w, rfl⟩ := draws_mem g n s ((List.mem_insertionSort _).1 ht)
      exact unif_near hr h1 (hg w).1 (hg w).2 hh
    · intro x y hxy
      refine hr.mono _ _ (mul_le_mul_of_nonneg_right ?_ ha)
      have e : (1 / 2 - -(1 / 2) : K) = 1 := by norm_num
      rw [e, h1]
      exact hr.mono _ _ (by linarith [hr.mono (1 * x) (1 * y) (by linarith)])
    · intro x y hxy
      refine mul_le_mul_of_nonneg_right ?_ ha
      have e : (1 / 2 - -(1 / 2) : K) = 1 := by norm_num
      rw [e]
      linarith
  have st : ∀ s : σ, (g.uniformR fl n s).2 = (g.uniform n s).2 := fun s => rfl
  unfold matInit at h
  unfold matInitR at h'
  simp only [hseed, Bool.not_true, Bool.false_eq_true, if_false, if_neg (not_lt.2 hn), Except.ok.injEq, Prod.mk.injEq] at h h'
  obtain ⟨rfl, rfl⟩ := h
  obtain ⟨rfl, rfl⟩ := h'
  refine ⟨rfl, rfl, ?_⟩
  simp only [st]
  have zipF : ∀ {α β γ δ : Type} {R : α → β → Prop} {Q : γ → δ → Prop} {l1 : List α} {l2 : List β} {l3 : List γ} {l4 : List δ},
      List.Forall₂ R l1 l2 → List.Forall₂ Q l3 l4 →
      List.Forall₂ (fun p q => R p.1 q.1 ∧ Q p.2 q.2) (l1.zip l3) (l2.zip l4) := by
    intro α β γ δ R Q l1 l2 l3 l4 ha hb
    induction ha generalizing l3 l4 with
    | nil => simp
    | cons h1 _ ih =>
      cases hb with
      | nil => simp
      | cons h2 hb' => exact List.Forall₂.cons ⟨h1, h2⟩ (ih hb')
  rw [List.forall₂_map_left_iff, List.forall₂_map_right_iff]
  refine List.Forall₂.imp ?_ (zipF (key (g.reseed e a.seed s) a.size) (zipF (key _ a.size) (zipF (keyz _) (zipF (key _ a.theta) (key _ a.psi)))))
  rintro ⟨x, y, z, p, q⟩ ⟨x', y', z', p', q'⟩ ⟨hx, hy, hz, hp, hq⟩
  simp only at hx hy hz hp hq
  rw [abs_of_nonneg ha] at hx hy hz
  have h0 : 0 ≤ 2 * u * |a.theta| := by positivity
  have h0' : 0 ≤ 2 * u * |a.psi| := by positivity
  have cp := (hc.near p p').trans (add_le_add_left hp η)
  have sp := (hsn.near p p').trans (add_le_add_left hp η)
  have cq := (hc.near q q').trans (add_le_add_left hq η)
  have sq' := (hsn.near q q').trans (add_le_add_left hq η)
  refine ⟨hx, hy, hz, ?_, ?_, ?_, rfl⟩
  · exact (mul_track hr cp cq (hc.le' _) (hc.le _) (hc.le' _)).trans (by linarith)
  · exact (mul_track hr sp cq (hsn.le' _) (hc.le _) (hc.le' _)).trans (by linarith)
  · exact sq'.trans (by linarith)

end

/-- C94: without rounding, the model is that of C03. -/
theorem C94_exact (g : Rng σ ℝ) (cos sin : ℝ → ℝ) (e : σ) (a : MatArgs ℝ) (s : σ) :
    matNewR id Real.sqrt g cos sin e a s = matNew g cos sin e a s := by
  have h1 : matInitR id g cos sin e a s = matInit g cos sin e a s := rfl
  have h2 : (normOkR id Real.sqrt : MatRow (Cell ℝ) → Bool) = normOk := by
    funext r
    obtain ⟨l, b, h, x, y, z, u, v, w, G, E⟩ := r
    cases u <;> cases v <;> cases w <;> try rfl
    rename_i u v w
    rw [Bool.eq_iff_iff, normOk_iff]
    simp only
    rw [C01_unit_iff_sqrt]
    simp only [normOkR]
    rw [decide_eq_true_eq]
    simp only [id_eq, dot3R]
    rw [show u * u + v * v + w * w = u ^ 2 + v ^ 2 + w ^ 2 by ring]
    norm_num
  have h3 : (matCheckR id Real.sqrt : MatFrame ℝ → Except Err Unit) = matCheck := by
    funext f
    unfold matCheckR matCheck
    rw [h2]
    rfl
  unfold matNewR matNew
  rw [h1, h3]

end Fibermat
