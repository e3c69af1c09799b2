import Verif.Lemmas.Curve
import Verif.Spec.Curve
import Verif.Props.Interp
import Verif.Props.SolverEnergy
import Verif.Props.SolverMore

/-! # The curve of force and thickness (C133) -/

set_option linter.unusedSectionVars false

namespace Fibermat
open Spec
variable {K : Type} [Field K] [LinearOrder K] [IsStrictOrderedRing K] {mat : Mat K} {mesh : Mesh K} {lmin lmax : Option K} {coupling : K}
  {o : Opts K} {perm : Option (List ℕ)} {S : Sys K} {recs : List (Rec K)} {stop : Stop}

/-- Total force of the plate in a record. -/
def recForce (C : Coo K) (n : ℕ) (a : Rec K) : K := totalForce C (fun j => a.x (n + j)) 2

theorem forceAt_eq {C : Coo K} {n : ℕ} (hlen : 2 ≤ recs.length) (size : Option ℕ) (hs : ∀ k, size = some k → 2 ≤ k) {t : K}
    (h0 : 0 ≤ t) (h1 : t ≤ 1) : forceAt C n recs size t = interpolate .linear (recs.map (recForce C n)) size t := by
  obtain ⟨w, w0, w1, hw⟩ := C52_weights (K := K) .linear hlen size hs h0 h1
  unfold forceAt totalForce
  rw [hw _ (by simp)]
  have e : ∀ j, (if j % 3 = 2 then interpolate .linear (recs.map (fun a => a.x (n + j))) size t else 0) =
      ∑ k ∈ Finset.range recs.length, w k * (if j % 3 = 2 then (recs.map (fun a => a.x (n + j))).getD k 0 else 0) := by
    intro j
    split_ifs
    · rw [hw _ (by simp)]
    · simp
  rw [Finset.sum_congr rfl (fun j _ => e j), Finset.sum_comm]
  apply Finset.sum_congr rfl
  intro k hk
  have hk := Finset.mem_range.1 hk
  rw [← Finset.mul_sum]
  simp [List.getD_eq_getElem?_getD, hk, recForce, totalForce]

/-- The records as a line. -/
theorem records_line (h : solve mat mesh lmin lmax coupling o perm = .ok (S, recs, stop)) (hm : GoodMat mat)
    (hp : PositiveLengths mesh.rows lmin lmax) (hcoup : |coupling| ≤ 1) (htol : 0 ≤ o.tol) (hlin : ExactLin o.lin)
    (hperm : PermOf S.n perm) {cs : ConstraintSys K} (hC : constraint mat mesh = .ok cs) :
    ConvexLine recs.length (fun k => (recs.map (·.Z)).getD k 0) (fun k => (recs.map (recForce cs.C (2 * mesh.rows.length))).getD k 0) := by
  have hZ : ∀ k (hk : k < recs.length), (recs.map (·.Z)).getD k 0 = (recs[k]).Z := by
    intro k hk; simp [List.getD_eq_getElem?_getD, hk]
  have hF : ∀ k (hk : k < recs.length), (recs.map (recForce cs.C (2 * mesh.rows.length))).getD k 0 = recForce cs.C (2 * mesh.rows.length) recs[k] := by
    intro k hk; simp [List.getD_eq_getElem?_getD, hk]
  have hd : ∀ k (hk : k + 1 < recs.length), (recs[k + 1]).Z < (recs[k]).Z := by
    intro k hk
    exact C41_down h hm hp htol k _ _ (List.getElem?_eq_getElem (by omega)) (List.getElem?_eq_getElem hk)
  constructor
  · intro k hk
    beta_reduce
    rw [hZ _ hk, hZ k (by omega)]
    exact hd k hk
  · intro k hk
    beta_reduce
    rw [hZ _ hk, hZ k (by omega), hZ (k + 1) (by omega), hF _ hk, hF k (by omega), hF (k + 1) (by omega)]
    have := C69_stiffening h hm hp htol hlin hperm hcoup hC k _ _ _ (List.getElem?_eq_getElem (by omega))
      (List.getElem?_eq_getElem (by omega)) (List.getElem?_eq_getElem hk)
    rwa [div_le_div_iff₀ (sub_pos.2 (hd k (by omega))) (sub_pos.2 (hd (k + 1) hk))] at this

/-- Points of the interpolated line, by place. -/
theorem line_strict {n : ℕ} {Z F : ℕ → K} (hl : ConvexLine n Z F) {i j : ℕ} {l m : K} (hi : i + 1 < n) (hj : j + 1 < n)
    (l1 : l ≤ 1) (m0 : 0 ≤ m) (hij : i < j ∨ (i = j ∧ l < m)) :
    (1 - m) * Z j + m * Z (j + 1) ≤ (1 - l) * Z i + l * Z (i + 1) ∧
    (¬ (l = 1 ∧ m = 0) → (1 - m) * Z j + m * Z (j + 1) < (1 - l) * Z i + l * Z (i + 1)) := by
  have hzi := hl.left i hi
  have hzj := hl.left j hj
  rcases hij with hij | ⟨rfl, hlm⟩
  · have hz := hl.anti' (show i + 1 ≤ j from hij) (by omega)
    have e1 := mul_nonneg (sub_nonneg.2 l1) (sub_nonneg.2 hzi.le)
    have e2 := mul_nonneg m0 (sub_nonneg.2 hzj.le)
    refine ⟨by nlinarith, fun hne => ?_⟩
    rcases eq_or_lt_of_le l1 with rfl | hl1
    · have hm : 0 < m := lt_of_le_of_ne m0 (fun h => hne ⟨rfl, h.symm⟩)
      have := mul_pos hm (sub_pos.2 hzj)
      nlinarith
    · have := mul_pos (sub_pos.2 hl1) (sub_pos.2 hzi)
      nlinarith
  · have := mul_pos (sub_pos.2 hlm) (sub_pos.2 hzi)
    exact ⟨by nlinarith, fun _ => by nlinarith⟩

/-- Samples of a line. -/
theorem line_samples {Zs Fs : List K} (hF : Fs.length = Zs.length) (hn : 2 ≤ Zs.length)
    (hl : ConvexLine Zs.length (fun k => Zs.getD k 0) (fun k => Fs.getD k 0)) (a b : K) {t s : K} (h0 : 0 ≤ t) (hts : t < s) (h1 : s ≤ 1) :
    interp1d .linear (linspace Zs.length) Zs a s < interp1d .linear (linspace Zs.length) Zs a t := by
  obtain ⟨i, l, hi, l0, l1, ht, he⟩ := interp_place hn h0 (hts.le.trans h1)
  obtain ⟨j, m, hj, m0, m1, hs, he'⟩ := interp_place hn (h0.trans hts.le) h1
  rw [he Zs a rfl, he' Zs a rfl]
  have hpl := place_lt hn l0 m1 ht hs hts
  by_cases hc : l = 1 ∧ m = 0
  · obtain ⟨rfl, rfl⟩ := hc
    rcases hpl with hij | ⟨-, hlm⟩
    · have hne : i + 1 ≠ j := by
        rintro rfl
        rw [ht, hs] at hts
        linarith
      have := hl.anti (show i + 1 < j by omega) (by omega)
      beta_reduce at this
      linarith
    · linarith
  · exact (line_strict hl hi hj l1 m0 hpl).2 hc

theorem line_on {Zs Fs : List K} (hF : Fs.length = Zs.length) (hn : 2 ≤ Zs.length) (a b : K) {t : K} (h0 : 0 ≤ t) (h1 : t ≤ 1) :
    OnLine Zs.length (fun k => Zs.getD k 0) (fun k => Fs.getD k 0) (interp1d .linear (linspace Zs.length) Zs a t)
      (interp1d .linear (linspace Zs.length) Fs b t) := by
  obtain ⟨i, l, hi, l0, l1, ht, he⟩ := interp_place hn h0 h1
  exact ⟨i, l, hi, l0, l1, he Zs a rfl, he Fs b hF⟩

/-- The sampled line is again convex. -/
theorem line_sampled {Zs Fs : List K} (hF : Fs.length = Zs.length) (hn : 2 ≤ Zs.length)
    (hl : ConvexLine Zs.length (fun k => Zs.getD k 0) (fun k => Fs.getD k 0)) (a b : K) {N : ℕ} (hN : 2 ≤ N) :
    ConvexLine N (fun k => ((linspace N : List K).map (interp1d .linear (linspace Zs.length) Zs a)).getD k 0)
      (fun k => ((linspace N : List K).map (interp1d .linear (linspace Zs.length) Fs b)).getD k 0) := by
  have e : ∀ (f : K → K) k, k < N → ((linspace N : List K).map f).getD k 0 = f (knot N k) := by
    intro f k hk
    simp [linspace, List.getD_eq_getElem?_getD, hk]
  have hlt : ∀ k, k + 1 < N → interp1d .linear (linspace Zs.length) Zs a (knot N (k + 1)) < interp1d .linear (linspace Zs.length) Zs a (knot N k) :=
    fun k hk => line_samples hF hn hl a b (knot_mem hN (by omega)).1 ((knot_lt hN).2 (by omega)) (knot_mem hN hk).2
  constructor
  · intro k hk
    beta_reduce
    rw [e _ _ hk, e _ k (by omega)]
    exact hlt k hk
  · intro k hk
    beta_reduce
    rw [e _ _ hk, e _ k (by omega), e _ (k + 1) (by omega), e _ _ hk, e _ k (by omega), e _ (k + 1) (by omega)]
    have t := hl.triple (line_on hF hn a b (knot_mem hN (by omega : k < N)).1 (knot_mem hN (by omega)).2)
      (line_on hF hn a b (knot_mem hN (by omega : k + 1 < N)).1 (knot_mem hN (by omega)).2)
      (line_on hF hn a b (knot_mem hN hk).1 (knot_mem hN hk).2) (hlt k (by omega)).le (hlt (k + 1) hk).le
    linarith

section
variable (h : solve mat mesh lmin lmax coupling o perm = .ok (S, recs, stop)) (hm : GoodMat mat)
  (hp : PositiveLengths mesh.rows lmin lmax) (hcoup : |coupling| ≤ 1) (htol : 0 ≤ o.tol) (hlin : ExactLin o.lin)
  (hperm : PermOf S.n perm) {cs : ConstraintSys K} (hC : constraint mat mesh = .ok cs) (hlen : 2 ≤ recs.length)
  (size : Option ℕ) (hs : ∀ k, size = some k → 2 ≤ k)
include h hm hp hcoup htol hlin hperm hC hlen hs

/-- C133: the curve of force and thickness returned by `solve` goes down in thickness and up in force with the pseudo-time. -/
theorem C133_monotone {t s : K} (h0 : 0 ≤ t) (hts : t < s) (h1 : s ≤ 1) : heightAt recs size s < heightAt recs size t ∧
    forceAt cs.C (2 * mesh.rows.length) recs size t ≤ forceAt cs.C (2 * mesh.rows.length) recs size s := by
  have hl := records_line h hm hp hcoup htol hlin hperm hC
  set Zs := recs.map (·.Z) with hZs
  set Fs := recs.map (recForce cs.C (2 * mesh.rows.length)) with hFs
  have hZl : Zs.length = recs.length := by simp [hZs]
  have hFl : Fs.length = Zs.length := by simp [hZs, hFs]
  rw [← hZl] at hl
  have hn : 2 ≤ Zs.length := by rw [hZl]; exact hlen
  have hN : 2 ≤ samples Zs size := by
    cases size with
    | none => exact hn
    | some n => exact hs n rfl
  constructor
  · unfold heightAt
    rw [← hZs, interpolate_eq, interpolate_eq]
    have := line_samples (Zs := (linspace (samples Zs size) : List K).map (interp1d .linear (linspace Zs.length) Zs (Zs.getLastD 0)))
      (Fs := (linspace (samples Zs size) : List K).map (interp1d .linear (linspace Zs.length) Fs (Fs.getLastD 0)))
      (by simp) (by rw [resample_length]; exact hN) (by rw [resample_length]; exact line_sampled hFl hn hl _ _ hN)
      (Zs.getLastD 0) 0 h0 hts h1
    rwa [resample_length] at this
  · rw [forceAt_eq hlen size hs h0 (hts.le.trans h1), forceAt_eq hlen size hs (h0.trans hts.le) h1]
    refine C53_monotone .linear _ (by simpa using hlen) size hs ?_ h0 hts.le h1
    rw [List.pairwise_map]
    have key : ∀ k a b, recs[k]? = some a → recs[k + 1]? = some b → recForce cs.C (2 * mesh.rows.length) a ≤ recForce cs.C (2 * mesh.rows.length) b := by
      intro k a b ha hb
      exact C47_monotone h hm hp htol hlin hperm hcoup hC k a b ha hb
    rw [List.pairwise_iff_getElem]
    intro i j hi hj hij
    induction j, hij using Nat.le_induction with
    | base => exact key i _ _ (List.getElem?_eq_getElem hi) (List.getElem?_eq_getElem hj)
    | succ j hij ih => exact (ih (by omega)).trans (key j _ _ (List.getElem?_eq_getElem (by omega)) (List.getElem?_eq_getElem hj))

/-- C133: the curve is convex, also when it has been sampled again (`interp_size`). -/
theorem C133_convex {t1 t2 t3 : K} (h0 : 0 ≤ t1) (h12 : t1 ≤ t2) (h23 : t2 ≤ t3) (h1 : t3 ≤ 1) :
    (heightAt recs size t1 - heightAt recs size t3) * forceAt cs.C (2 * mesh.rows.length) recs size t2 ≤
      (heightAt recs size t2 - heightAt recs size t3) * forceAt cs.C (2 * mesh.rows.length) recs size t1 +
      (heightAt recs size t1 - heightAt recs size t2) * forceAt cs.C (2 * mesh.rows.length) recs size t3 := by
  have hmono : ∀ {t s : K}, 0 ≤ t → t ≤ s → s ≤ 1 → heightAt recs size s ≤ heightAt recs size t := by
    intro t s a b c
    rcases eq_or_lt_of_le b with rfl | b
    · exact le_rfl
    · exact (C133_monotone h hm hp hcoup htol hlin hperm hC hlen size hs a b c).1.le
  have m12 := hmono h0 h12 (h23.trans h1)
  have m23 := hmono (h0.trans h12) h23 h1
  rw [forceAt_eq hlen size hs h0 (h12.trans (h23.trans h1)), forceAt_eq hlen size hs (h0.trans h12) (h23.trans h1),
    forceAt_eq hlen size hs (h0.trans (h12.trans h23)) h1]
  have hl := records_line h hm hp hcoup htol hlin hperm hC
  unfold heightAt at *
  set Zs := recs.map (·.Z) with hZs
  set Fs := recs.map (recForce cs.C (2 * mesh.rows.length)) with hFs
  have hZl : Zs.length = recs.length := by simp [hZs]
  have hFl : Fs.length = Zs.length := by simp [hZs, hFs]
  rw [← hZl] at hl
  have hn : 2 ≤ Zs.length := by rw [hZl]; exact hlen
  have hN : 2 ≤ samples Zs size := by
    cases size with
    | none => exact hn
    | some n => exact hs n rfl
  have hNF : samples Fs size = samples Zs size := by
    cases size with
    | none => exact hFl
    | some n => rfl
  have hl' := line_sampled hFl hn hl (Zs.getLastD 0) (Fs.getLastD 0) hN
  have on : ∀ t, 0 ≤ t → t ≤ 1 → OnLine (samples Zs size)
      (fun k => ((linspace (samples Zs size) : List K).map (interp1d .linear (linspace Zs.length) Zs (Zs.getLastD 0))).getD k 0)
      (fun k => ((linspace (samples Zs size) : List K).map (interp1d .linear (linspace Zs.length) Fs (Fs.getLastD 0))).getD k 0)
      (interpolate .linear Zs size t) (interpolate .linear Fs size t) := by
    intro t a b
    rw [interpolate_eq, interpolate_eq, hNF, hFl]
    obtain ⟨i, l, hi, l0, l1, ht, he⟩ := interp_place hN a b
    exact ⟨i, l, hi, l0, l1, he _ _ (resample_length _ _), he _ _ (resample_length _ _)⟩
  exact hl'.triple (on t1 h0 (h12.trans (h23.trans h1))) (on t2 (h0.trans h12) (h23.trans h1)) (on t3 (h0.trans (h12.trans h23)) h1) m12 m23

/-- C133: at the same thickness, the sampled curve gives at least the force of the recorded one. -/
theorem C133_above {t s : K} (h0 : 0 ≤ t) (h1 : t ≤ 1) (s0 : 0 ≤ s) (s1 : s ≤ 1) (hts : heightAt recs size t = heightAt recs none s) :
    forceAt cs.C (2 * mesh.rows.length) recs none s ≤ forceAt cs.C (2 * mesh.rows.length) recs size t := by
  rw [forceAt_eq hlen size hs h0 h1, forceAt_eq hlen none (by rintro k ⟨⟩) s0 s1]
  have hl := records_line h hm hp hcoup htol hlin hperm hC
  unfold heightAt at *
  set Zs := recs.map (·.Z) with hZs
  set Fs := recs.map (recForce cs.C (2 * mesh.rows.length)) with hFs
  have hZl : Zs.length = recs.length := by simp [hZs]
  have hFl : Fs.length = Zs.length := by simp [hZs, hFs]
  rw [← hZl] at hl
  have hn : 2 ≤ Zs.length := by rw [hZl]; exact hlen
  have hN : 2 ≤ samples Zs size := by
    cases size with
    | none => exact hn
    | some n => exact hs n rfl
  have hNF : samples Fs size = samples Zs size := by
    cases size with
    | none => exact hFl
    | some n => rfl
  have hself : ∀ y : List K, y.length = Zs.length → interpolate .linear y none s = interp1d .linear (linspace Zs.length) y 0 s := by
    intro y hy
    rw [interpolate_eq]
    obtain ⟨i, l, hi, l0, l1, ht, he⟩ := interp_place hn s0 s1
    have e : samples y none = Zs.length := hy
    rw [e, he _ _ (resample_length _ _), he _ _ hy, resample_getD .linear y (by omega), resample_getD .linear y hi, hy,
      interp_knot .linear hn (by omega) y _ hy, interp_knot .linear hn hi y _ hy]
  rw [hself Zs rfl] at hts
  rw [hself Fs hFl]
  rw [interpolate_eq] at hts
  rw [interpolate_eq, hNF]
  obtain ⟨i, l, hi, l0, l1, ht, he⟩ := interp_place hN h0 h1
  rw [he _ _ (resample_length _ _), resample_getD .linear _ (by omega), resample_getD .linear _ hi] at hts
  rw [he _ _ (resample_length _ _), resample_getD .linear _ (by omega), resample_getD .linear _ hi, hFl]
  exact hl.chord (line_on hFl hn _ _ (knot_mem hN (by omega)).1 (knot_mem hN (by omega)).2) (line_on hFl hn _ _ s0 s1)
    (line_on hFl hn _ _ (knot_mem hN hi).1 (knot_mem hN hi).2) l0 l1 hts.symm

end

/-- Place of the first and of the last time. -/
theorem place_ends {n : ℕ} (hn : 2 ≤ n) {i : ℕ} {l : K} (hi : i + 1 < n) (l0 : 0 ≤ l) (l1 : l ≤ 1) :
    ((0 : K) = (1 - l) * knot n i + l * knot n (i + 1) → i = 0 ∧ l = 0) ∧
    ((1 : K) = (1 - l) * knot n i + l * knot n (i + 1) → i + 1 = n - 1 ∧ l = 1) := by
  have hlt : (knot n i : K) < knot n (i + 1) := (knot_lt hn).2 (by omega)
  have ha := (knot_mem (K := K) hn (by omega : i < n)).1
  have hb := (knot_mem (K := K) hn hi).2
  constructor
  · intro h
    have e1 := mul_nonneg l0 (sub_nonneg.2 hlt.le)
    have hz : (knot n i : K) = knot n 0 := by rw [knot_zero]; nlinarith
    have hi0 := knot_inj hn hz
    refine ⟨hi0, ?_⟩
    rw [hz, knot_zero] at h hlt
    have : l * knot n (i + 1) = 0 := by linarith
    rcases mul_eq_zero.1 this with h | h
    · exact h
    · linarith
  · intro h
    have e1 := mul_nonneg (sub_nonneg.2 l1) (sub_nonneg.2 hlt.le)
    have hz : (knot n (i + 1) : K) = knot n (n - 1) := by rw [knot_last hn]; nlinarith
    refine ⟨knot_inj hn hz, ?_⟩
    rw [hz, knot_last hn] at h hlt
    have : (1 - l) * (1 - knot n i) = 0 := by linarith
    rcases mul_eq_zero.1 this with h | h
    · linarith
    · linarith

/-- The area below the records is the elastic energy. -/
theorem records_area (h : solve mat mesh lmin lmax coupling o perm = .ok (S, recs, stop)) (hm : GoodMat mat)
    (hp : PositiveLengths mesh.rows lmin lmax) (htol : 0 ≤ o.tol) (hlin : ExactLin o.lin)
    (hperm : PermOf S.n perm) {cs : ConstraintSys K} (hC : constraint mat mesh = .ok cs) {L : ℕ → K}
    (hL : BeamLengths mesh.rows lmin lmax L) (k : ℕ) (a : Rec K) (ha : recs[k]? = some a) :
    vertexArea (fun k => (recs.map (·.Z)).getD k 0) (fun k => (recs.map (recForce cs.C (2 * mesh.rows.length))).getD k 0) k =
      elasticEnergy mat mesh.rows coupling L a.x := by
  induction k generalizing a with
  | zero =>
    obtain ⟨-, a', ha', hx, -⟩ := C40_itermax h
    rw [ha] at ha'; cases ha'
    have : elasticEnergy mat mesh.rows coupling L a.x = 0 := by
      classical
      unfold elasticEnergy
      apply Finset.sum_eq_zero
      intro i _
      split
      · split
        · rfl
        · simp [elementEnergy, hx]
      · rfl
    rw [this]
    rfl
  | succ k ih =>
    have hk : k < recs.length := by
      have := (List.getElem?_eq_some_iff.1 ha).1
      omega
    have hb := List.getElem?_eq_getElem hk
    have hw := C68_work h hm hp htol hlin hperm hC hL k _ a hb ha
    simp only [vertexArea, ih _ hb]
    simp only [List.getD_eq_getElem?_getD, List.getElem?_map, hb, ha, Option.map_some, Option.getD_some, recForce]
    linarith

/-- C133: the area below the curve, computed by the trapezoidal rule from `N` samples, is at least the elastic energy of the last state. -/
theorem C133_area (h : solve mat mesh lmin lmax coupling o perm = .ok (S, recs, stop)) (hm : GoodMat mat)
    (hp : PositiveLengths mesh.rows lmin lmax) (hcoup : |coupling| ≤ 1) (htol : 0 ≤ o.tol) (hlin : ExactLin o.lin)
    (hperm : PermOf S.n perm) {cs : ConstraintSys K} (hC : constraint mat mesh = .ok cs) {L : ℕ → K}
    (hL : BeamLengths mesh.rows lmin lmax L) (hlen : 2 ≤ recs.length) (size : Option ℕ) (hs : ∀ k, size = some k → 2 ≤ k)
    (a : Rec K) (ha : recs[recs.length - 1]? = some a) :
    let N := size.getD recs.length
    elasticEnergy mat mesh.rows coupling L a.x ≤
      twiceArea (fun k => heightAt recs size ((k : K) / ((N : K) - 1)))
        (fun k => forceAt cs.C (2 * mesh.rows.length) recs size ((k : K) / ((N : K) - 1))) (N - 1) ∧
    (size = none → elasticEnergy mat mesh.rows coupling L a.x =
      twiceArea (fun k => heightAt recs size ((k : K) / ((N : K) - 1)))
        (fun k => forceAt cs.C (2 * mesh.rows.length) recs size ((k : K) / ((N : K) - 1))) (N - 1)) := by
  intro N
  have hl := records_line h hm hp hcoup htol hlin hperm hC
  have hE := records_area h hm hp htol hlin hperm hC hL _ a ha
  have hN : 2 ≤ N := by
    cases size with
    | none => exact hlen
    | some n => exact hs n rfl
  have hFk : ∀ k, k < N → forceAt cs.C (2 * mesh.rows.length) recs size ((k : K) / ((N : K) - 1)) =
      interpolate .linear (recs.map (recForce cs.C (2 * mesh.rows.length))) size (knot N k) :=
    fun k hk => forceAt_eq hlen size hs (knot_mem hN hk).1 (knot_mem hN hk).2
  rw [← hE]
  unfold heightAt
  set Zs := recs.map (·.Z) with hZs
  set Fs := recs.map (recForce cs.C (2 * mesh.rows.length)) with hFs
  have hZl : Zs.length = recs.length := by simp [hZs]
  have hFl : Fs.length = Zs.length := by simp [hZs, hFs]
  have hsZ : samples Zs size = N := by
    cases size with
    | none => exact hZl
    | some n => rfl
  have hsF : samples Fs size = N := by
    cases size with
    | none => exact hFl.trans hZl
    | some n => rfl
  have hn : 2 ≤ Zs.length := by rw [hZl]; exact hlen
  rw [← hZl] at hl ⊢
  have hzk : ∀ k, k < N → interpolate .linear Zs size ((k : K) / ((N : K) - 1)) = interp1d .linear (linspace Zs.length) Zs (Zs.getLastD 0) (knot N k) := by
    intro k hk
    have := interpolate_knot .linear Zs size (by rw [hsZ]; exact hN) (k := k) (by rw [hsZ]; exact hk)
    rwa [hsZ] at this
  have hfk : ∀ k, k < N → interpolate .linear Fs size (knot N k) = interp1d .linear (linspace Zs.length) Fs (Fs.getLastD 0) (knot N k) := by
    intro k hk
    have := interpolate_knot .linear Fs size (by rw [hsF]; exact hN) (k := k) (by rw [hsF]; exact hk)
    rwa [hsF, hFl] at this
  have hterm : twiceArea (fun k => interpolate .linear Zs size ((k : K) / ((N : K) - 1)))
        (fun k => forceAt cs.C (2 * mesh.rows.length) recs size ((k : K) / ((N : K) - 1))) (N - 1) =
      ∑ k ∈ Finset.range (N - 1), (interp1d .linear (linspace Zs.length) Fs (Fs.getLastD 0) (knot N k) +
          interp1d .linear (linspace Zs.length) Fs (Fs.getLastD 0) (knot N (k + 1))) *
        (interp1d .linear (linspace Zs.length) Zs (Zs.getLastD 0) (knot N k) - interp1d .linear (linspace Zs.length) Zs (Zs.getLastD 0) (knot N (k + 1))) := by
    unfold twiceArea
    apply Finset.sum_congr rfl
    intro k hk
    have hk := Finset.mem_range.1 hk
    beta_reduce
    rw [hFk k (by omega), hFk (k + 1) (by omega), hfk k (by omega), hfk (k + 1) (by omega), hzk k (by omega), hzk (k + 1) (by omega)]
  rw [hterm]
  constructor
  · have hpl : ∀ k, ∃ i l, k < N → (i + 1 < Zs.length ∧ 0 ≤ l ∧ l ≤ 1 ∧ knot N k = (1 - l) * knot Zs.length i + l * knot Zs.length (i + 1) ∧
        ∀ (y : List K) (fill : K), y.length = Zs.length →
          interp1d .linear (linspace Zs.length) y fill (knot N k) = (1 - l) * y.getD i 0 + l * y.getD (i + 1) 0) := by
      intro k
      by_cases hk : k < N
      · obtain ⟨i, l, hh⟩ := interp_place hn (knot_mem (K := K) hN hk).1 (knot_mem hN hk).2
        exact ⟨i, l, fun _ => hh⟩
      · exact ⟨0, 0, fun hh => absurd hh hk⟩
    choose I Λ hI using hpl
    have hstep : ∀ k ∈ Finset.range (N - 1), pointArea (fun k => Zs.getD k 0) (fun k => Fs.getD k 0) (I (k + 1)) (Λ (k + 1)) -
        pointArea (fun k => Zs.getD k 0) (fun k => Fs.getD k 0) (I k) (Λ k) ≤
        (interp1d .linear (linspace Zs.length) Fs (Fs.getLastD 0) (knot N k) +
          interp1d .linear (linspace Zs.length) Fs (Fs.getLastD 0) (knot N (k + 1))) *
        (interp1d .linear (linspace Zs.length) Zs (Zs.getLastD 0) (knot N k) - interp1d .linear (linspace Zs.length) Zs (Zs.getLastD 0) (knot N (k + 1))) := by
      intro k hk
      have hk := Finset.mem_range.1 hk
      obtain ⟨i1, i2, i3, i4, i5⟩ := hI k (by omega)
      obtain ⟨j1, j2, j3, j4, j5⟩ := hI (k + 1) (by omega)
      rw [i5 _ _ hFl, i5 _ _ rfl, j5 _ _ hFl, j5 _ _ rfl]
      refine hl.point_area hn i1 j1 i2 i3 j2 j3 ?_
      rcases place_lt hn i2 j3 i4 j4 ((knot_lt hN).2 (by omega)) with hh | hh
      · exact Or.inl hh
      · exact Or.inr hh.1
    have hsum := Finset.sum_le_sum hstep
    rw [Finset.sum_range_sub (fun k => pointArea (fun k => Zs.getD k 0) (fun k => Fs.getD k 0) (I k) (Λ k))] at hsum
    obtain ⟨i1, i2, i3, i4, -⟩ := hI 0 (by omega)
    obtain ⟨j1, j2, j3, j4, -⟩ := hI (N - 1) (by omega)
    rw [knot_zero] at i4
    rw [knot_last hN] at j4
    obtain ⟨a1, a2⟩ := (place_ends hn i1 i2 i3).1 i4
    obtain ⟨b1, b2⟩ := (place_ends hn j1 j2 j3).2 j4
    rw [a1, a2, b2, pointArea_zero, pointArea_one, b1] at hsum
    simpa [vertexArea] using hsum
  · rintro rfl
    have hNZ : N = Zs.length := hZl.symm
    rw [hNZ]
    have : ∀ m, m < Zs.length → vertexArea (fun k => Zs.getD k 0) (fun k => Fs.getD k 0) m =
        ∑ k ∈ Finset.range m, (interp1d .linear (linspace Zs.length) Fs (Fs.getLastD 0) (knot Zs.length k) +
          interp1d .linear (linspace Zs.length) Fs (Fs.getLastD 0) (knot Zs.length (k + 1))) *
        (interp1d .linear (linspace Zs.length) Zs (Zs.getLastD 0) (knot Zs.length k) -
          interp1d .linear (linspace Zs.length) Zs (Zs.getLastD 0) (knot Zs.length (k + 1))) := by
      intro m hm
      induction m with
      | zero => simp [vertexArea]
      | succ m ih =>
        rw [Finset.sum_range_succ, ← ih (by omega), interp_knot .linear hn (by omega) _ _ hFl, interp_knot .linear hn hm _ _ hFl,
          interp_knot .linear hn (by omega) _ _ rfl, interp_knot .linear hn hm _ _ rfl]
        rfl
    exact this _ (by omega)

end Fibermat
