import Verif.Lemmas.Rounded

/-! # The rounded solver: invariant along a run -/

namespace Fibermat
open Spec

section
variable {K : Type} [Field K] [LinearOrder K] [IsStrictOrderedRing K]
variable {S : Sys K} {A : Floats K} {o : Opts K} {u κ E0 B : K} {rigid : ℕ → Prop} {pairs : List (ℕ × ℕ)}

/-- State of the connection `k` of nodes `i`, `j` after `n` steps: bounds of the constraints, gaps, top position. -/
structure PairInv (S : Sys K) (A : Floats K) (u η E0 B : K) (rigid : ℕ → Prop) (k i j : ℕ) (bf bp br : K) (n : ℕ) (a : Rec K) : Prop where
  frozen : ∀ r, rigid r → a.x r = 0
  floor : a.q (S.nK + (3 * k + 0)) = .fin bf
  pair : i ≠ j → a.q (S.nK + (3 * k + 1)) = .fin bp
  top : A.fl a.Z = a.Z
  down : a.Z ≤ S.Z0
  roof : ∃ qr, a.q (S.nK + (3 * k + 2)) = .fin qr ∧ A.fl qr = qr ∧ qr ≤ br ∧
    -(E0 + η * (br - qr) + 321 * n * (u * B)) ≤ bf + a.x (2 * i) ∧
    -(E0 + η * (br - qr) + 321 * n * (u * B)) ≤ bp - (a.x (2 * i) - a.x (2 * j)) ∧
    -(E0 + η * (br - qr) + 321 * n * (u * B)) ≤ qr - a.x (2 * j) ∧
    |(a.Z - S.Z0) - (qr - br)| ≤ 42 * n * (u * B)

theorem budget {η : K} {n : ℕ} {qr br E : K} (hB : 0 ≤ B) (h0 : 0 ≤ u) (hη0 : 0 ≤ η) (hη : η ≤ 1 / 100) (hE0 : E0 ≤ B / 10)
    (hn : 400 * (n : K) * u ≤ 1) (hE : E = E0 + η * (br - qr) + 321 * n * (u * B)) (hbr : br ≤ B) (hqr : qr ≤ br)
    (hlow : -(2 * B + 3 * E) ≤ qr) : E ≤ B := by
  have h1 : 400 * (n : K) * (u * B) ≤ B := by nlinarith
  have h2 : η * (br - qr) ≤ 1 / 100 * (br - qr) := mul_le_mul_of_nonneg_right hη (by linarith)
  linarith

theorem top_low {n : ℕ} {Z Z0 qr br t : K} (hB : 0 ≤ B) (hn : 400 * (n : K) * u ≤ 1) (hZ : 0 ≤ Z0) (hZ' : Z0 ≤ B)
    (hbr : |br| ≤ B) (hq : |qr| ≤ 5 * B) (hd : Z ≤ Z0) (ht : 0 ≤ t) (htB : t ≤ 7 * B)
    (hdZ : |(Z - Z0) - (qr - br)| ≤ 42 * n * (u * B)) : |Z - t| ≤ 14 * B := by
  have h1 : 400 * (n : K) * (u * B) ≤ B := by nlinarith
  have h2 := (abs_le.1 hdZ).1
  have h3 := (abs_le.1 hbr).2
  have h4 := (abs_le.1 hq).1
  rw [abs_le]
  constructor <;> linarith

theorem next_budget {η E qr qr' br t Z Z' Z0 g : K} {n : ℕ} (hη0 : 0 ≤ η) (hη : η ≤ 1 / 100) (uB : 0 ≤ u * B)
    (hE : E = E0 + η * (br - qr) + 321 * n * (u * B)) (n3 : |qr' - (qr - t)| ≤ 26 * u * B) (hZe : |Z' - (Z - t)| ≤ 14 * (u * B))
    (hdZ : |(Z - Z0) - (qr - br)| ≤ 42 * n * (u * B)) :
    (-(E + η * t + 320 * u * B) ≤ g → -(E0 + η * (br - qr') + 321 * ((n : K) + 1) * (u * B)) ≤ g) ∧
    |(Z' - Z0) - (qr' - br)| ≤ 42 * ((n : K) + 1) * (u * B) := by
  have e3 := abs_le.1 n3
  have e4 := abs_le.1 hZe
  have e5 := abs_le.1 hdZ
  have ht' : t ≤ qr - qr' + 26 * u * B := by linarith
  have hηt : η * t ≤ η * (qr - qr') + u * B := by
    have e1 := mul_le_mul_of_nonneg_left ht' hη0
    have e2 : η * (26 * u * B) ≤ 1 / 100 * (26 * u * B) := mul_le_mul_of_nonneg_right hη (by linarith)
    linarith
  refine ⟨fun hg => by linarith, ?_⟩
  rw [abs_le]
  constructor <;> linarith

theorem PairInv.step (h : Presses A.fl E0 B S rigid pairs) (hr : Rounds A.fl u) (h0 : 0 ≤ u) (hu : u ≤ 1 / 1000)
    (hn : NormTest A.tooBig κ) (htol : 0 ≤ o.tol) (herr : 0 ≤ κ * o.errtol) (herr' : κ * o.errtol ≤ 1 / 100)
    (hB : 0 ≤ B) (hE0 : 0 ≤ E0) (hE0' : E0 ≤ B / 10) (hZ : 0 ≤ S.Z0) (hZ' : S.Z0 ≤ B) {k i j : ℕ} (hk : pairs[k]? = some (i, j))
    {bf bp br : K} (hbf : |bf| ≤ B) (hbp : |bp| ≤ B) (hbr : |br| ≤ B) (hij : i = j → bp = 0) (ff : A.fl bf = bf) (fp : A.fl bp = bp)
    {n : ℕ} (hnu : 400 * ((n + 1 : ℕ) : K) * u ≤ 1) {a b : Rec K}
    (hi : PairInv S A u (κ * o.errtol) E0 B rigid k i j bf bp br n a) (hs : S.stepR A o a = .ok b) :
    PairInv S A u (κ * o.errtol) E0 B rigid k i j bf bp br (n + 1) b := by
  obtain ⟨dx, t, st⟩ := h.step hr h0 hu hn htol herr hi.frozen hs
  obtain ⟨qr, eqr, fqr, lqr, g0, g1, g2, hdZ⟩ := hi.roof
  set η := κ * o.errtol with hη
  have hkl : k < pairs.length := (List.getElem?_eq_some_iff.1 hk).1
  have hbr2 := (abs_le.1 hbr).2
  have uB : 0 ≤ u * B := mul_nonneg h0 hB
  have hn0 : (0 : K) ≤ n := Nat.cast_nonneg n
  have nuB : 0 ≤ (n : K) * (u * B) := mul_nonneg hn0 uB
  have hnu' : 400 * (n : K) * u ≤ 1 := by push_cast at hnu; linarith only [hnu, h0]
  obtain ⟨E, hE⟩ : ∃ E, E = E0 + η * (br - qr) + 321 * n * (u * B) := ⟨_, rfl⟩
  rw [← hE] at g0 g1 g2
  have hηq : 0 ≤ η * (br - qr) := mul_nonneg herr (by linarith only [lqr])
  have hEp : 0 ≤ E := by rw [hE]; linarith only [hE0, hηq, nuB]
  have hqB : qr ≤ B := by linarith only [lqr, hbr2]
  have b1 := (abs_le.1 hbf).2
  have b2 := (abs_le.1 hbp).2
  have hEB : E ≤ B := budget hB h0 herr herr' hE0' hnu' hE hbr2 lqr (by linarith only [g0, g1, g2, b1, b2])
  obtain ⟨hxi, hxj, hlow⟩ := pair_bounds hEp hEB b1 b2 hqB g0 g1 g2
  have hq5 : |qr| ≤ 5 * B := abs_le.2 ⟨by linarith only [hlow, hEB], by linarith only [hqB, hB]⟩
  have r0 := st.row k i j hk 0 (by omega) (by omega) bf hi.floor E hEp (by simpa [cval] using g0)
  have r2 := st.row k i j hk 2 (by omega) (by omega) qr eqr E hEp (by simpa [cval] using g2)
  have r1 : -(E + η * t + u * (3 * |bp| + 10 * (|a.x (2 * i)| + |a.x (2 * j)|) + t + 7 * ((|dx (2 * i)| + |dx (2 * j)|) * t))) ≤
      bp - (a.x (2 * i) - a.x (2 * j)) + t * (dx (2 * i) - dx (2 * j)) := by
    by_cases e : i = j
    · subst e
      have hp : 0 ≤ u * (3 * |bp| + 10 * (|a.x (2 * i)| + |a.x (2 * i)|) + t + 7 * ((|dx (2 * i)| + |dx (2 * i)|) * t)) := by
        have := st.pos
        positivity
      have := mul_nonneg herr st.pos
      rw [hij rfl] at hp ⊢
      simp only [sub_self, mul_zero, add_zero]
      linarith
    · have := st.row k i j hk 1 (by omega) (by simp [e]) bp (hi.pair e) E hEp (by simpa [cval] using g1)
      simp only [cval, one_ne_zero, if_false, if_true, OfNat.one_ne_ofNat] at this
      linarith only [this]
  simp only [cval, if_true, OfNat.zero_ne_ofNat, if_false] at r0
  simp only [cval, OfNat.ofNat_ne_zero, OfNat.ofNat_ne_one, if_false, if_true] at r2
  have r0' : -(E + η * t + u * (3 * |bf| + 10 * (|a.x (2 * i)| + |a.x (2 * j)|) + t + 7 * ((|dx (2 * i)| + |dx (2 * j)|) * t))) ≤
      bf + a.x (2 * i) - t * dx (2 * i) := by linarith only [r0]
  obtain ⟨htB, hWB⟩ := pair_step_bounds h0 hu herr herr' st.pos hEB hB hbf hbp hq5 hqB rfl rfl hxi hxj r0' r1 r2
  have hdq : ∀ d, d < 3 → S.dq (S.nK + (3 * k + d)) = if d = 2 then 1 else 0 := fun d hd => h.rate k hkl d hd
  have keep : ∀ d, d < 2 → ∀ q, A.fl q = q → a.q (S.nK + (3 * k + d)) = .fin q → b.q (S.nK + (3 * k + d)) = .fin q := by
    intro d hd q fq hq
    rw [st.q, hq, hdq d (by omega), if_neg (by omega), zero_mul, hr.zero, Cell.fin_add_fin, add_zero]
    simp only [Cell.round, fq]
  have eqr' : b.q (S.nK + (3 * k + 2)) = .fin (A.fl (qr + A.fl (1 * -t))) := by
    rw [st.q, eqr, hdq 2 (by omega), if_pos rfl, Cell.fin_add_fin]
    rfl
  obtain ⟨n0, n1, n2, n3⟩ := pair_step_gaps h0 hB st.pos hbf hbp hq5 rfl rfl hxi hxj r0' r1 r2 htB hWB
    (hr.update h0 hu (a.x (2 * i)) (dx (2 * i)) t) (hr.update h0 hu (a.x (2 * j)) (dx (2 * j)) t) (hr.update h0 hu qr 1 t)
  rw [← st.x, ← st.x] at n1
  rw [← st.x] at n0 n2
  have ht := st.pos
  have lqr' : A.fl (qr + A.fl (1 * -t)) ≤ qr := by
    have e1 : A.fl (1 * -t) ≤ 0 := hr.nonpos (by linarith only [ht])
    have := hr.mono (qr + A.fl (1 * -t)) qr (by linarith only [e1])
    rwa [fqr] at this
  have hZlow : |a.Z - t| ≤ 14 * B := top_low hB hnu' hZ hZ' hbr hq5 hi.down ht htB hdZ
  have hZe : |b.Z - (a.Z - t)| ≤ 14 * (u * B) := by
    rw [st.Z, ← sub_eq_add_neg]
    have e1 := hr.err (a.Z - t)
    have e2 := mul_le_mul_of_nonneg_left hZlow h0
    linarith only [e1, e2]
  refine ⟨fun r hr' => ?_, keep 0 (by omega) bf ff hi.floor, fun e => keep 1 (by omega) bp fp (hi.pair e), ?_, ?_, _, eqr', hr.idem _,
    by linarith only [lqr', lqr], ?_⟩
  · rw [st.x, hi.frozen r hr', st.frozen r hr', zero_mul, hr.zero, add_zero, hr.zero]
  · rw [st.Z, hr.idem]
  · have := hr.mono (a.Z + -t) a.Z (by linarith only [ht])
    rw [hi.top] at this
    rw [st.Z]
    exact this.trans hi.down
  · set qr' := A.fl (qr + A.fl (1 * -t)) with hqr'
    push_cast
    exact ⟨(next_budget herr herr' uB hE n3 hZe hdZ).1 n0, (next_budget herr herr' uB hE n3 hZe hdZ).1 n1,
      (next_budget herr herr' uB hE n3 hZe hdZ).1 n2, (next_budget (g := 0) herr herr' uB hE n3 hZe hdZ).2⟩

end

end Fibermat
