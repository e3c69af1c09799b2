import Verif.Lemmas.Energy
import Verif.Lemmas.SolverStop
import Verif.Props.SolverMore

/-! Energies along the history of an exact run. -/

set_option linter.unusedSectionVars false
set_option linter.unusedSimpArgs false

namespace Fibermat
variable {K : Type} [Field K] [LinearOrder K] [IsStrictOrderedRing K]
open Spec

/-- `solve_sound` with the lengths of the beams. -/
theorem solve_lengths {mat : Mat K} {mesh : Mesh K} {lmin lmax : Option K} {coupling : K} {o : Opts K} {perm : Option (List ℕ)}
    {S : Sys K} {recs : List (Rec K)} {stop : Stop}
    (h : solve mat mesh lmin lmax coupling o perm = .ok (S, recs, stop)) (hm : GoodMat mat)
    (hp : PositiveLengths mesh.rows lmin lmax) {cs : ConstraintSys K} (hC : constraint mat mesh = .ok cs) :
    ∃ (Km : Coo (Cell K)) (bl : List (Beam K × K)) (hs : List K) (l : List (Contact K)),
      Assembled mat mesh.rows coupling Km bl ∧ (∀ p ∈ bl, 0 < p.2) ∧
      (∀ L, BeamLengths mesh.rows lmin lmax L ↔ ∀ p ∈ bl, p.2 = L p.1.i) ∧
      Contacts mat mesh.rows cs hs l ∧ S = assemble Km cs ∧ Km.nrows = 2 * mesh.rows.length ∧
      S.nK = 2 * mesh.rows.length ∧ S.n = 2 * mesh.rows.length + 3 * l.length ∧ cs.C.nrows = 3 * l.length ∧
      cs.C.ncols = 2 * mesh.rows.length ∧ S.Z0 = cs.Z ∧
      Sound S (wholeTable (2 * mesh.rows.length) (table mesh.rows coupling bl) cs.C) (Frozen bl) ∧
      recs = (S.run { o with perm := perm.getD (List.range S.n) }).1 := by
  obtain ⟨Km, cs', h1, h2, rfl, hr⟩ := solve_run h
  rw [hC] at h2; cases h2
  obtain ⟨bl, ha, hpos, -, hbl⟩ := assembled_lengths h1
  obtain ⟨hs, l, hc⟩ := contacts_of hC
  have hN : Km.nrows = 2 * mesh.rows.length := by rw [ha.eq]
  have hl : cs.C.nrows = 3 * l.length := by rw [hc.C]
  exact ⟨Km, bl, hs, l, ha, hpos hp, hbl, hc, rfl, hN, hN, by unfold Sys.n assemble; simp only [hN, hl], hl, by rw [hc.C], rfl,
    assemble_sound ha hm (hpos hp) hc, by rw [hr]⟩

/-- Virtual work of balanced unknowns `y` in a motion `v` that respects the frozen rotations. -/
theorem virtual_work {S : Sys K} {N n : ℕ} {T : ℕ → ℕ → K} {C : Coo K} {rigid : ℕ → Prop} (hn : S.n = N + n) (hC : C.ncols = N)
    {y v : ℕ → K} (hbal : ∀ r, r < N → ¬ rigid r → apply S (wholeTable N T C) y r = 0) (hv : ∀ r, rigid r → v r = 0) :
    ∑ r ∈ Finset.range N, v r * ∑ s ∈ Finset.range N, T r s * y s =
      - ∑ j ∈ Finset.range n, rowDot C j v * y (N + j) := by
  have h0 : ∑ r ∈ Finset.range N, v r * apply S (wholeTable N T C) y r = 0 := by
    apply Finset.sum_eq_zero
    intro r hr
    by_cases hg : rigid r
    · rw [hv r hg, zero_mul]
    · rw [hbal r (Finset.mem_range.1 hr) hg, mul_zero]
  have e : ∑ r ∈ Finset.range N, v r * apply S (wholeTable N T C) y r =
      ∑ r ∈ Finset.range N, v r * (∑ s ∈ Finset.range N, T r s * y s) +
      ∑ r ∈ Finset.range N, v r * ∑ j ∈ Finset.range n, C.get j r * y (N + j) := by
    rw [← Finset.sum_add_distrib]
    apply Finset.sum_congr rfl
    intro r hr
    rw [apply_force hn y (Finset.mem_range.1 hr), mul_add]
  have e2 : ∑ r ∈ Finset.range N, v r * ∑ j ∈ Finset.range n, C.get j r * y (N + j) =
      ∑ j ∈ Finset.range n, rowDot C j v * y (N + j) := by
    simp only [rowDot, hC, Finset.mul_sum, Finset.sum_mul]
    rw [Finset.sum_comm]
    apply Finset.sum_congr rfl
    intro j _
    apply Finset.sum_congr rfl
    intro r _
    ring
  rw [h0, e2] at e
  linarith

theorem energy_eq_bilin (N : ℕ) (T : ℕ → ℕ → K) (u : ℕ → K) :
    energy N T u = ∑ r ∈ Finset.range N, u r * ∑ s ∈ Finset.range N, T r s * u s := by
  unfold energy
  apply Finset.sum_congr rfl
  intro r _
  rw [Finset.mul_sum]
  apply Finset.sum_congr rfl
  intro s _
  ring

theorem bilin_symm (N : ℕ) {T : ℕ → ℕ → K} (hT : ∀ r s, T r s = T s r) (u v : ℕ → K) :
    ∑ r ∈ Finset.range N, u r * ∑ s ∈ Finset.range N, T r s * v s =
      ∑ r ∈ Finset.range N, v r * ∑ s ∈ Finset.range N, T r s * u s := by
  simp only [Finset.mul_sum]
  rw [Finset.sum_comm]
  apply Finset.sum_congr rfl
  intro r _
  apply Finset.sum_congr rfl
  intro s _
  rw [hT]; ring

/-- The energy of a sum. -/
theorem energy_add (N : ℕ) {T : ℕ → ℕ → K} (hT : ∀ r s, T r s = T s r) (u v : ℕ → K) :
    energy N T (fun r => u r + v r) = energy N T u + 2 * ∑ r ∈ Finset.range N, v r * ∑ s ∈ Finset.range N, T r s * u s +
      energy N T v := by
  have hb := bilin_symm N hT u v
  simp only [energy_eq_bilin]
  have : ∀ r, (u r + v r) * ∑ s ∈ Finset.range N, T r s * (u s + v s) =
      u r * ∑ s ∈ Finset.range N, T r s * u s + u r * ∑ s ∈ Finset.range N, T r s * v s +
      v r * ∑ s ∈ Finset.range N, T r s * u s + v r * ∑ s ∈ Finset.range N, T r s * v s := by
    intro r
    simp only [mul_add, Finset.sum_add_distrib]
    ring
  simp only [this, Finset.sum_add_distrib]
  rw [hb]
  ring

theorem energy_smul (N : ℕ) (T : ℕ → ℕ → K) (t : K) (u : ℕ → K) : energy N T (fun r => t * u r) = t ^ 2 * energy N T u := by
  unfold energy
  rw [Finset.mul_sum]
  apply Finset.sum_congr rfl
  intro r _
  rw [Finset.mul_sum]
  apply Finset.sum_congr rfl
  intro s _
  ring

variable {S : Sys K} {M : ℕ → ℕ → K} {rigid : ℕ → Prop} {o : Opts K}

/-- The direction of an exact step balances the force rows. -/
theorem Sound.dir_balance (h : Sound S M rigid) (hlin : ExactLin o.lin) (hp : o.perm.Perm (List.range S.n)) (htol : 0 ≤ o.tol)
    {k : ℕ} {a : Rec K} (ha : (S.run o).1[k]? = some a) {dx : ℕ → K} (hd : S.direction o a = some dx) {r : ℕ} (hr : r < S.nK)
    (hg : ¬ rigid r) : apply S M dx r = 0 := by
  have hrn : r < S.n := by unfold Sys.n; omega
  have hi := h.inv ha
  obtain ⟨hq, hdq⟩ := h.force r hr
  by_cases hact : S.active o.tol a.x a.q r = true
  · rw [h.exact hlin hp hi hd r hrn hact, hdq]
  · have hgap : gap S M a 0 r = 0 := by
      rw [gap, h.balance_exact hlin hp htol hr hg ha, hdq]; ring
    have hz : ∀ c, c < S.n → M c r = 0 := by
      by_contra hcon
      push Not at hcon
      exact hact ((h.active_iff hi hg hq _).2 ⟨by rw [hgap]; exact htol, hcon⟩)
    have := h.zero_rate hrn hg hz dx
    rw [hdq] at this
    linarith

/-- Rows that are active at a record remain so. -/
theorem Sound.dir_frozen (h : Sound S M rigid) {a : Rec K} (hi : StepInv S rigid a) {dx : ℕ → K} (hd : S.direction o a = some dx)
    {r : ℕ} (hg : rigid r) : dx r = 0 := direction_zero hd (h.not_active_rigid hi hg _)

end Fibermat
