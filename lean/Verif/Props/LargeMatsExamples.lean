import Verif.Props.LargeMats
import Verif.Props.ChanceExamples

/-! # C123: the hypotheses are met -/

namespace Fibermat
open Spec MeasureTheory ProbabilityTheory Set Filter Topology

/-- One fiber of length 1 in a box of side 2, two in a box of side `2 √2`, and so on: one fiber for 4 units of area. -/
noncomputable def growingArgs (t : ℕ) : MatArgs ℝ := ⟨t + 1, 1, 1, 1, 2 * Real.sqrt (t + 1), Real.pi, 0, 1, ⊤, some 0⟩

theorem growingArgs_good : GrowingMats growingArgs 1 (1 / 4) where
  n _ := rfl
  seed t := by
    refine ⟨?_, by simp [growingArgs]⟩
    intro k hk
    simp only [growingArgs, Option.some.injEq] at hk
    omega
  positive t := by simp [PositiveArgs, growingArgs]
  length _ := rfl
  small t := by
    have : 1 ≤ Real.sqrt ((t : ℝ) + 1) := Real.one_le_sqrt.2 (by linarith [(Nat.cast_nonneg t : (0 : ℝ) ≤ t)])
    simp only [growingArgs]
    linarith
  planar _ := rfl
  theta _ := rfl
  density := by
    refine tendsto_const_nhds.congr fun t => ?_
    have h : (0 : ℝ) < t + 1 := by positivity
    simp only [growingArgs]
    rw [mul_pow, Real.sq_sqrt h.le]
    field_simp
    norm_num

/-- The first fiber of these mats has two neighbours with a probability tending to `exp (-1 / (2 π)) / (8 π²)`, and is isolated with a probability
tending to `exp (-1 / (2 π))`. -/
example : ∃ (Ω : Type) (_ : MeasurableSpace Ω) (P : Measure Ω) (d : ℕ → Ω → ℝ), UniformDraws P d ∧
    Tendsto (fun t => P {ω | ∃ m s' net, matNew (stream (fun k => d k ω)) Real.cos Real.sin 0 (growingArgs t) 0 = .ok (m, s') ∧
      netNew m true = .ok net ∧ degree net 0 = 2}) atTop (𝓝 (ENNReal.ofReal (Real.exp (-(1 / (2 * Real.pi))) / (8 * Real.pi ^ 2)))) ∧
    Tendsto (fun t => P {ω | ∃ m s' net, matNew (stream (fun k => d k ω)) Real.cos Real.sin 0 (growingArgs t) 0 = .ok (m, s') ∧
      netNew m true = .ok net ∧ ∀ j : ℕ, j ≠ 0 → ¬ Linked net 0 j}) atTop (𝓝 (ENNReal.ofReal (Real.exp (-(1 / (2 * Real.pi)))))) := by
  have hd := uniformDraws_exist
  have hπ := Real.pi_pos.ne'
  have h1 := C123_degree (e := 0) (s := 0) hd growingArgs_good (i := fun _ => 0) (fun _ => Nat.zero_le _) 2
  have h2 := C123_isolated (e := 0) (s := 0) hd growingArgs_good (i := fun _ => 0) (fun _ => Nat.zero_le _)
  have e1 : meanNeighbours 1 (1 / 4) = 1 / (2 * Real.pi) := by
    unfold meanNeighbours
    field_simp
    norm_num
  have e2 : 2 * (1 / 4 : ℝ) * 1 ^ 2 / Real.pi = 1 / (2 * Real.pi) := e1
  have e3 : poisson (1 / (2 * Real.pi)) 2 = Real.exp (-(1 / (2 * Real.pi))) / (8 * Real.pi ^ 2) := by
    unfold poisson
    rw [show (Nat.factorial 2 : ℝ) = 2 by norm_num [Nat.factorial], div_pow, mul_pow]
    field_simp
    norm_num
  rw [e1, e3] at h1
  rw [e2] at h2
  exact ⟨_, _, _, _, hd, h1, h2⟩

/-- The last fiber of these mats lies on the floor with a probability tending to `exp (-1 / (2 π))`: the numbers `t / (t + 1)` tend to 1. -/
example : (∀ t : ℕ, t ≤ t) ∧ Tendsto (fun t : ℕ => (t : ℝ) / (t + 1)) atTop (𝓝 1) :=
  ⟨fun _ => le_rfl, tendsto_natCast_div_add_atTop (1 : ℝ)⟩

/-- Networks as in `C123_rows` and stacks as in `C123_floor_mean` exist. -/
example : ∃ (lp : Linprog ℝ) (Ω : Type) (_ : MeasurableSpace Ω) (P : Measure Ω) (d : ℕ → Ω → ℝ) (N : ℕ → Ω → Net ℝ) (M : ℕ → Ω → Mat ℝ),
    GoodLinprog lp ∧ UniformDraws P d ∧
    (∀ t ω, ∃ m s', matNew (stream (fun k => d k ω)) Real.cos Real.sin 0 (growingArgs t) 0 = .ok (m, s') ∧ netNew m true = .ok (N t ω)) ∧
    (∀ t ω, ∃ m s' net st, matNew (stream (fun k => d k ω)) Real.cos Real.sin 0 (growingArgs t) 0 = .ok (m, s') ∧ netNew m true = .ok net ∧
      stackNew lp m net none = .ok (M t ω, st)) := by
  have hd := uniformDraws_exist
  obtain ⟨lp, hlp⟩ := exists_goodLinprog (K := ℝ)
  have h := growingArgs_good
  have hex : ∀ t ω, ∃ net m' m s' st, matNew (stream (fun k => (fun k (ω : ℕ → Ico (0 : ℝ) 1) => (ω k : ℝ)) k ω)) Real.cos Real.sin 0
      (growingArgs t) 0 = .ok (m, s') ∧ netNew m true = .ok net ∧ stackNew lp m net none = .ok (m', st) := by
    intro t ω
    obtain ⟨m, s', net, h1, h2⟩ := C118_exists (e := 0) (s := 0) hd (h.seed t).1 (by rw [h.n t]; omega) (h.size_pos t).le (h.positive t) true ω
    obtain ⟨hgood, -⟩ := random_mat hd (h.seed t).2 (h.planar t) h1
    obtain ⟨m', st, mesh, h3, -⟩ := C27_mesh_of_stack hlp hgood h2 none
    exact ⟨net, m', m, s', st, h1, h2, h3⟩
  choose N M m s' st h1 h2 h3 using hex
  exact ⟨lp, _, _, _, _, N, M, hlp, hd, fun t ω => ⟨_, _, h1 t ω, h2 t ω⟩, fun t ω => ⟨_, _, _, _, h1 t ω, h2 t ω, h3 t ω⟩⟩

end Fibermat
