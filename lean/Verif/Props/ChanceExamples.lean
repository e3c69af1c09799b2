import Verif.Props.ChanceVariance
import Mathlib.Probability.Independence.InfinitePi

/-! # C118: the hypotheses are met -/

namespace Fibermat
open Spec MeasureTheory ProbabilityTheory Set

/-- The uniform law on `[0, 1)`. -/
noncomputable def unitLaw : Measure (Ico (0 : ℝ) 1) := (volume : Measure ℝ).comap Subtype.val

theorem unitLaw_map : unitLaw.map Subtype.val = volume.restrict (Ico (0 : ℝ) 1) := by
  unfold unitLaw
  rw [(MeasurableEmbedding.subtype_coe measurableSet_Ico).map_comap, Subtype.range_coe]

instance : IsProbabilityMeasure unitLaw := by
  constructor
  have h : unitLaw.map Subtype.val univ = 1 := by
    rw [unitLaw_map]
    simp
  rwa [Measure.map_apply measurable_subtype_coe MeasurableSet.univ] at h

/-- Sequences of independent uniform numbers exist. -/
theorem uniformDraws_exist : UniformDraws (Measure.infinitePi fun _ : ℕ => unitLaw) (fun k ω => (ω k : ℝ)) where
  measurable k := measurable_subtype_coe.comp (measurable_pi_apply k)
  range k ω := (ω k).2
  law k := by
    have : (fun ω : ℕ → Ico (0 : ℝ) 1 => (ω k : ℝ)) = Subtype.val ∘ Function.eval k := rfl
    rw [this, ← Measure.map_map measurable_subtype_coe (measurable_pi_apply k), Measure.infinitePi_map_eval, unitLaw_map]
  indep := iIndepFun_infinitePi (fun _ => measurable_subtype_coe)

/-- A hundred fibers with the default arguments of `Mat` (`mat.py:159-160`), with the number π for the angle. -/
noncomputable def standardArgs : MatArgs ℝ := ⟨100, 25, 1, 1, 50, Real.pi, 0, 1, ⊤, some 0⟩

theorem standardArgs_good : GoodSeed standardArgs.seed ∧ standardArgs.seed ≠ none ∧ 0 < standardArgs.n ∧ PositiveArgs standardArgs ∧
    standardArgs.psi = 0 ∧ standardArgs.length ≤ standardArgs.size / 2 ∧ 0 < standardArgs.theta ∧ standardArgs.theta ≤ Real.pi ∧
    0 < standardArgs.size := by
  refine ⟨?_, by simp [standardArgs], by simp [standardArgs], ?_, rfl, by norm_num [standardArgs], Real.pi_pos, le_rfl, by norm_num [standardArgs]⟩
  · intro k hk
    obtain rfl : (0 : ℤ) = k := Option.some.inj hk
    norm_num
  · refine ⟨?_, ?_, ?_, ?_, ?_⟩ <;> norm_num [standardArgs]

/-- There is a sequence of random networks as in `C118_mean` and `C118_variance`: for a hundred fibers with the default arguments the network has in the mean
`100 + 4950 / (2 π)`, about 888 rows, with the variance `4950 / (2 π) (1 - 1 / (2 π))`, about 662. -/
example : ∃ (Ω : Type) (_ : MeasurableSpace Ω) (P : Measure Ω) (d : ℕ → Ω → ℝ) (N : Ω → Net ℝ), UniformDraws P d ∧
    (∀ ω, ∃ m s', matNew (stream (fun k => d k ω)) Real.cos Real.sin 0 standardArgs 0 = .ok (m, s') ∧ netNew m true = .ok (N ω)) ∧
    ∫ ω, ((N ω).rows.length : ℝ) ∂P = 100 + 4950 / (2 * Real.pi) ∧
    Var[fun ω => ((N ω).rows.length : ℝ); P] = 4950 / (2 * Real.pi) * (1 - 1 / (2 * Real.pi)) := by
  obtain ⟨g1, g2, g3, g4, g5, g6, g7, g8, g9⟩ := standardArgs_good
  have hd := uniformDraws_exist
  have hex := C118_exists (e := 0) (s := 0) hd g1 g3 g9.le g4 true
  choose m s' N h1 h2 using hex
  have hπ := Real.pi_pos.ne'
  refine ⟨_, _, _, _, N, hd, fun ω => ⟨m ω, s' ω, h1 ω, h2 ω⟩, ?_, ?_⟩
  · rw [C118_mean (e := 0) (s := 0) hd g1 g2 g3 g4 g5 g6 g7 g8 (fun ω => ⟨m ω, s' ω, h1 ω, h2 ω⟩)]
    have : crossChance standardArgs.length standardArgs.size standardArgs.theta = 1 / (2 * Real.pi) := by
      rw [show standardArgs.theta = Real.pi from rfl, C118_isotropic]
      simp only [standardArgs]
      field_simp
      norm_num
    rw [this]
    simp only [standardArgs]
    push_cast
    ring
  · rw [C118_variance (e := 0) (s := 0) hd g2 g3 g4 g5 g6 rfl (fun ω => ⟨m ω, s' ω, h1 ω, h2 ω⟩)]
    have : crossChance standardArgs.length standardArgs.size Real.pi = 1 / (2 * Real.pi) := by
      rw [C118_isotropic]
      simp only [standardArgs]
      field_simp
      norm_num
    rw [this]
    simp only [standardArgs]
    push_cast
    ring

/-- Likewise the mesh of the stacked mat exists and has `200 + 9900 / (2 π)` nodes in the mean. -/
example : ∃ (lp : Linprog ℝ) (Ω : Type) (_ : MeasurableSpace Ω) (P : Measure Ω) (d : ℕ → Ω → ℝ) (M : Ω → Mesh ℝ), GoodLinprog lp ∧
    UniformDraws P d ∧ (∀ ω, ∃ m s' net m' st, matNew (stream (fun k => d k ω)) Real.cos Real.sin 0 standardArgs 0 = .ok (m, s') ∧
      netNew m true = .ok net ∧ stackNew lp m net none = .ok (m', st) ∧ meshNew st = .ok (M ω)) ∧
    ∫ ω, ((M ω).rows.length : ℝ) ∂P = 200 + 9900 / (2 * Real.pi) := by
  obtain ⟨g1, g2, g3, g4, g5, g6, g7, g8, g9⟩ := standardArgs_good
  have hd := uniformDraws_exist
  obtain ⟨lp, hlp⟩ := exists_goodLinprog (K := ℝ)
  have hπ := Real.pi_pos.ne'
  have hex : ∀ ω, ∃ m s' net m' st mesh, matNew (stream (fun k => (fun k (ω : ℕ → Ico (0 : ℝ) 1) => (ω k : ℝ)) k ω)) Real.cos Real.sin 0
      standardArgs 0 = .ok (m, s') ∧ netNew m true = .ok net ∧ stackNew lp m net none = .ok (m', st) ∧ meshNew st = .ok mesh := by
    intro ω
    obtain ⟨m, s', net, h1, h2⟩ := C118_exists (e := 0) (s := 0) hd g1 g3 g9.le g4 true ω
    obtain ⟨hgood, -⟩ := random_mat hd g2 g5 h1
    obtain ⟨m', st, mesh, h3, h4, -⟩ := C27_mesh_of_stack hlp hgood h2 none
    exact ⟨m, s', net, m', st, mesh, h1, h2, h3, h4⟩
  choose m s' net m' st M h1 h2 h3 h4 using hex
  have hM : ∀ ω, ∃ m s' net m' st, matNew (stream (fun k => (fun k (ω : ℕ → Ico (0 : ℝ) 1) => (ω k : ℝ)) k ω)) Real.cos Real.sin 0
      standardArgs 0 = .ok (m, s') ∧ netNew m true = .ok net ∧ stackNew lp m net none = .ok (m', st) ∧ meshNew st = .ok (M ω) :=
    fun ω => ⟨m ω, s' ω, net ω, m' ω, st ω, h1 ω, h2 ω, h3 ω, h4 ω⟩
  refine ⟨lp, _, _, _, _, M, hlp, hd, hM, ?_⟩
  rw [C118_mesh (e := 0) (s := 0) hd g1 g2 g3 g4 g5 g6 g7 g8 hlp hM]
  have : crossChance standardArgs.length standardArgs.size standardArgs.theta = 1 / (2 * Real.pi) := by
    rw [show standardArgs.theta = Real.pi from rfl, C118_isotropic]
    simp only [standardArgs]
    field_simp
    norm_num
  rw [this]
  simp only [standardArgs]
  push_cast
  ring

/-- Two pairs of fibers with a fiber in common, as in `C118_independent`. -/
example : (0 : ℕ) < 1 ∧ ((1 : ℕ) : ℤ) < standardArgs.n ∧ (1 : ℕ) < 2 ∧ ((2 : ℕ) : ℤ) < standardArgs.n ∧ ((0, 1) : ℕ × ℕ) ≠ (1, 2) ∧
    standardArgs.theta = Real.pi := by
  simp [standardArgs]

end Fibermat
