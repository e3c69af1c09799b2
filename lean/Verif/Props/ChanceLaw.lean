import Verif.Props.Chance
import Mathlib.Probability.Distributions.Uniform
import Mathlib.Probability.Moments.Variance

/-! # C118: laws of the fibers, nodes of the mesh, isotropic mats -/

namespace Fibermat
open Spec MeasureTheory ProbabilityTheory Set

section
variable {Ω : Type} [MeasurableSpace Ω] {P : Measure Ω} {d : ℕ → Ω → ℝ} {e s : ℕ} {a : MatArgs ℝ}

/-- A uniform number moved and scaled is uniform. -/
theorem Spec.UniformDraws.scaled (hd : UniformDraws P d) (k : ℕ) {c : ℝ} (hc : 0 < c) :
    pdf.IsUniform (fun ω => c * (d k ω - 1 / 2)) (Ico (-(c / 2)) (c / 2)) P := by
  have hm : Measurable (fun x : ℝ => c * (x - 1 / 2)) := by fun_prop
  have e : P.map (fun ω => c * (d k ω - 1 / 2)) = (volume.restrict (Ico (0 : ℝ) 1)).map (fun x : ℝ => c * (x - 1 / 2)) := by
    rw [← hd.law k, Measure.map_map hm (hd.measurable k)]
    rfl
  unfold pdf.IsUniform
  rw [e]
  ext B hB
  rw [Measure.map_apply hm hB, Measure.restrict_apply (hm hB), cond_apply measurableSet_Ico, Real.volume_Ico]
  have e2 : (fun x : ℝ => c * (x - 1 / 2)) ⁻¹' B ∩ Ico 0 1 =
      (fun x : ℝ => x + -(1 / 2)) ⁻¹' ((fun x : ℝ => c * x) ⁻¹' (Ico (-(c / 2)) (c / 2) ∩ B)) := by
    ext x
    simp only [mem_inter_iff, mem_preimage, mem_Ico, ← sub_eq_add_neg]
    constructor
    · rintro ⟨h, h1, h2⟩
      exact ⟨⟨by nlinarith, by nlinarith⟩, h⟩
    · rintro ⟨⟨h1, h2⟩, h⟩
      refine ⟨h, ?_, ?_⟩ <;> by_contra hx <;> nlinarith
  rw [e2, measure_preimage_add_right, Real.volume_preimage_mul_left hc.ne', abs_of_pos (inv_pos.2 hc), ENNReal.ofReal_inv_of_pos hc]
  congr 3
  ring

/-- C118: the coordinates of the centres and the angles of the fibers of a random mat are independent and uniform, in the box and in an
interval of length `theta`; the heights are independent uniform numbers `ζ`, independent of the others, put in increasing order. -/
theorem C118_uniform (hd : UniformDraws P d) (hs : a.seed ≠ none) (hpsi : a.psi = 0) (hS : 0 < a.size) (h0 : 0 < a.theta) {M : Ω → Mat ℝ}
    (hM : ∀ ω, ∃ s', matNew (stream (fun k => d k ω)) Real.cos Real.sin e a s = .ok (M ω, s')) :
    ∃ x y ζ p : Fin a.n.toNat → Ω → ℝ,
      (∀ ω (i : Fin a.n.toNat) (f : Fiber ℝ), (M ω).fibers[(i : ℕ)]? = some f →
        f.x = x i ω ∧ f.y = y i ω ∧ f.u = Real.cos (p i ω) ∧ f.v = Real.sin (p i ω) ∧ f.w = 0) ∧
      (∀ ω, ((M ω).fibers.map (·.z)).Pairwise (· ≤ ·) ∧ ((M ω).fibers.map (·.z)).Perm (List.ofFn (fun i => ζ i ω))) ∧
      (∀ i, pdf.IsUniform (x i) (Ico (-(a.size / 2)) (a.size / 2)) P) ∧ (∀ i, pdf.IsUniform (y i) (Ico (-(a.size / 2)) (a.size / 2)) P) ∧
      (∀ i, pdf.IsUniform (ζ i) (Ico (-(a.size / 2)) (a.size / 2)) P) ∧
      (∀ i, pdf.IsUniform (p i) (Ico (-(a.theta / 2)) (a.theta / 2)) P) ∧
      iIndepFun (fun q : Fin 4 × Fin a.n.toNat => ![x, y, ζ, p] q.1 q.2) P := by
  refine ⟨fun i ω => a.size * (d i ω - 1 / 2), fun i ω => a.size * (d (a.n.toNat + i) ω - 1 / 2),
    fun i ω => a.size * (d (2 * a.n.toNat + i) ω - 1 / 2), fun i ω => a.theta * (d (3 * a.n.toNat + i) ω - 1 / 2), ?_, ?_,
    fun i => hd.scaled _ hS, fun i => hd.scaled _ hS, fun i => hd.scaled _ hS, fun i => hd.scaled _ h0, ?_⟩
  · intro ω i f hf
    obtain ⟨s', h⟩ := hM ω
    obtain ⟨-, -, -, hcol, -⟩ := random_mat hd hs hpsi h
    obtain ⟨h1, h2, h3, h4, h5, -⟩ := hcol i f hf
    exact ⟨h1, h2, h3, h4, h5⟩
  · intro ω
    obtain ⟨s', h⟩ := hM ω
    obtain ⟨-, -, -, -, hz, hz'⟩ := random_mat hd hs hpsi h
    refine ⟨hz, ?_⟩
    convert hz' using 1
    rw [List.ofFn_eq_map, ← List.map_coe_finRange_eq_range, List.map_map]
    rfl
  · have hinj : Function.Injective (fun q : Fin 4 × Fin a.n.toNat => (q.1 : ℕ) * a.n.toNat + q.2) := by
      rintro ⟨⟨i, hi⟩, ⟨j, hj⟩⟩ ⟨⟨i', hi'⟩, ⟨j', hj'⟩⟩ h
      simp only at h
      have : i = i' := by
        rcases lt_trichotomy i i' with h' | h' | h'
        · nlinarith
        · exact h'
        · nlinarith
      subst this
      simp only [Prod.mk.injEq, Fin.mk.injEq, true_and]
      omega
    have := (hd.indep.precomp hinj).comp (fun q x => (![a.size, a.size, a.size, a.theta] q.1) * (x - 1 / 2)) (fun q => by fun_prop)
    convert this using 1
    funext ⟨i, j⟩
    fin_cases i <;> simp [Function.comp_def]

/-- C118: the mean number of nodes of the mesh of the stacked mat, without threshold. -/
theorem C118_mesh (hd : UniformDraws P d) (hseed : GoodSeed a.seed) (hs : a.seed ≠ none) (hn : 0 < a.n) (hpos : PositiveArgs a)
    (hpsi : a.psi = 0) (hl : a.length ≤ a.size / 2) (h0 : 0 < a.theta) (hπ : a.theta ≤ Real.pi) {lp : Linprog ℝ} (hlp : GoodLinprog lp)
    {M : Ω → Mesh ℝ} (hM : ∀ ω, ∃ m s' net m' st, matNew (stream (fun k => d k ω)) Real.cos Real.sin e a s = .ok (m, s') ∧
      netNew m true = .ok net ∧ stackNew lp m net none = .ok (m', st) ∧ meshNew st = .ok (M ω)) :
    ∫ ω, ((M ω).rows.length : ℝ) ∂P = 2 * a.n + a.n * (a.n - 1) * crossChance a.length a.size a.theta := by
  choose m s' net m' st h1 h2 h3 h4 using hM
  have hlen : ∀ ω, ((M ω).rows.length : ℝ) = 2 * ((net ω).rows.length : ℝ) := by
    intro ω
    obtain ⟨hgood, -, -, hcol, -⟩ := random_mat hd hs hpsi (h1 ω)
    have hw : ∀ f ∈ (m ω).fibers, f.w = 0 := by
      intro f hf
      obtain ⟨k, hk⟩ := List.mem_iff_getElem?.1 hf
      exact (hcol k f hk).2.2.2.2.1
    obtain ⟨-, -, hpl, -⟩ := C18_vertical hlp hgood hw (h2 ω) (h3 ω)
    have hlen := congrArg List.length hpl
    simp only [planColumns, List.length_map] at hlen
    have hi : meshInit (st ω) = .ok (M ω) := by
      have := h4 ω
      unfold meshNew at this
      cases h : meshInit (st ω) with
      | error x => rw [h] at this; cases this
      | ok v =>
        rw [h] at this
        cases hc : meshCheck v.frame with
        | error x => simp [bind, Except.bind, hc] at this
        | ok x =>
          simp [bind, Except.bind, hc, pure, Except.pure] at this
          rw [this]
    rw [(C23_mesh_nodes hi).1, hlen]
    push_cast
    ring
  simp only [hlen]
  rw [integral_const_mul, C118_mean (e := e) (s := s) hd hseed hs hn hpos hpsi hl h0 hπ (fun ω => ⟨m ω, s' ω, h1 ω, h2 ω⟩)]
  ring

/-- C118: for fibers of all directions the probability of a connection is that of Buffon's needle, `2 l² / (π S²)`. -/
theorem C118_isotropic (l S : ℝ) : crossChance l S Real.pi = 2 * l ^ 2 / (Real.pi * S ^ 2) := by
  unfold crossChance
  rw [Real.sin_pi]
  have := Real.pi_pos.ne'
  field_simp
  ring

end
end Fibermat
