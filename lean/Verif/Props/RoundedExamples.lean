import Verif.Props.Rounded
import Mathlib.Analysis.Real.Sqrt

/-! # Concrete cases for C89 -/

namespace Fibermat
open Spec

/-- Numbers of 12 bits, with an exact norm. -/
def short : Floats ℚ := { fl := binary 12, tooBig := (Floats.exact (K := ℚ)).tooBig }

theorem short_rounds : Rounds short.fl (1 / 4096) := by
  have := (C89_binary (K := ℚ) (p := 12) (by norm_num)).1
  norm_num at this
  exact this

theorem short_norm : NormTest short.tooBig 1 := (C89_exact (K := ℚ) ⟨0, 0, fun _ _ => .fin 0, fun _ => .fin 0, fun _ => 0, 0⟩ archOpts).2.2

theorem arch_clear : ClearUpTo duoMat archMesh.rows 0 (11 / 4) (fun _ => 0) := by
  rintro i j ⟨hij, r, hr, hj⟩
  have hi : i < 6 := (List.getElem?_eq_some_iff.1 hr).1
  interval_cases i <;> simp [archMesh] at hr <;> subst hr <;> simp only at hj <;> have hj6 : j < 6 := by omega
  all_goals interval_cases j <;> first
    | omega
    | norm_num [floorGap, pairGap, roofGap, nodeThick, nodeHeight, archMesh, duoMat]

set_option synthInstance.maxSize 1000 in
set_option synthInstance.maxHeartbeats 200000 in
/-- The run of `Verif/Props/SolverExamples.lean` with 12 bits: the rotation, the force, the packing and the error differ. -/
theorem short_run : ∃ Km cs, stiffness duoMat archMesh none none (1 / 2) = .ok Km ∧ constraint duoMat archMesh = .ok cs ∧
    cs.Z = 11 / 4 ∧ (assemble Km cs).n = 27 ∧ (assemble Km cs).nK = 12 ∧
    (∀ r, r < 15 → (assemble Km cs).q0 (12 + r) = .pinf ∨ ∃ b, (assemble Km cs).q0 (12 + r) = .fin b ∧ short.fl b = b) ∧
    ((assemble Km cs).runR short { archOpts with perm := List.range 27 }).1.map (fun a => (a.Z, a.rlambda, a.x 2, a.x 1)) =
      [(11 / 4, .fin 1, 0, 0), (5 / 2, .fin (2253 / 2048), 0, 0), (2, .fin (11 / 8), -1 / 2, -991 / 16384)] ∧
    ((assemble Km cs).runR short { archOpts with perm := List.range 27 }).1.map (fun a => (a.x 16, a.errSq)) =
      [(0, .fin 0), (0, .fin 0), (2589 / 262144, .fin (1 / 17179869184))] := by
  have hx : ((stiffness duoMat archMesh none none (1 / 2)).toOption.bind (fun Km => (constraint duoMat archMesh).toOption.map (fun cs =>
      (cs.Z, (assemble Km cs).n, (assemble Km cs).nK,
       (List.range 15).all (fun r => match (assemble Km cs).q0 (12 + r) with
         | .fin b => decide (short.fl b = b) | .pinf => true | _ => false))))) = some (11 / 4, 27, 12, true) := by
    decide +kernel
  have hy : ((stiffness duoMat archMesh none none (1 / 2)).toOption.bind (fun Km => (constraint duoMat archMesh).toOption.map (fun cs =>
      ((assemble Km cs).runR short { archOpts with perm := List.range 27 }).1.map (fun a => (a.Z, a.rlambda, a.x 2, a.x 1))))) =
      some [(11 / 4, .fin 1, 0, 0), (5 / 2, .fin (2253 / 2048), 0, 0), (2, .fin (11 / 8), -1 / 2, -991 / 16384)] := by
    decide +kernel
  have hz : ((stiffness duoMat archMesh none none (1 / 2)).toOption.bind (fun Km => (constraint duoMat archMesh).toOption.map (fun cs =>
      ((assemble Km cs).runR short { archOpts with perm := List.range 27 }).1.map (fun a => (a.x 16, a.errSq))))) =
      some [(0, .fin 0), (0, .fin 0), (2589 / 262144, .fin (1 / 17179869184))] := by
    decide +kernel
  cases hK : stiffness duoMat archMesh none none (1 / 2) with
  | error e => rw [hK] at hx; cases hx
  | ok Km =>
    cases hC : constraint duoMat archMesh with
    | error e => rw [hK, hC] at hx; cases hx
    | ok cs =>
      rw [hK, hC] at hx hy hz
      simp only [Except.toOption, Option.bind_some, Option.map_some, Option.some.injEq, Prod.mk.injEq] at hx hy hz
      obtain ⟨h1, h2, h3, h4⟩ := hx
      refine ⟨Km, cs, rfl, rfl, h1, h2, h3, ?_, hy, hz⟩
      intro r hr
      have := List.all_eq_true.1 h4 r (List.mem_range.2 hr)
      cases hq : (assemble Km cs).q0 (12 + r) with
      | fin b => rw [hq] at this; exact Or.inr ⟨b, rfl, by simpa using this⟩
      | pinf => exact Or.inl rfl
      | ninf => rw [hq] at this; cases this
      | nan => rw [hq] at this; cases this

theorem stored_self {S : Sys ℚ} (h : ∀ r, S.q0 r = .pinf ∨ ∃ b, S.q0 r = .fin b ∧ short.fl b = b) (hZ : short.fl S.Z0 = S.Z0) :
    Stored short.fl 0 S S where
  nK := rfl
  nC := rfl
  soft := fun _ _ m hm => ⟨m, hm⟩
  stiff := fun _ _ h => h
  unit := fun _ _ _ => rfl
  dq := fun _ => rfl
  free := fun _ h => h
  bound := by
    intro r b hb
    rcases h r with h1 | ⟨b', h1, h2⟩
    · rw [hb] at h1; cases h1
    · rw [hb] at h1; cases h1
      exact ⟨b, hb, h2, by simp⟩
  top := ⟨hZ, by simp⟩

/-- Hypotheses and conclusions of `C89_gaps` and `C89_plate` on that run: two steps with 12 bits. -/
example : ∃ (S' : Sys ℚ) (recs : List (Rec ℚ)), recs = (S'.runR short { archOpts with perm := List.range 27 }).1 ∧ recs.length = 3 ∧
    ∃ a b : Rec ℚ, recs[1]? = some a ∧ recs[2]? = some b ∧ b.Z ≤ a.Z ∧ b.errSq ≠ .fin 0 ∧
      ClearUpTo duoMat archMesh.rows ((7 * (1 * (1 / 1000)) + 400 * 2 * (1 / 4096)) * (11 / 4)) b.Z b.x := by
  obtain ⟨Km, cs, hK, hC, hZ, hn, hnK, hq, h1, h2⟩ := short_run
  have hl : ((assemble Km cs).runR short { archOpts with perm := List.range 27 }).1.length = 3 := by
    simpa using congrArg List.length h1
  have ha := List.getElem?_eq_getElem (l := ((assemble Km cs).runR short { archOpts with perm := List.range 27 }).1) (i := 1)
    (by omega)
  have hb := List.getElem?_eq_getElem (l := ((assemble Km cs).runR short { archOpts with perm := List.range 27 }).1) (i := 2)
    (by omega)
  have hst : Stored short.fl 0 (assemble Km cs) (assemble Km cs) := by
    refine stored_self ?_ ?_
    · intro r
      rcases Nat.lt_or_ge r 12 with hr | hr
      · refine Or.inr ⟨0, ?_, short_rounds.zero⟩
        have hr' : r < Km.nrows := by
          have : Km.nrows = 12 := hnK
          omega
        simp [assemble, hr']
      · obtain ⟨r, rfl⟩ := Nat.exists_eq_add_of_le hr
        by_cases hr' : r < 15
        · exact hq r hr'
        · refine Or.inr ⟨0, ?_, short_rounds.zero⟩
          have h3 : Km.nrows = 12 := hnK
          obtain ⟨hs, l, hc⟩ := contacts_of hC
          have h4 : cs.H.length = cs.C.nrows := by rw [hc.H, hc.C]; exact flatMap3_length _ (fun _ => rfl) _
          have h5 : Km.nrows + cs.C.nrows = 27 := hn
          simp only [assemble]
          rw [if_neg (by omega), List.getD_eq_getElem?_getD, List.getElem?_eq_none (by omega)]
          rfl
    · change short.fl cs.Z = cs.Z
      rw [hZ]; decide +kernel
  have hclear := arch_clear
  rw [← hZ] at hclear
  refine ⟨assemble Km cs, _, rfl, hl, _, _, ha, hb, ?_, ?_, ?_⟩
  · refine (C89_plate short_rounds (by decide +kernel) (by norm_num [archOpts]) hst.top.1 ?_ 1 _ _ ha hb).1
    change 0 ≤ cs.Z
    rw [hZ]; norm_num
  · have := congrArg (fun l => l[2]?) h2
    simp only [List.getElem?_map, hb, Option.map_some, List.getElem?_cons_succ, List.getElem?_cons_zero, Option.some.injEq,
      Prod.mk.injEq] at this
    rw [this.2]
    intro h
    rw [Cell.fin.injEq] at h
    norm_num at h
  · have := C89_gaps (κ := 1) (o := { archOpts with perm := List.range 27 }) hK hC duoMat_good archMesh_lengths hclear hst
      (by rw [hZ]; norm_num) short_rounds (by norm_num) short_norm (by norm_num [archOpts]) (by norm_num [archOpts])
      (by norm_num [archOpts]) (k := 2) (by norm_num) hb
    rw [hZ] at this
    intro i j hij
    obtain ⟨g0, g1, g2⟩ := this i j hij
    norm_num [archOpts] at g0 g1 g2 ⊢
    exact ⟨g0, g1, g2⟩

/-- `C89_norm` with double precision and a rounded square root of real numbers. -/
example : NormTest (normGt (binary 53 : ℝ → ℝ) (fun s => binary 53 (Real.sqrt s))) (101 / 100) := by
  have hr := (C89_binary (K := ℝ) (p := 53) (by norm_num)).1
  refine C89_norm hr (by norm_num) ?_
  intro s hs
  have h0 := Real.sqrt_nonneg s
  have h1 := (abs_le.1 (hr.err (Real.sqrt s))).1
  rw [abs_of_nonneg h0] at h1
  have h2 := Real.sq_sqrt hs
  refine ⟨hr.nonneg h0, ?_⟩
  have h3 : (1 - 1 / 2 ^ 53) * Real.sqrt s ≤ binary 53 (Real.sqrt s) := by linarith
  have h4 := pow_le_pow_left₀ (mul_nonneg (by norm_num) h0) h3 2
  rw [mul_pow, h2] at h4
  refine le_trans ?_ h4
  apply mul_le_mul_of_nonneg_right _ hs
  norm_num

end Fibermat
