import Verif.Props.RoundedStack
import Verif.Props.RoundedExamples
import Verif.Props.EnergyExamples
import Verif.Props.LapackExamples

/-! # Concrete cases for C91 -/

namespace Fibermat
open Spec

instance (ε : ℚ) (p : LP ℚ) (z : List ℚ) : Decidable (NearFeasible ε p z) :=
  decidable_of_iff (z.length = p.f.length ∧ (∀ i, i < p.f.length → comp p.lower i - ε ≤ comp z i) ∧
    ∀ k, k < p.C.nrows → ∑ j ∈ Finset.range p.f.length, p.C.get k j * comp z j ≤ comp p.H k + ε)
    ⟨fun ⟨a, b, c⟩ => ⟨a, b, c⟩, fun ⟨a, b, c⟩ => ⟨a, b, c⟩⟩

/-- A solver that has only one answer. -/
def oneAnswer (ε : ℚ) (z : List ℚ) : Linprog ℚ := fun p => if NearFeasible ε p z then some z else none

theorem oneAnswer_near (ε : ℚ) (z : List ℚ) : NearLinprog ε (oneAnswer ε z) := by
  intro p y h
  unfold oneAnswer at h
  split_ifs at h with h1
  cases h
  exact h1

/-- Two fibers crossing outside of their middles. -/
def asideMat : Mat ℚ :=
  { fibers := [⟨10, 1, 1, 0, 0, 5, 1, 0, 0, 1, ((2 : ℚ) : WithTop ℚ)⟩, ⟨8, 1, 1, 1, 1, 0, 0, 1, 0, 1, ((2 : ℚ) : WithTop ℚ)⟩]
    attrs := { n := some 2, size := some 20 } }

theorem asideMat_good : GoodMat asideMat := by
  have h : matCheck asideMat.frame = .ok () := by decide +kernel
  exact ((matCheck_frame_iff _).1 h).resolve_left (by simp [Skipped, asideMat])

theorem asideMat_flat : ∀ f ∈ asideMat.fibers, f.w = 0 := by simp [asideMat]

/-- Two fibers overlapping by 1/128, the lower one above the floor. -/
def sunk : Linprog ℚ := oneAnswer (1 / 100) [3 / 4, 7 / 4 - 1 / 128]

/-- Arithmetic with 12 bits. -/
def shortNet : NetArith ℚ := numpyArith (binary 12) (sqrtDown 12)

theorem shortNet_safe : SafeNet shortNet (1 / 4096) asideMat where
  sound := numpy_sound short_rounds (by have := sqrtDown_rounds 12; norm_num at this ⊢; exact this) (by norm_num)
  ends := C93_ends (n := 11) (by norm_num) _ (τ := 0) (by decide +kernel) (by norm_num)
  heights := C93_heights (binary_zero 12) _

theorem sunk_format : InFormat shortNet.fl sunk := by
  intro p z h
  unfold sunk oneAnswer at h
  split_ifs at h
  cases h
  decide +kernel

/-- Options of the run. -/
def sunkOpts : Opts ℚ := { archOpts with lin := gauss, itermax := 4 }

set_option synthInstance.maxSize 1000 in
set_option synthInstance.maxHeartbeats 200000 in
/-- The whole chain with 12 bits: the mat is pushed down to the floor, with a small error. -/
theorem sunk_run : ∃ net m' st mesh S recs stop, netNewR shortNet asideMat true = .ok net ∧ stackNewR shortNet sunk asideMat net none = .ok (m', st) ∧
    meshNew st = .ok mesh ∧ solveR short m' mesh (some (1 / 100)) (some 100) (1 / 2) sunkOpts none = .ok (S, recs, stop) ∧
    S.Z0 = 287 / 128 ∧ st.rows.length = 3 ∧ m'.fibers.map (fun f => f.z) = [3 / 4, 223 / 128] ∧
    mesh.rows.map (fun r => (r.fiber, r.z)) = [(0, 3 / 4), (0, 3 / 4), (0, 3 / 4), (1, 223 / 128), (1, 223 / 128), (1, 223 / 128)] ∧
    m'.fibers.map (fun f => f.h) = [1, 1] ∧
    recs.map (fun a => (a.Z, a.x 2)) = [(287 / 128, 0), (255 / 128, -1 / 4)] ∧
    recs.map (fun a => a.errSq) = [.fin 0, .fin (1 / 274877906944)] := by
  have hx : (netNewR shortNet asideMat true).toOption.bind (fun net => (stackNewR shortNet sunk asideMat net none).toOption.bind (fun q =>
      (meshNew q.2).toOption.bind (fun mesh =>
      (solveR short q.1 mesh (some (1 / 100)) (some 100) (1 / 2) sunkOpts none).toOption.map (fun r =>
        ((r.1.Z0, q.2.rows.length, q.1.fibers.map (fun f => f.z), mesh.rows.map (fun r => (r.fiber, r.z)), q.1.fibers.map (fun f => f.h)),
         r.2.1.map (fun a => (a.Z, a.x 2)), r.2.1.map (fun a => a.errSq)))))) =
      some ((287 / 128, 3, [3 / 4, 223 / 128],
        [(0, 3 / 4), (0, 3 / 4), (0, 3 / 4), (1, 223 / 128), (1, 223 / 128), (1, 223 / 128)], [1, 1]),
        [(287 / 128, 0), (255 / 128, -1 / 4)], [.fin 0, .fin (1 / 274877906944)]) := by
    decide +kernel
  cases h1 : netNewR shortNet asideMat true with
  | error e => rw [h1] at hx; cases hx
  | ok net =>
    rw [h1] at hx
    simp only [Except.toOption, Option.bind_some] at hx
    cases h2 : stackNewR shortNet sunk asideMat net none with
    | error e => rw [h2] at hx; cases hx
    | ok q =>
      rw [h2] at hx
      simp only [Option.bind_some] at hx
      cases h3 : meshNew q.2 with
      | error e => rw [h3] at hx; cases hx
      | ok mesh =>
        rw [h3] at hx
        simp only [Option.bind_some] at hx
        cases h4 : solveR short q.1 mesh (some (1 / 100)) (some 100) (1 / 2) sunkOpts none with
        | error e => rw [h4] at hx; cases hx
        | ok r =>
          rw [h4] at hx
          simp only [Option.map_some, Option.some.injEq, Prod.mk.injEq] at hx
          obtain ⟨⟨a1, a2, a3, a4, a5⟩, a6, a7⟩ := hx
          exact ⟨net, q.1, q.2, mesh, r.1, r.2.1, r.2.2, rfl, h2, h3, h4, a1, a2, a3, a4, a5, a6, a7⟩

/-- The top of the stacked mat of that run. -/
theorem sunk_top {m : Mat ℚ} {mesh : Mesh ℚ} (h1 : m.fibers.map (fun f => f.z) = [3 / 4, 223 / 128])
    (h2 : mesh.rows.map (fun r => (r.fiber, r.z)) = [(0, 3 / 4), (0, 3 / 4), (0, 3 / 4), (1, 223 / 128), (1, 223 / 128), (1, 223 / 128)])
    (h3 : m.fibers.map (fun f => f.h) = [1, 1]) : IsTop m mesh.rows (287 / 128) := by
  have hl : mesh.rows.length = 6 := by simpa using congrArg List.length h2
  have hrow : ∀ i, i < 6 → ∃ r, mesh.rows[i]? = some r ∧ some (r.fiber, r.z) =
      ([(0, 3 / 4), (0, 3 / 4), (0, 3 / 4), (1, 223 / 128), (1, 223 / 128), (1, 223 / 128)] : List (ℤ × ℚ))[i]? := by
    intro i hi
    refine ⟨_, List.getElem?_eq_getElem (by omega), ?_⟩
    rw [← h2, List.getElem?_map, List.getElem?_eq_getElem (by omega)]
    rfl
  have hf : ∀ i, i < 2 → (m.fibers[i]?).map (fun f => f.h) = some 1 := by
    intro i hi
    rw [← List.getElem?_map, h3]
    interval_cases i <;> rfl
  have key : ∀ i, i < 6 → nodeHeight mesh.rows i + nodeThick m mesh.rows i / 2 = if i < 3 then 5 / 4 else 287 / 128 := by
    intro i hi
    obtain ⟨r, hr, e⟩ := hrow i hi
    have t0 := hf 0 (by norm_num)
    have t1 := hf 1 (by norm_num)
    interval_cases i <;> simp only [List.getElem?_cons_zero, List.getElem?_cons_succ, Option.some.injEq, Prod.mk.injEq] at e <;>
      simp [nodeHeight, nodeThick, hr, e.1, e.2, t0, t1] <;> norm_num
  refine ⟨⟨3, by omega, by rw [key 3 (by norm_num)]; norm_num⟩, fun i hi => ?_⟩
  rw [key i (by omega)]
  split_ifs <;> norm_num

/-- Hypotheses and conclusion of `C91_compressed` on that run. -/
example : ∃ (m' : Mat ℚ) (mesh : Mesh ℚ) (recs : List (Rec ℚ)) (a : Rec ℚ), recs.length = 2 ∧ recs[1]? = some a ∧
    a.Z = 255 / 128 ∧ a.errSq ≠ .fin 0 ∧
    ClearUpTo m' mesh.rows (1 / 100 + (7 * (1 * (1 / 1000)) + (400 * 1 + 21) * (1 / 4096)) * (287 / 128)) a.Z a.x ∧
    (∃ f ∈ asideMat.fibers, 40 * (1 / 100 : ℚ) ≤ f.h) := by
  obtain ⟨net, m', st, mesh, S, recs, stop, h1, h2, h3, h4, hZ, hst, q1, q2, q3, q4, q5⟩ := sunk_run
  have hthick : ∃ f ∈ asideMat.fibers, 40 * (1 / 100 : ℚ) ≤ f.h := by
    refine ⟨_, List.mem_cons_self, ?_⟩
    norm_num
  have hl : recs.length = 2 := by simpa using congrArg List.length q4
  have ha := List.getElem?_eq_getElem (l := recs) (i := 1) (by omega)
  have hp : PositiveLengths mesh.rows (some (1 / 100 : ℚ)) (some 100) := ⟨by simp, by simp, by simp, by simp⟩
  have ho : OrderedLengths short.fl mesh.rows (some (1 / 100 : ℚ)) (some 100) := by
    refine ⟨?_, by simp, by simp⟩
    rintro _ _ ⟨⟩ ⟨⟩
    norm_num
  have e4 := congrArg (fun l => l[1]?) q4
  have e5 := congrArg (fun l => l[1]?) q5
  simp only [List.getElem?_map, ha, Option.map_some, List.getElem?_cons_succ, List.getElem?_cons_zero, Option.some.injEq,
    Prod.mk.injEq] at e4 e5
  refine ⟨m', mesh, recs, _, hl, ha, e4.1, ?_, ?_, hthick⟩
  · rw [e5]
    intro h
    rw [Cell.fin.injEq] at h
    norm_num at h
  · have := C91_compressed (κ := 1) (oneAnswer_near _ _) asideMat_good asideMat_flat shortNet_safe h1 rfl sunk_format (by norm_num) (by norm_num) hthick h2 h3
      h4 hp ho short_norm (by norm_num [sunkOpts, archOpts]) (by norm_num [sunkOpts, archOpts]) (by norm_num [sunkOpts, archOpts])
      (sunk_top q1 q2 q3) (k := 1) (by norm_num) ha
    intro i j hij
    obtain ⟨g0, g1, g2⟩ := this i j hij
    norm_num [sunkOpts, archOpts] at g0 g1 g2 ⊢
    exact ⟨g0, g1, g2⟩

/-- A solver with any approximate answer made of doubles. -/
noncomputable def anyAnswer (ε : ℚ) : Linprog ℚ := fun p =>
  open Classical in if h : ∃ z, NearFeasible ε p z ∧ ∀ c ∈ z, binary 53 c = c then some h.choose else none

/-- Equidistant doubles. -/
theorem binary_grid {p n : ℕ} (hp : 1 ≤ p) (hn : n ≤ 2 ^ p) : Grid (binary p : ℚ → ℚ) n := by
  intro B
  obtain ⟨e, he⟩ := pow_unbounded_of_one_lt B (show (1 : ℚ) < 2 by norm_num)
  refine ⟨2 ^ e, he.le, fun k hk => ?_⟩
  have := (C89_binary (K := ℚ) hp).2 k e (by rw [abs_of_nonneg (by positivity)]; exact_mod_cast hk.trans hn)
  simpa using this

/-- Hypotheses of `C91_completes`, with doubles. -/
example : NearLinprog (1 / 100) (anyAnswer (1 / 100)) ∧ Answers doubles.fl (anyAnswer (1 / 100)) ∧ InFormat doubles.fl (anyAnswer (1 / 100)) ∧
    Grid doubles.fl slantMat.fibers.length ∧ GoodMat slantMat ∧ (∀ f ∈ slantMat.fibers, f.w = 0) ∧ SafeNet doubles (1 / 2 ^ 53) slantMat ∧
    ∃ f ∈ slantMat.fibers, 40 * (1 / 100 : ℚ) ≤ f.h := by
  refine ⟨?_, ?_, ?_, binary_grid (by norm_num) (by decide +kernel), slantMat_good, by decide +kernel,
    ⟨doubles_sound, slant_ends, C93_heights (binary_zero 53) _⟩, _, List.mem_cons_self, by norm_num⟩
  · intro p z h
    unfold anyAnswer at h
    split_ifs at h with h1
    cases h
    exact h1.choose_spec.1
  · rintro p - ⟨z, hz, hf⟩
    have : ∃ z, NearFeasible (1 / 100) p z ∧ ∀ c ∈ z, binary 53 c = c :=
      ⟨z, ⟨hz.size, fun i hi => by have := hz.lower i hi; linarith, fun k hk => by have := hz.rows k hk; linarith⟩, hf⟩
    exact ⟨_, by unfold anyAnswer; rw [dif_pos this]⟩
  · intro p z h
    unfold anyAnswer at h
    split_ifs at h with h1
    cases h
    exact h1.choose_spec.2

end Fibermat
