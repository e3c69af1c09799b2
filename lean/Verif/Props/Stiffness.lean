import Verif.Lemmas.Stiffness
import Verif.Props.Net
import Verif.Model.Solver
import Mathlib.Tactic.IntervalCases
import Mathlib.Tactic.Abel
import Mathlib.Algebra.Order.BigOperators.Ring.List

/-! # Theorems on `stiffness` (C30-C36) -/

set_option linter.unusedSectionVars false
set_option linter.unusedSimpArgs false

namespace Fibermat
variable {K : Type} [Field K] [LinearOrder K]
open Spec

/-! ## C30 -/

theorem get_eq_sum_ite (n m : Nat) (es : List (Nat × Nat × Cell K)) (r c : Nat) :
    Coo.get ⟨n, m, es⟩ r c = (es.map (fun e => if e.1 = r ∧ e.2.1 = c then e.2.2 else 0)).sum := by
  unfold Coo.get
  induction es with
  | nil => rfl
  | cons e es ih =>
    by_cases h : e.1 = r ∧ e.2.1 = c
    · simp only [List.filter_cons, h, and_self, decide_true, if_true, List.map_cons, List.sum_cons] at ih ⊢
      rw [ih]
    · simp only [List.filter_cons, h, decide_false, Bool.false_eq_true, if_false, List.map_cons, List.sum_cons, zero_add] at ih ⊢
      rw [ih]

/-- The stiffness matrix is square and symmetric, whatever the lengths and moduli. -/
theorem C30_symmetric {mat : Mat K} {mesh : Mesh K} {lmin lmax : Option K} {coupling : K} {Km : Coo (Cell K)}
    (h : stiffness mat mesh lmin lmax coupling = .ok Km) :
    Km.nrows = 2 * mesh.rows.length ∧ Km.ncols = 2 * mesh.rows.length ∧ Km.inShape = true ∧
      ∀ r c, Km.get r c = Km.get c r := by
  obtain ⟨-, -, bs, ls, hb, -, rfl⟩ := stiffness_eq h
  refine ⟨rfl, rfl, ?_, ?_⟩
  · rw [Coo.inShape, List.all_eq_true]
    intro e he
    obtain ⟨p, hp, he⟩ := List.mem_flatMap.1 he
    obtain ⟨-, r, q, h1, h2, -⟩ := (beams_spec hb).1 _ (List.of_mem_zip hp).1
    have h1 := (List.getElem?_eq_some_iff.1 h1).1
    have h2 := (List.getElem?_eq_some_iff.1 h2).1
    simp only [beamEntries, List.mem_cons, List.not_mem_nil, or_false] at he
    rcases he with rfl | rfl | rfl | rfl | rfl | rfl | rfl | rfl | rfl | rfl | rfl | rfl | rfl | rfl | rfl | rfl <;>
      (simp only [Bool.and_eq_true, decide_eq_true_eq]; omega)
  · intro r c
    rw [get_eq_sum_ite, get_eq_sum_ite, sum_map_flatMap, sum_map_flatMap]
    congr 1
    apply List.map_congr_left
    intro p _
    simp only [beamEntries, List.map_cons, List.map_nil, List.sum_cons, List.sum_nil]
    simp only [and_comm (b := _ = r)]
    abel

section
variable [IsStrictOrderedRing K]

/-! ## C31 -/

theorem beamEnergy_nonneg {c : K} (hc : |c| ≤ 1) (u : ℕ → K) {p : Beam K × K} (hs : Solid p.1.fiber) (hl : 0 < p.2) :
    0 ≤ beamEnergy c u p := by
  have h0 := stiff0_pos hs hl
  have hc2 : 0 ≤ 1 - c ^ 2 := by
    have := (sq_le_one_iff_abs_le_one c).2 hc; linarith
  have ht : 0 ≤ tensile p.1.fiber := by
    have := hs.E
    unfold tensile
    rcases h : p.1.fiber.E with _ | e
    · exact le_refl _
    · rw [h] at this; exact (WithTop.coe_lt_coe.1 this).le
  have hG := hs.G
  simp only [beamEnergy]
  positivity

/-- With finite tensile moduli, positive lengths and `|coupling| ≤ 1` the elastic energy is never negative. -/
theorem C31_positive {mat : Mat K} {mesh : Mesh K} {lmin lmax : Option K} {coupling : K} {Km : Coo (Cell K)}
    (h : stiffness mat mesh lmin lmax coupling = .ok Km) (hm : GoodMat mat) (ht : FiniteTensile mat)
    (hp : PositiveLengths mesh.rows lmin lmax) (hc : |coupling| ≤ 1) :
    ∃ M, Entries Km M ∧ ∀ u, 0 ≤ energy (2 * mesh.rows.length) M u := by
  obtain ⟨bl, ha, hpos, -⟩ := assembled h
  refine ⟨_, ha.entries hm ht (hpos hp), fun u => ?_⟩
  rw [ha.energy_eq]
  apply List.sum_nonneg
  intro x hx
  obtain ⟨p, hpm, rfl⟩ := List.mem_map.1 hx
  exact beamEnergy_nonneg hc u (ha.solid hm p hpm) (hpos hp p hpm)

/-- Sum of the lengths of the beams that start before node `i`. -/
def lengthBefore (bl : List (Beam K × K)) (i : ℕ) : K := (bl.map (fun p => if p.1.i < i then p.2 else 0)).sum

theorem lengthBefore_succ {bl : List (Beam K × K)} (hn : (bl.map (·.1.i)).Nodup) {p : Beam K × K} (hp : p ∈ bl) :
    lengthBefore bl (p.1.i + 1) = lengthBefore bl p.1.i + p.2 := by
  induction bl with
  | nil => simp at hp
  | cons q bl ih =>
    simp only [List.map_cons, List.nodup_cons, List.mem_map, not_exists, not_and] at hn
    obtain ⟨hn1, hn2⟩ := hn
    simp only [lengthBefore, List.map_cons, List.sum_cons] at ih ⊢
    rcases List.mem_cons.1 hp with rfl | hp
    · have : bl.map (fun x => if x.1.i < p.1.i + 1 then x.2 else 0) =
          bl.map (fun x => if x.1.i < p.1.i then x.2 else 0) := by
        apply List.map_congr_left
        intro x hx
        have := hn1 x hx
        have : x.1.i < p.1.i + 1 ↔ x.1.i < p.1.i := by omega
        simp only [this]
      rw [this]
      simp
      ring
    · rw [ih hn2 hp]
      have hne : p.1.i ≠ q.1.i := fun h => hn1 p hp h
      have : q.1.i < p.1.i + 1 ↔ q.1.i < p.1.i := by omega
      simp only [this]
      ring

/-- If `|coupling| > 1` and there is a beam, some displacement has negative elastic energy. -/
theorem C31_indefinite {mat : Mat K} {mesh : Mesh K} {lmin lmax : Option K} {coupling : K} {Km : Coo (Cell K)}
    (h : stiffness mat mesh lmin lmax coupling = .ok Km) (hm : GoodMat mat) (ht : FiniteTensile mat)
    (hv : ValidMesh mesh.frame) (hp : PositiveLengths mesh.rows lmin lmax) (hb : ∃ i, StartsBeam mesh.rows i)
    (hc : 1 < |coupling|) :
    ∃ M, Entries Km M ∧ ∃ u, energy (2 * mesh.rows.length) M u < 0 := by
  obtain ⟨bl, ha, hpos, -⟩ := assembled h
  have hbeams : BeamsCyclic mesh.rows := by have := hv.beams; rwa [rows_meshFrame] at this
  refine ⟨_, ha.entries hm ht (hpos hp),
    fun r => if r % 2 = 0 then coupling * lengthBefore bl (r / 2) else 1, ?_⟩
  rw [ha.energy_eq]
  have hneg : ∀ p ∈ bl, beamEnergy coupling
      (fun r => if r % 2 = 0 then coupling * lengthBefore bl (r / 2) else 1) p < 0 := by
    intro p hpm
    obtain ⟨r, q, h1, h2, h3, -⟩ := (ha.beam p hpm).rows
    have hj := (beam_next hbeams h1 h3 (ha.beam p hpm).lt).1
    have h0 := stiff0_pos (ha.solid hm p hpm) (hpos hp p hpm)
    have hl := hpos hp p hpm
    have hc2 : 1 < coupling ^ 2 := by
      rw [← sq_abs]; nlinarith [abs_nonneg coupling]
    have e := lengthBefore_succ ha.nodup hpm
    have e1 : (2 * p.1.i + 1) % 2 ≠ 0 := by omega
    have e2 : (2 * p.1.j + 1) % 2 ≠ 0 := by omega
    have e3 : (2 * p.1.i) % 2 = 0 := by omega
    have e4 : (2 * p.1.j) % 2 = 0 := by omega
    have e5 : (2 * p.1.i) / 2 = p.1.i := by omega
    have e6 : (2 * p.1.j) / 2 = p.1.i + 1 := by omega
    simp only [beamEnergy, e1, e2, e3, e4, e5, e6, if_true, if_false, e]
    have : (coupling * lengthBefore bl p.1.i - coupling * (lengthBefore bl p.1.i + p.2) +
        coupling * p.2 * (1 + 1) / 2) ^ 2 + (1 - coupling ^ 2) * (p.2 * (1 + 1) / 2) ^ 2 +
        (p.2 ^ 2 / 12 + tensile p.1.fiber / p.1.fiber.G * p.1.fiber.h ^ 2) * (1 - 1) ^ 2
        = (1 - coupling ^ 2) * p.2 ^ 2 := by ring
    rw [this]
    apply mul_neg_of_pos_of_neg h0
    apply mul_neg_of_neg_of_pos (by linarith) (by positivity)
  obtain ⟨i, hi⟩ := hb
  obtain ⟨p, hpm, -⟩ := ha.all i hi
  have key : ∀ l : List K, (∀ x ∈ l, x < 0) → l ≠ [] → l.sum < 0 := by
    intro l
    induction l with
    | nil => intro _ h; exact absurd rfl h
    | cons a l ih =>
      intro h _
      rw [List.sum_cons]
      have h1 := h a (by simp)
      by_cases hl : l = []
      · subst hl; simpa using h1
      · have := ih (fun x hx => h x (List.mem_cons_of_mem _ hx)) hl
        linarith
  apply key
  · intro x hx
    obtain ⟨p, hpm, rfl⟩ := List.mem_map.1 hx
    exact hneg p hpm
  · intro hnil
    rw [List.map_eq_nil_iff] at hnil
    rw [hnil] at hpm; simp at hpm

/-! ## C32 -/

theorem sum_cell_fin {ι : Type} (s : Finset ι) (f : ι → K) :
    ∑ i ∈ s, (Cell.fin (f i) : Cell K) = .fin (∑ i ∈ s, f i) := by
  induction s using Finset.cons_induction with
  | empty => rfl
  | cons a s ha ih => rw [Finset.sum_cons, Finset.sum_cons, ih, Cell.fin_add_fin]

theorem mem_nodesOf {rows : List (MeshRow K)} {k : Int} {i : ℕ} :
    i ∈ nodesOf rows k ↔ ∃ r, rows[i]? = some r ∧ r.fiber = k := by
  unfold nodesOf
  rw [Finset.mem_filter, Finset.mem_range]
  constructor
  · exact fun h => h.2
  · rintro ⟨r, hr, hf⟩
    exact ⟨(List.getElem?_eq_some_iff.1 hr).1, r, hr, hf⟩

/-- In a valid mesh the two nodes of a beam are on the same fiber. -/
theorem beam_mem_iff {mat : Mat K} {rows : List (MeshRow K)} (hb : BeamsCyclic rows) {b : Beam K}
    (h : IsBeamOf mat rows b) (k : Int) : b.i ∈ nodesOf rows k ↔ b.j ∈ nodesOf rows k := by
  obtain ⟨r, q, h1, h2, h3, -⟩ := h.rows
  obtain ⟨-, p, hp, hf⟩ := beam_next hb h1 h3 h.lt
  rw [h2] at hp; cases hp
  rw [mem_nodesOf, mem_nodesOf]
  simp [h1, h2, hf]

/-- A uniform vertical translation of a fiber produces no elastic force: in each row, the entries in the columns of the
displacements of the nodes of the fiber sum to zero.  Tensile moduli may be infinite. -/
theorem C32_translation {mat : Mat K} {mesh : Mesh K} {lmin lmax : Option K} {coupling : K} {Km : Coo (Cell K)}
    (h : stiffness mat mesh lmin lmax coupling = .ok Km) (hm : GoodMat mat) (hv : ValidMesh mesh.frame)
    (hp : PositiveLengths mesh.rows lmin lmax) (k : Int) (r : ℕ) :
    ∑ i ∈ nodesOf mesh.rows k, Km.get r (2 * i) = .fin 0 := by
  obtain ⟨bl, ha, hpos, -⟩ := assembled h
  have hbeams : BeamsCyclic mesh.rows := by have := hv.beams; rwa [rows_meshFrame] at this
  have e : ∀ i, Km.get r (2 * i) = .fin (table mesh.rows coupling bl r (2 * i)) := fun i =>
    ha.disp hm (hpos hp) (Or.inr (by omega))
  simp only [e]
  rw [sum_cell_fin]
  congr 1
  classical
  have hrow := ha.row (fun s => if s % 2 = 0 ∧ s / 2 ∈ nodesOf mesh.rows k then 1 else 0) (by
    intro p hpm u
    refine (beam_bilin _ _ _ _ _ _ u (fun s => if s % 2 = 0 ∧ s / 2 ∈ nodesOf mesh.rows k then 1 else 0)).trans ?_
    have hiff := beam_mem_iff hbeams (ha.beam p hpm) k
    have e1 : (2 * p.1.i + 1) % 2 ≠ 0 := by omega
    have e2 : (2 * p.1.j + 1) % 2 ≠ 0 := by omega
    have e3 : (2 * p.1.i) % 2 = 0 := by omega
    have e4 : (2 * p.1.j) % 2 = 0 := by omega
    have e5 : (2 * p.1.i) / 2 = p.1.i := by omega
    have e6 : (2 * p.1.j) / 2 = p.1.j := by omega
    simp only [e1, e2, e3, e4, e5, e6, false_and, true_and, if_false, ← hiff]
    ring) r
  simp only [mul_ite, mul_one, mul_zero] at hrow
  rw [← Finset.sum_filter] at hrow
  rw [← hrow]
  symm
  refine Finset.sum_bij' (fun s _ => s / 2) (fun i _ => 2 * i) ?_ ?_ ?_ ?_ ?_
  · intro s hs; exact (Finset.mem_filter.1 hs).2.2
  · intro i hi
    rw [Finset.mem_filter, Finset.mem_range]
    obtain ⟨r, hr, -⟩ := mem_nodesOf.1 hi
    have := (List.getElem?_eq_some_iff.1 hr).1
    refine ⟨by omega, by omega, ?_⟩
    rwa [show 2 * i / 2 = i by omega]
  · intro s hs
    have := (Finset.mem_filter.1 hs).2.1
    omega
  · intro i _; change 2 * i / 2 = i; omega
  · intro s hs
    have := (Finset.mem_filter.1 hs).2.1
    rw [show 2 * (s / 2) = s by omega]

/-- The rigid rotation by a small angle `θ` of fiber `k`: displacement `θ s` and rotation `θ` at each node of the fiber. -/
noncomputable def rigidRotation (rows : List (MeshRow K)) (k : Int) (θ : K) (r : ℕ) : K :=
  open Classical in
  if r / 2 ∈ nodesOf rows k then (if r % 2 = 0 then θ * abscissa rows (r / 2) else θ) else 0

/-- Without rescaling and with `coupling = 1`, a rigid rotation of a fiber produces no elastic force. -/
theorem C32_rotation {mat : Mat K} {mesh : Mesh K} {Km : Coo (Cell K)}
    (h : stiffness mat mesh none none 1 = .ok Km) (hm : GoodMat mat) (ht : FiniteTensile mat)
    (hv : ValidMesh mesh.frame) (hp : PositiveLengths mesh.rows none none) (k : Int) (θ : K) :
    ∃ M, Entries Km M ∧
      ∀ r, ∑ s ∈ Finset.range (2 * mesh.rows.length), M r s * rigidRotation mesh.rows k θ s = 0 := by
  obtain ⟨bl, ha, hpos, hraw⟩ := assembled h
  have hbeams : BeamsCyclic mesh.rows := by have := hv.beams; rwa [rows_meshFrame] at this
  refine ⟨_, ha.entries hm ht (hpos hp), ha.row _ ?_⟩
  intro p hpm u
  rw [beam_bilin]
  have hiff := beam_mem_iff hbeams (ha.beam p hpm) k
  obtain ⟨r, q, h1, h2, -, hl, -⟩ := (ha.beam p hpm).rows
  have hl' : p.2 = abscissa mesh.rows p.1.j - abscissa mesh.rows p.1.i := by
    rw [hraw rfl rfl p hpm, hl]; simp [abscissa, h1, h2]
  have e1 : (2 * p.1.i + 1) % 2 ≠ 0 := by omega
  have e2 : (2 * p.1.j + 1) % 2 ≠ 0 := by omega
  have e3 : (2 * p.1.i) % 2 = 0 := by omega
  have e4 : (2 * p.1.j) % 2 = 0 := by omega
  have e5 : (2 * p.1.i) / 2 = p.1.i := by omega
  have e6 : (2 * p.1.j) / 2 = p.1.j := by omega
  have e7 : (2 * p.1.i + 1) / 2 = p.1.i := by omega
  have e8 : (2 * p.1.j + 1) / 2 = p.1.j := by omega
  simp only [rigidRotation, e1, e2, e3, e4, e5, e6, e7, e8, if_true, if_false, ← hiff]
  split_ifs with hk
  · have e : abscissa mesh.rows p.1.j = abscissa mesh.rows p.1.i + p.2 := by rw [hl']; ring
    rw [e]
    ring
  · ring

/-! ## C33 -/

/-- With finite tensile moduli and `|coupling| < 1` the motions without elastic energy are the translations of fibers: no
rotation at the nodes of beams and the same displacement for all nodes of a fiber. -/
theorem C33_no_energy_iff {mat : Mat K} {mesh : Mesh K} {lmin lmax : Option K} {coupling : K} {Km : Coo (Cell K)}
    (h : stiffness mat mesh lmin lmax coupling = .ok Km) (hm : GoodMat mat) (ht : FiniteTensile mat)
    (hv : ValidMesh mesh.frame) (hp : PositiveLengths mesh.rows lmin lmax) (hc : |coupling| < 1) :
    ∃ M, Entries Km M ∧ ∀ u, energy (2 * mesh.rows.length) M u = 0 ↔
      (∀ i, OnBeam mesh.rows i → u (2 * i + 1) = 0) ∧
      (∀ i j, SameFiber mesh.rows i j → u (2 * i) = u (2 * j)) := by
  obtain ⟨bl, ha, hpos, -⟩ := assembled h
  have hbeams : BeamsCyclic mesh.rows := by have := hv.beams; rwa [rows_meshFrame] at this
  have hsorted : NodesSorted mesh.rows := by have := hv.sorted; rwa [rows_meshFrame] at this
  refine ⟨_, ha.entries hm ht (hpos hp), fun u => ?_⟩
  rw [ha.energy_eq]
  have hnn : ∀ x ∈ bl.map (beamEnergy coupling u), 0 ≤ x := by
    intro x hx
    obtain ⟨p, hpm, rfl⟩ := List.mem_map.1 hx
    exact beamEnergy_nonneg hc.le u (ha.solid hm p hpm) (hpos hp p hpm)
  have hsum : (bl.map (beamEnergy coupling u)).sum = 0 ↔ ∀ p ∈ bl, beamEnergy coupling u p = 0 := by
    constructor
    · intro h0 p hpm
      have h1 := List.single_le_sum hnn _ (List.mem_map_of_mem hpm)
      rw [h0] at h1
      exact le_antisymm h1 (hnn _ (List.mem_map_of_mem hpm))
    · intro h0
      apply List.sum_eq_zero
      intro x hx
      obtain ⟨p, hpm, rfl⟩ := List.mem_map.1 hx
      exact h0 p hpm
  have hbeam : ∀ p ∈ bl, (beamEnergy coupling u p = 0 ↔
      u (2 * p.1.i + 1) = 0 ∧ u (2 * p.1.j + 1) = 0 ∧ u (2 * p.1.i) = u (2 * p.1.j)) := by
    intro p hpm
    have hs := ha.solid hm p hpm
    have hl := hpos hp p hpm
    have h0 := stiff0_pos hs hl
    have hc2 : 0 < 1 - coupling ^ 2 := by
      have := (sq_lt_one_iff_abs_lt_one coupling).2 hc; linarith
    have htn : 0 ≤ tensile p.1.fiber / p.1.fiber.G * p.1.fiber.h ^ 2 := by
      have hE := hs.E
      have hG := hs.G
      have : 0 ≤ tensile p.1.fiber := by
        unfold tensile
        rcases h : p.1.fiber.E with _ | e
        · exact le_refl _
        · rw [h] at hE; exact (WithTop.coe_lt_coe.1 hE).le
      positivity
    have hk : 0 < p.2 ^ 2 / 12 + tensile p.1.fiber / p.1.fiber.G * p.1.fiber.h ^ 2 := by
      have : 0 < p.2 ^ 2 / 12 := by positivity
      linarith
    simp only [beamEnergy]
    constructor
    · intro hz
      have hz := (mul_eq_zero.1 hz).resolve_left h0.ne'
      set A := (u (2 * p.1.i) - u (2 * p.1.j) + coupling * p.2 * (u (2 * p.1.i + 1) + u (2 * p.1.j + 1)) / 2) ^ 2 with hA
      set B := (1 - coupling ^ 2) * (p.2 * (u (2 * p.1.i + 1) + u (2 * p.1.j + 1)) / 2) ^ 2 with hB
      set C := (p.2 ^ 2 / 12 + tensile p.1.fiber / p.1.fiber.G * p.1.fiber.h ^ 2) *
        (u (2 * p.1.i + 1) - u (2 * p.1.j + 1)) ^ 2 with hC
      have hA0 : 0 ≤ A := by positivity
      have hB0 : 0 ≤ B := by positivity
      have hC0 : 0 ≤ C := by positivity
      have hA1 : A = 0 := by linarith
      have hB1 : B = 0 := by linarith
      have hC1 : C = 0 := by linarith
      have hm' : u (2 * p.1.i + 1) - u (2 * p.1.j + 1) = 0 :=
        pow_eq_zero_iff (two_ne_zero) |>.1 ((mul_eq_zero.1 hC1).resolve_left hk.ne')
      have hs' : p.2 * (u (2 * p.1.i + 1) + u (2 * p.1.j + 1)) / 2 = 0 :=
        pow_eq_zero_iff (two_ne_zero) |>.1 ((mul_eq_zero.1 hB1).resolve_left hc2.ne')
      have hs'' : u (2 * p.1.i + 1) + u (2 * p.1.j + 1) = 0 := by
        have : p.2 * (u (2 * p.1.i + 1) + u (2 * p.1.j + 1)) = 0 := by linarith
        exact (mul_eq_zero.1 this).resolve_left hl.ne'
      have ha' : u (2 * p.1.i) - u (2 * p.1.j) + coupling * p.2 * (u (2 * p.1.i + 1) + u (2 * p.1.j + 1)) / 2 = 0 :=
        pow_eq_zero_iff (two_ne_zero) |>.1 hA1
      rw [hs''] at ha'
      refine ⟨by linarith, by linarith, ?_⟩
      simp only [mul_zero, zero_div, add_zero] at ha'
      linarith
    · rintro ⟨h1, h2, h3⟩
      rw [h1, h2, h3]; ring
  rw [hsum]
  constructor
  · intro hz
    have hz' := fun p hpm => (hbeam p hpm).1 (hz p hpm)
    constructor
    · rintro i (hi | ⟨k, hk, rfl⟩)
      · obtain ⟨p, hpm, rfl⟩ := ha.all i hi
        exact (hz' p hpm).1
      · obtain ⟨p, hpm, rfl⟩ := ha.all k hk
        obtain ⟨r, q, h1, h2, h3, -⟩ := (ha.beam p hpm).rows
        have : succNode mesh.rows p.1.i = p.1.j := by simp [succNode, h1, h3]
        rw [this]
        exact (hz' p hpm).2.1
    · -- constant along a fiber
      have key : ∀ d i : ℕ, SameFiber mesh.rows i (i + d) → u (2 * i) = u (2 * (i + d)) := by
        intro d
        induction d with
        | zero => intro i _; rfl
        | succ d ih =>
          rintro i ⟨r, p, hr, hp', hf⟩
          obtain ⟨hlt, -⟩ := List.getElem?_eq_some_iff.1 hp'
          have hq : mesh.rows[i + d]? = some (mesh.rows[i + d]'(by omega)) := List.getElem?_eq_getElem (by omega)
          set q := mesh.rows[i + d]'(by omega) with hqd
          have hle : ∀ {a b : ℕ} {x y : MeshRow K}, a ≤ b → mesh.rows[a]? = some x → mesh.rows[b]? = some y →
              x.fiber ≤ y.fiber := by
            intro a b x y hab hx hy
            rcases Nat.eq_or_lt_of_le hab with rfl | hlt
            · rw [hx] at hy; cases hy; exact le_refl _
            · obtain ⟨h1, h1'⟩ := List.getElem?_eq_some_iff.1 hx
              obtain ⟨h2, h2'⟩ := List.getElem?_eq_some_iff.1 hy
              have := List.pairwise_iff_getElem.1 hsorted a b h1 h2 hlt
              rw [h1', h2'] at this
              rcases this with h | h
              · exact h.le
              · exact h.1.le
          have f1 := hle (Nat.le_add_right i d) hr hq
          have f2 := hle (Nat.le_succ (i + d)) hq hp'
          have hfq : q.fiber = r.fiber := le_antisymm (by rw [hf]; exact f2) f1
          have := ih i ⟨r, q, hr, hq, hfq.symm⟩
          rw [this]
          obtain ⟨hst, -⟩ := starts_of_next hbeams hq (show mesh.rows[i + d + 1]? = some p from hp') (by rw [hfq, hf])
          obtain ⟨b, hbm, hbi⟩ := ha.all _ hst
          obtain ⟨r', q', h1, h2, h3, -⟩ := (ha.beam b hbm).rows
          have hj := (beam_next hbeams h1 h3 (ha.beam b hbm).lt).1
          have := (hz' b hbm).2.2
          rw [hj, hbi] at this
          exact this
      intro i j hij
      rcases le_total i j with hle | hle
      · obtain ⟨d, rfl⟩ := Nat.exists_eq_add_of_le hle
        exact key d i hij
      · obtain ⟨d, rfl⟩ := Nat.exists_eq_add_of_le hle
        obtain ⟨r, p, h1, h2, h3⟩ := hij
        exact (key d j ⟨p, r, h2, h1, h3.symm⟩).symm
  · rintro ⟨h1, h2⟩ p hpm
    rw [hbeam p hpm]
    obtain ⟨r, q, g1, g2, g3, -⟩ := (ha.beam p hpm).rows
    have hlt := (ha.beam p hpm).lt
    obtain ⟨-, q', hq', hf⟩ := beam_next hbeams g1 g3 hlt
    have hst : StartsBeam mesh.rows p.1.i := ⟨r, g1, by omega⟩
    refine ⟨h1 _ (Or.inl hst), h1 _ (Or.inr ⟨p.1.i, hst, ?_⟩), h2 _ _ ⟨r, q', g1, hq', hf.symm⟩⟩
    simp [succNode, g1, g3]

/-! ## C34 -/

/-- A nonzero entry couples two components of the same node or of neighbour nodes of one fiber. -/
theorem C34_local {mat : Mat K} {mesh : Mesh K} {lmin lmax : Option K} {coupling : K} {Km : Coo (Cell K)}
    (h : stiffness mat mesh lmin lmax coupling = .ok Km) (hv : ValidMesh mesh.frame) {r c : ℕ}
    (hne : Km.get r c ≠ .fin 0) :
    SameFiber mesh.rows (r / 2) (c / 2) ∧ (r / 2 = c / 2 ∨ r / 2 = c / 2 + 1 ∨ c / 2 = r / 2 + 1) := by
  obtain ⟨bl, ha, -, -⟩ := assembled h
  have hbeams : BeamsCyclic mesh.rows := by have := hv.beams; rwa [rows_meshFrame] at this
  have : ∃ e ∈ bl.flatMap (fun p => beamEntries p.1.i p.1.j (coeffs p.1.fiber p.2 coupling)), e.1 = r ∧ e.2.1 = c := by
    by_contra hcon
    push Not at hcon
    apply hne
    rw [ha.eq]
    unfold Coo.get
    rw [List.filter_eq_nil_iff.2]
    · rfl
    · intro e he; simpa using hcon e he
  obtain ⟨e, he, rfl, rfl⟩ := this
  obtain ⟨p, hpm, he⟩ := List.mem_flatMap.1 he
  obtain ⟨r, q, h1, h2, h3, -⟩ := (ha.beam p hpm).rows
  obtain ⟨hj, q', hq', hf⟩ := beam_next hbeams h1 h3 (ha.beam p hpm).lt
  rw [h2] at hq'; cases hq'
  have hd : ∀ x : ℕ, (2 * x) / 2 = x ∧ (2 * x + 1) / 2 = x := fun x => ⟨by omega, by omega⟩
  have s1 : SameFiber mesh.rows p.1.i p.1.i := ⟨r, r, h1, h1, rfl⟩
  have s2 : SameFiber mesh.rows p.1.i p.1.j := ⟨r, q, h1, h2, hf.symm⟩
  have s3 : SameFiber mesh.rows p.1.j p.1.i := ⟨q, r, h2, h1, hf⟩
  have s4 : SameFiber mesh.rows p.1.j p.1.j := ⟨q, q, h2, h2, rfl⟩
  simp only [beamEntries, List.mem_cons, List.not_mem_nil, or_false] at he
  rcases he with rfl | rfl | rfl | rfl | rfl | rfl | rfl | rfl | rfl | rfl | rfl | rfl | rfl | rfl | rfl | rfl <;>
    simp only [(hd _).1, (hd _).2] <;> refine ⟨by assumption, ?_⟩ <;> simp [hj]

/-- Beams are exactly the pairs of consecutive nodes of a fiber. -/
theorem C34_beams {mesh : Mesh K} (hv : ValidMesh mesh.frame) (i j : ℕ) :
    (StartsBeam mesh.rows i ∧ succNode mesh.rows i = j) ↔ (j = i + 1 ∧ SameFiber mesh.rows i j) := by
  have hbeams : BeamsCyclic mesh.rows := by have := hv.beams; rwa [rows_meshFrame] at this
  constructor
  · rintro ⟨⟨r, hr, hlt⟩, hs⟩
    have hj : r.beam = (j : Int) := by
      have : r.beam.toNat = j := by simpa [succNode, hr] using hs
      omega
    obtain ⟨h1, p, hp, hf⟩ := beam_next hbeams hr hj (by omega)
    exact ⟨h1, r, p, hr, hp, hf.symm⟩
  · rintro ⟨rfl, r, p, hr, hp, hf⟩
    obtain ⟨h1, h2⟩ := starts_of_next hbeams hr hp hf.symm
    refine ⟨h1, ?_⟩
    simp [succNode, hr, h2]

/-- Each beam does couple the displacements of its nodes: the corresponding entry is negative. -/
theorem C34_coupled {mat : Mat K} {mesh : Mesh K} {lmin lmax : Option K} {coupling : K} {Km : Coo (Cell K)}
    (h : stiffness mat mesh lmin lmax coupling = .ok Km) (hm : GoodMat mat) (hv : ValidMesh mesh.frame)
    (hp : PositiveLengths mesh.rows lmin lmax) {i : ℕ} (hs : SameFiber mesh.rows i (i + 1)) :
    ∃ a : K, a < 0 ∧ Km.get (2 * i) (2 * (i + 1)) = .fin a := by
  obtain ⟨bl, ha, hpos, -⟩ := assembled h
  have hbeams : BeamsCyclic mesh.rows := by have := hv.beams; rwa [rows_meshFrame] at this
  refine ⟨_, ?_, ha.disp hm (hpos hp) (Or.inl (by omega))⟩
  obtain ⟨hst, -⟩ := (C34_beams hv i (i + 1)).2 ⟨rfl, hs⟩
  have hterm : ∀ p ∈ bl, ((numEntries p.1.i p.1.j (stiff0 p.1.fiber p.2) (stiff0 p.1.fiber p.2 * p.2 / 2 * coupling)
      (stiff2 p.1.fiber p.2) (stiff2 p.1.fiber p.2 - stiff0 p.1.fiber p.2 * (p.2 * p.2) / 2)).map
        (fun e => (if e.1 = 2 * i then (1 : K) else 0) * e.2.2 * (if e.2.1 = 2 * (i + 1) then 1 else 0))).sum =
      if p.1.i = i then - stiff0 p.1.fiber p.2 else 0 := by
    intro p hpm
    obtain ⟨r, q, h1, h2, h3, -⟩ := (ha.beam p hpm).rows
    have hj := (beam_next hbeams h1 h3 (ha.beam p hpm).lt).1
    have hd := beam_bilin p.1.i p.1.j (stiff0 p.1.fiber p.2) (stiff0 p.1.fiber p.2 * p.2 / 2 * coupling)
      (stiff2 p.1.fiber p.2) (stiff2 p.1.fiber p.2 - stiff0 p.1.fiber p.2 * (p.2 * p.2) / 2)
      (fun k => if k = 2 * i then (1 : K) else 0) (fun k => if k = 2 * (i + 1) then 1 else 0)
    rw [hd]
    have e1 : ¬ (2 * p.1.i + 1 = 2 * i) := by omega
    have e2 : ¬ (2 * p.1.j + 1 = 2 * i) := by omega
    have e3 : ¬ (2 * p.1.i + 1 = 2 * (i + 1)) := by omega
    have e4 : ¬ (2 * p.1.j + 1 = 2 * (i + 1)) := by omega
    by_cases hi : p.1.i = i
    · have e5 : 2 * p.1.i = 2 * i := by omega
      have e6 : 2 * p.1.j = 2 * (i + 1) := by omega
      have e7 : ¬ (2 * p.1.i = 2 * (i + 1)) := by omega
      have e8 : ¬ (2 * p.1.j = 2 * i) := by omega
      simp only [if_pos e5, if_pos e6, if_neg e1, if_neg e2, if_neg e3, if_neg e4, if_neg e7, if_neg e8, if_pos hi]
      ring
    · have e5 : ¬ 2 * p.1.i = 2 * i := by omega
      by_cases hji : p.1.j = i
      · have e6 : ¬ 2 * p.1.j = 2 * (i + 1) := by omega
        have e7 : ¬ (2 * p.1.i = 2 * (i + 1)) := by omega
        simp only [if_neg e1, if_neg e2, if_neg e3, if_neg e4, if_neg e5, if_neg e6, if_neg e7, if_neg hi]
        ring
      · have e8 : ¬ 2 * p.1.j = 2 * i := by omega
        simp only [if_neg e1, if_neg e2, if_neg e3, if_neg e4, if_neg e5, if_neg e8, if_neg hi]
        ring
  have hsum := ha.bilin (fun k => if k = 2 * i then (1 : K) else 0) (fun k => if k = 2 * (i + 1) then 1 else 0)
  rw [List.map_congr_left hterm] at hsum
  have hlt : i + 1 < mesh.rows.length := by
    obtain ⟨r, p, -, h2, -⟩ := hs
    exact (List.getElem?_eq_some_iff.1 h2).1
  rw [Finset.sum_eq_single (2 * i), Finset.sum_eq_single (2 * (i + 1))] at hsum
  · simp only [if_true, one_mul, mul_one] at hsum
    rw [hsum]
    obtain ⟨p, hpm, hpi⟩ := ha.all i hst
    have key : ∀ l : List (Beam K × K), (∀ p ∈ l, 0 < stiff0 p.1.fiber p.2) →
        ((l.map (fun p => if p.1.i = i then - stiff0 p.1.fiber p.2 else 0)).sum ≤ 0) ∧
        ((∃ p ∈ l, p.1.i = i) → (l.map (fun p => if p.1.i = i then - stiff0 p.1.fiber p.2 else 0)).sum < 0) := by
      intro l
      induction l with
      | nil => intro _; simp
      | cons q l ih =>
        intro hl
        obtain ⟨i1, i2⟩ := ih (fun p hp => hl p (List.mem_cons_of_mem _ hp))
        have hq := hl q (by simp)
        simp only [List.map_cons, List.sum_cons]
        constructor
        · split_ifs <;> linarith
        · rintro ⟨p, hp, hpi⟩
          rcases List.mem_cons.1 hp with rfl | hp
          · rw [if_pos hpi]; linarith
          · have := i2 ⟨p, hp, hpi⟩
            split_ifs <;> linarith
    exact (key bl (fun p hp' => stiff0_pos (ha.solid hm p hp') (hpos hp p hp'))).2 ⟨p, hpm, hpi⟩
  · intro k _ hk; simp [hk]
  · intro hk; exact absurd (Finset.mem_range.2 (by omega)) hk
  · intro k _ hk; simp [hk]
  · intro hk; exact absurd (Finset.mem_range.2 (by omega)) hk

/-! ## C35 -/

/-- The rescaling never raises when there is a beam. -/
theorem C35_total (lmin lmax : Option K) {ls : List K} (hne : ls ≠ []) : ∃ out, rescale lmin lmax ls = .ok out :=
  rescale_ok lmin lmax hne

/-- With both bounds given, all lengths end up between them. -/
theorem C35_bounds {lo hi : K} {ls out : List K} (h : rescale (some lo) (some hi) ls = .ok out) (hlh : lo ≤ hi) :
    ∀ x ∈ out, lo ≤ x ∧ x ≤ hi := by
  obtain ⟨a, b, lo', hi', ha, hb, hlo, hhi, rfl⟩ := rescale_eq h
  simp only [Option.getD_some] at hlo hhi
  subst hlo hhi
  intro x hx
  obtain ⟨t, ht, rfl⟩ := List.mem_map.1 hx
  have := interp2_between (x1 := max b hi') (y0 := lo') (y1 := hi') ((min_le_left a lo').trans ((npMin_le ha).2 t ht))
  rwa [min_eq_left hlh, max_eq_right hlh] at this

/-- The rescaling is one affine map applied to all lengths; it is non-decreasing if the bounds are ordered, `lmin`
replaced by the smallest and `lmax` by the largest length when missing. -/
theorem C35_affine {lmin lmax : Option K} {ls out : List K} (h : rescale lmin lmax ls = .ok out) :
    ∃ a b : K, out = ls.map (fun l => a * l + b) ∧
      ((∀ lo hi : K, (lmin = some lo ∨ (lmin = none ∧ lo ∈ ls ∧ ∀ x ∈ ls, lo ≤ x)) →
        (lmax = some hi ∨ (lmax = none ∧ hi ∈ ls ∧ ∀ x ∈ ls, x ≤ hi)) → lo ≤ hi) → 0 ≤ a) := by
  obtain ⟨mn, mx, lo, hi, ha, hb, hlo, hhi, rfl⟩ := rescale_eq h
  obtain ⟨ha1, ha2⟩ := npMin_le ha
  obtain ⟨hb1, hb2⟩ := npMax_ge hb
  set x0 := min mn lo with hx0
  set x1 := max mx hi with hx1
  have hle : ∀ t ∈ ls, x0 ≤ t ∧ t ≤ x1 := fun t ht =>
    ⟨(min_le_left _ _).trans (ha2 t ht), (hb2 t ht).trans (le_max_left _ _)⟩
  by_cases hx : x0 < x1
  · have hd : x1 - x0 ≠ 0 := by linarith
    refine ⟨(hi - lo) / (x1 - x0), lo - (hi - lo) / (x1 - x0) * x0, ?_, ?_⟩
    · apply List.map_congr_left
      intro t ht
      unfold interp2
      split_ifs with e1 e2
      · have : t = x1 := le_antisymm (hle t ht).2 e1
        rw [this]; field_simp; ring
      · rw [e2]; ring
      · ring
    · intro hord
      have : lo ≤ hi := by
        apply hord
        · cases lmin with
          | none => right; simp only [Option.getD_none] at hlo; subst hlo; exact ⟨rfl, ha1, ha2⟩
          | some v => left; simpa using hlo.symm
        · cases lmax with
          | none => right; simp only [Option.getD_none] at hhi; subst hhi; exact ⟨rfl, hb1, hb2⟩
          | some v => left; simpa using hhi.symm
      exact div_nonneg (by linarith) (by linarith)
  · refine ⟨0, hi, ?_, fun _ => le_refl _⟩
    apply List.map_congr_left
    intro t ht
    have := hle t ht
    have e : x1 ≤ t := (not_lt.1 hx).trans this.1
    simp [interp2, e]

/-- With ordered bounds, the order of the lengths is kept. -/
theorem C35_order {lo hi : K} {ls out : List K} (h : rescale (some lo) (some hi) ls = .ok out) (hlh : lo ≤ hi)
    {i j : ℕ} {a b : K} (hi' : ls[i]? = some a) (hj : ls[j]? = some b) (hab : a ≤ b) :
    ∃ a' b', out[i]? = some a' ∧ out[j]? = some b' ∧ a' ≤ b' := by
  obtain ⟨p, q, rfl, hp⟩ := C35_affine h
  have hp := hp (by
    rintro lo' hi'' (h1 | ⟨h1, -⟩) (h2 | ⟨h2, -⟩) <;> simp_all)
  refine ⟨p * a + q, p * b + q, by simp [hi'], by simp [hj], ?_⟩
  have := mul_le_mul_of_nonneg_left hab hp
  linarith

/-- Without bounds the lengths are unchanged. -/
theorem C35_unchanged {ls : List K} (hne : ls ≠ []) : rescale none none ls = .ok ls := by
  obtain ⟨out, h⟩ := rescale_ok none none hne
  obtain ⟨mn, mx, lo, hi, ha, hb, hlo, hhi, rfl⟩ := rescale_eq h
  rw [h]
  simp only [Option.getD_none] at hlo hhi
  subst hlo hhi
  obtain ⟨ha1, ha2⟩ := npMin_le ha
  obtain ⟨hb1, hb2⟩ := npMax_ge hb
  congr 1
  rw [min_self, max_self]
  conv_rhs => rw [← List.map_id ls]
  apply List.map_congr_left
  intro t ht
  unfold interp2
  split_ifs with e1 e2
  · exact le_antisymm e1 (hb2 t ht)
  · exact e2.symm
  · have : lo < t := lt_of_le_of_ne (ha2 t ht) (Ne.symm e2)
    have hne : hi - lo ≠ 0 := by linarith [not_le.1 e1]
    simp only [id_eq]
    field_simp; ring

/-- `stiffness` succeeds on a valid mesh with a beam, over the fibers of a valid mat, whatever the bounds. -/
theorem C35_stiffness_total {mat : Mat K} {mesh : Mesh K} (lmin lmax : Option K) (coupling : K) (hm : GoodMat mat)
    (hv : ValidMesh mesh.frame) (ho : OverFibers mat mesh.rows) (hb : ∃ i, StartsBeam mesh.rows i) :
    ∃ Km, stiffness mat mesh lmin lmax coupling = .ok Km := by
  have hbeams : BeamsCyclic mesh.rows := by have := hv.beams; rwa [rows_meshFrame] at this
  obtain ⟨bs, hbs⟩ := beams_total ho hbeams
  obtain ⟨i, hi⟩ := hb
  obtain ⟨b, hbm, -⟩ := (beams_spec hbs).2.1 i hi
  have hne : bs.map (·.l) ≠ [] := by
    intro h; rw [List.map_eq_nil_iff] at h; rw [h] at hbm; simp at hbm
  obtain ⟨ls, hls⟩ := rescale_ok lmin lmax hne
  exact stiffness_of ((matCheck_frame_iff _).2 (Or.inr hm)) ((C28_meshCheck_iff _).2 (Or.inr hv)) hbs hls

end

/-! ## C36 -/

theorem rescale_nil (lmin lmax : Option K) : rescale lmin lmax ([] : List K) = .error .valueError := by
  cases lmin <;> cases lmax <;> rfl

/-- A mesh without any beam is rejected by `stiffness` (and `solve`) with ValueError. -/
theorem C36_no_beam {mat : Mat K} {mesh : Mesh K} (lmin lmax : Option K) (coupling : K)
    (hm : matCheck mat.frame = .ok ()) (hv : meshCheck mesh.frame = .ok ()) (hb : ∀ i, ¬ StartsBeam mesh.rows i)
    (o : Opts K) (perm : Option (List Nat)) :
    stiffness mat mesh lmin lmax coupling = .error .valueError ∧
      solve mat mesh lmin lmax coupling o perm = .error .valueError := by
  have hbs : beams mat mesh.rows = .ok [] := by
    unfold beams
    rw [List.filter_eq_nil_iff.2]
    · rfl
    · intro p hp
      rw [List.mem_zipIdx_iff_getElem?] at hp
      simp only [decide_eq_true_eq]
      exact fun h => hb p.2 ⟨p.1, hp, h⟩
  have h1 : stiffness mat mesh lmin lmax coupling = .error .valueError := by
    unfold stiffness
    rw [hm, hv, hbs]
    change (rescale lmin lmax [] >>= _) = _
    rw [rescale_nil]; rfl
  refine ⟨h1, ?_⟩
  unfold solve
  rw [h1]; rfl

/-- A mesh without any node is rejected by `stiffness`, `constraint` and `solve` with ValueError. -/
theorem C36_empty {mat : Mat K} {mesh : Mesh K} (lmin lmax : Option K) (coupling : K)
    (hm : matCheck mat.frame = .ok ()) (hv : meshCheck mesh.frame = .ok ()) (hr : mesh.rows = [])
    (o : Opts K) (perm : Option (List Nat)) :
    stiffness mat mesh lmin lmax coupling = .error .valueError ∧ constraint mat mesh = .error .valueError ∧
      solve mat mesh lmin lmax coupling o perm = .error .valueError := by
  obtain ⟨h1, h2⟩ := C36_no_beam lmin lmax coupling hm hv (by rintro i ⟨r, h, -⟩; simp [hr] at h) o perm
  refine ⟨h1, ?_, h2⟩
  unfold constraint
  rw [hm, hv, hr]; rfl

/-! ## Non-vacuity -/

/-- Two crossing fibers (`E = 2`). -/
def duoMat : Mat ℚ :=
  { fibers := [⟨10, 1, 1, 0, 0, 1 / 2, 1, 0, 0, 1, ((2 : ℚ) : WithTop ℚ)⟩,
               ⟨10, 1, 1, 0, 0, 3 / 2, 0, 1, 0, 1, ((2 : ℚ) : WithTop ℚ)⟩]
    attrs := { n := some 2, size := some 20, periodic := some true } }

/-- The same with an infinite tensile modulus for the first fiber. -/
def rigidMat : Mat ℚ := { duoMat with fibers := [{ (duoMat.fibers.head (by decide)) with E := ⊤ }, duoMat.fibers.getLast (by decide)] }

/-- The mesh of the two fibers, connected at their middle. -/
def duoMesh : Mesh ℚ :=
  { rows := [⟨0, -5, -5, 0, 1 / 2, 1, 0⟩, ⟨0, 0, 0, 0, 1 / 2, 2, 4⟩, ⟨0, 5, 5, 0, 1 / 2, 0, 2⟩,
             ⟨1, -5, 0, -5, 3 / 2, 4, 3⟩, ⟨1, 0, 0, 0, 3 / 2, 5, 1⟩, ⟨1, 5, 0, 5, 3 / 2, 3, 5⟩]
    attrs := { n := some 2, size := some 20, periodic := some true }
    h := none }

theorem duoMat_good : GoodMat duoMat :=
  ((matCheck_frame_iff _).1 (by decide +kernel)).resolve_left (by simp [Skipped, duoMat])

theorem rigidMat_good : GoodMat rigidMat :=
  ((matCheck_frame_iff _).1 (by decide +kernel)).resolve_left (by simp [Skipped, rigidMat, duoMat])

theorem duoMat_tensile : FiniteTensile duoMat := by
  simp [FiniteTensile, duoMat]

theorem duoMesh_valid : ValidMesh duoMesh.frame :=
  ((C28_meshCheck_iff _).1 (by decide +kernel)).resolve_left (by simp [Skipped, duoMesh, Mesh.frame])

theorem duoMesh_over : OverFibers duoMat duoMesh.rows ∧ OverFibers rigidMat duoMesh.rows := by
  constructor <;> intro r hr <;> simp [duoMesh] at hr <;> rcases hr with rfl | rfl | rfl | rfl | rfl | rfl <;>
    simp [duoMat, rigidMat]

theorem duoMesh_beam : StartsBeam duoMesh.rows 0 := ⟨_, rfl, by decide⟩

theorem duoMesh_lengths : PositiveLengths duoMesh.rows none none := by
  refine positiveLengths_raw ?_
  rintro i ⟨r, hr, h⟩
  have hi : i < 6 := (List.getElem?_eq_some_iff.1 hr).1
  interval_cases i <;> simp [duoMesh] at hr <;> subst hr <;> simp at h <;>
    simp [beamLength, abscissa, succNode, duoMesh]

theorem duo_stiffness : ∃ Km, stiffness duoMat duoMesh none none (1 : ℚ) = .ok Km :=
  C35_stiffness_total none none 1 duoMat_good duoMesh_valid duoMesh_over.1 ⟨0, duoMesh_beam⟩

theorem rigid_stiffness : ∃ Km, stiffness rigidMat duoMesh none none (1 : ℚ) = .ok Km :=
  C35_stiffness_total none none 1 rigidMat_good duoMesh_valid duoMesh_over.2 ⟨0, duoMesh_beam⟩

example : ∃ M : ℕ → ℕ → ℚ, ∀ u, 0 ≤ energy 12 M u := by
  obtain ⟨Km, h⟩ := duo_stiffness
  obtain ⟨M, -, hM⟩ := C31_positive h duoMat_good duoMat_tensile duoMesh_lengths (by simp)
  exact ⟨M, hM⟩

example : ∃ Km, stiffness duoMat duoMesh none none (2 : ℚ) = .ok Km ∧ ∃ M, Entries Km M ∧
    ∃ u, energy (2 * duoMesh.rows.length) M u < 0 := by
  obtain ⟨Km, h⟩ := C35_stiffness_total none none (2 : ℚ) duoMat_good duoMesh_valid duoMesh_over.1 ⟨0, duoMesh_beam⟩
  exact ⟨Km, h, C31_indefinite h duoMat_good duoMat_tensile duoMesh_valid duoMesh_lengths ⟨0, duoMesh_beam⟩ (by norm_num)⟩

example : ∃ Km, stiffness rigidMat duoMesh none none (1 : ℚ) = .ok Km ∧ Km.get 1 1 = .pinf ∧ Km.get 1 3 = .ninf ∧
    ∑ i ∈ nodesOf duoMesh.rows 0, Km.get 0 (2 * i) = .fin 0 := by
  obtain ⟨Km, h⟩ := rigid_stiffness
  refine ⟨Km, h, ?_, ?_, C32_translation h rigidMat_good duoMesh_valid duoMesh_lengths 0 0⟩
  · have : ((stiffness rigidMat duoMesh none none (1 : ℚ)).toOption.map (fun K => K.get 1 1)) = some .pinf := by
      decide +kernel
    simpa [h, Except.toOption] using this
  · have : ((stiffness rigidMat duoMesh none none (1 : ℚ)).toOption.map (fun K => K.get 1 3)) = some .ninf := by
      decide +kernel
    simpa [h, Except.toOption] using this

example : ∃ Km, stiffness duoMat duoMesh none none (1 : ℚ) = .ok Km ∧ Km.get 0 2 ≠ .fin 0 ∧ Km.get 0 4 = .fin 0 ∧
    ∃ M, Entries Km M ∧ ∀ r, ∑ s ∈ Finset.range (2 * duoMesh.rows.length), M r s * rigidRotation duoMesh.rows 1 1 s = 0 := by
  obtain ⟨Km, h⟩ := duo_stiffness
  refine ⟨Km, h, ?_, ?_, C32_rotation h duoMat_good duoMat_tensile duoMesh_valid duoMesh_lengths 1 1⟩
  · obtain ⟨a, ha, e⟩ := C34_coupled h duoMat_good duoMesh_valid duoMesh_lengths (i := 0) ⟨_, _, rfl, rfl, rfl⟩
    simp only [mul_zero, zero_add, mul_one] at e
    rw [e]; simpa using ha.ne
  · by_contra hne
    have := (C34_local h duoMesh_valid hne).2
    omega

example : ∃ Km, stiffness duoMat duoMesh none none (1 / 2 : ℚ) = .ok Km ∧ ∃ M, Entries Km M ∧
    energy (2 * duoMesh.rows.length) M (fun r => if r = 0 ∨ r = 2 ∨ r = 4 then 1 else 0) = 0 ∧
    energy (2 * duoMesh.rows.length) M (fun r => if r = 0 then 1 else 0) ≠ 0 := by
  obtain ⟨Km, h⟩ := C35_stiffness_total none none (1 / 2 : ℚ) duoMat_good duoMesh_valid duoMesh_over.1 ⟨0, duoMesh_beam⟩
  obtain ⟨M, h1, h2⟩ := C33_no_energy_iff h duoMat_good duoMat_tensile duoMesh_valid duoMesh_lengths
    (by rw [abs_of_pos] <;> norm_num)
  refine ⟨Km, h, M, h1, (h2 _).2 ⟨?_, ?_⟩, fun h0 => ?_⟩
  · intro i _; rw [if_neg (by omega)]
  · rintro i j ⟨r, p, hr, hp, hf⟩
    have hi : i < 6 := (List.getElem?_eq_some_iff.1 hr).1
    have hj : j < 6 := (List.getElem?_eq_some_iff.1 hp).1
    interval_cases i <;> interval_cases j <;> simp [duoMesh] at hr hp <;> subst hr hp <;> simp at hf ⊢
  · have := ((h2 _).1 h0).2 0 1 ⟨_, _, rfl, rfl, rfl⟩
    simp at this

example : rescale (some (1 : ℚ)) (some 2) [0, 3, 4] = .ok [1, 7 / 4, 2] := by decide +kernel

/-- An empty mesh (the default of `Mesh()`). -/
def emptyMesh : Mesh ℚ :=
  { rows := [], attrs := { n := some 0, size := some 20, periodic := some true }, h := none }

example : matCheck duoMat.frame = .ok () ∧ meshCheck emptyMesh.frame = .ok () ∧ emptyMesh.rows = [] := by
  refine ⟨by decide +kernel, by decide +kernel, rfl⟩

end Fibermat
