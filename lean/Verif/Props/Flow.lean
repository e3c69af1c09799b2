import Verif.Props.Bound
import Verif.Props.Broken
import Verif.Spec.Flow
import Mathlib.Algebra.Order.BigOperators.Ring.Finset
import Mathlib.Algebra.BigOperators.Field

/-! # The mat as a network of springs (C132) -/

set_option linter.unusedSectionVars false
set_option linter.unusedSimpArgs false

namespace Fibermat
variable {K : Type} [Field K] [LinearOrder K] [IsStrictOrderedRing K]
open Spec

variable {mat : Mat K} {mesh : Mesh K} {lmin lmax : Option K} {coupling : K} {o : Opts K} {perm : Option (List ℕ)}
  {S : Sys K} {recs : List (Rec K)} {stop : Stop} {rows : List (MeshRow K)}

/-- Summation by parts along the beams. -/
theorem outflow_sum (hs : ∀ i, StartsBeam rows i → succNode rows i < rows.length) (θ p : ℕ → K) :
    ∑ m ∈ Finset.range rows.length, outflow rows θ m * p m =
      open Classical in ∑ i ∈ Finset.range rows.length, if StartsBeam rows i then θ i * (p i - p (succNode rows i)) else 0 := by
  classical
  unfold outflow
  simp only [Finset.sum_mul]
  rw [Finset.sum_comm]
  apply Finset.sum_congr rfl
  intro i hi
  by_cases hb : StartsBeam rows i
  · simp only [if_pos hb, sub_mul, ite_mul, zero_mul, Finset.sum_sub_distrib, Finset.sum_ite_eq']
    rw [if_pos hi, if_pos (Finset.mem_range.2 (hs i hb)), mul_sub]
  · simp [hb]

/-- The node paired with `m`. -/
def partner (rows : List (MeshRow K)) (m : ℕ) : ℕ := ((rows[m]?).map (·.constraint.toNat)).getD m

theorem partner_spec (hcr : ConstraintsReciprocal rows) {m : ℕ} (hm : m < rows.length) :
    partner rows m < rows.length ∧ partner rows (partner rows m) = m ∧
      (IsPair rows m (partner rows m) ∨ IsPair rows (partner rows m) m) := by
  have hr : rows[m]? = some rows[m] := List.getElem?_eq_getElem hm
  obtain ⟨j, p, h1, h2, h3⟩ := hcr m _ hr
  have e1 : partner rows m = j := by
    unfold partner
    rw [hr, Option.map_some, Option.getD_some, h1, Int.toNat_natCast]
  have e2 : partner rows j = m := by
    unfold partner
    rw [h2, Option.map_some, Option.getD_some, h3, Int.toNat_natCast]
  rw [e1]
  refine ⟨(List.getElem?_eq_some_iff.1 h2).1, e2, ?_⟩
  rcases le_total m j with hle | hle
  · exact Or.inl ⟨hle, _, hr, h1⟩
  · exact Or.inr ⟨hle, _, h2, h3⟩

/-- Two nodes that touch each other are both pressed or both not pressed, and both grounded or both not grounded. -/
theorem touching_alike (hcr : ConstraintsReciprocal rows) {tol Z : K} {u : ℕ → K} {i j : ℕ} (hij : IsPair rows i j)
    (hg : pairGap mat rows u i j ≤ tol) :
    (Pressed mat rows tol Z u i ↔ Pressed mat rows tol Z u j) ∧ (Grounded mat rows tol u i ↔ Grounded mat rows tol u j) := by
  refine ⟨⟨?_, ?_⟩, ?_, ?_⟩
  · rintro ⟨i', j', hp, hr, hm⟩
    obtain ⟨rfl, rfl⟩ := pair_unique hcr hij hp (by rcases hm with rfl | ⟨rfl, -⟩ <;> simp)
    exact ⟨i, j, hij, hr, Or.inl rfl⟩
  · rintro ⟨i', j', hp, hr, hm⟩
    obtain ⟨rfl, rfl⟩ := pair_unique hcr hij hp (by rcases hm with rfl | ⟨rfl, -⟩ <;> simp)
    exact ⟨i, j, hij, hr, Or.inr ⟨rfl, hg⟩⟩
  · rintro ⟨i', j', hp, hr, hm⟩
    obtain ⟨rfl, rfl⟩ := pair_unique hcr hij hp (by rcases hm with rfl | ⟨rfl, -⟩ <;> simp)
    exact ⟨i, j, hij, hr, Or.inr ⟨rfl, hg⟩⟩
  · rintro ⟨i', j', hp, hr, hm⟩
    obtain ⟨rfl, rfl⟩ := pair_unique hcr hij hp (by rcases hm with rfl | ⟨rfl, -⟩ <;> simp)
    exact ⟨i, j, hij, hr, Or.inl rfl⟩

open Classical in
/-- The nodes that are not held by a plate contribute nothing. -/
theorem outflow_held (hcr : ConstraintsReciprocal rows) {tol Z : K} {u v θ : ℕ → K} (hf : Follows mat rows tol Z u v)
    (hsingle : ∀ i j m, IsPair rows i j → (i ≠ j → tol < pairGap mat rows u i j) → m = i ∨ m = j →
      ¬ Pressed mat rows tol Z u m → ¬ Grounded mat rows tol u m → outflow rows θ m = 0)
    (htouch : ∀ i j, IsPair rows i j → i ≠ j → pairGap mat rows u i j ≤ tol →
      ¬ Pressed mat rows tol Z u i → ¬ Grounded mat rows tol u i → outflow rows θ i + outflow rows θ j = 0) :
    ∑ m ∈ Finset.range rows.length, outflow rows θ m * v (2 * m) =
      ∑ m ∈ Finset.range rows.length, (if Pressed mat rows tol Z u m then outflow rows θ m else 0) := by
  set r : ℕ → K := fun m => if Pressed mat rows tol Z u m ∨ Grounded mat rows tol u m then 0 else outflow rows θ m * v (2 * m) with hr
  have hsplit : ∀ m, outflow rows θ m * v (2 * m) = (if Pressed mat rows tol Z u m then outflow rows θ m else 0) + r m := by
    intro m
    simp only [hr]
    by_cases hP : Pressed mat rows tol Z u m
    · rw [(follows_pressed hf).1 hP]; simp [hP]
    · by_cases hG : Grounded mat rows tol u m
      · rw [(follows_pressed hf).2 hG]; simp [hP, hG]
      · simp [hP, hG]
  have hzero : ∀ i j m, IsPair rows i j → (i ≠ j → tol < pairGap mat rows u i j) → m = i ∨ m = j → r m = 0 := by
    intro i j m hij ho hm
    simp only [hr]
    split_ifs with hh
    · rfl
    · rw [not_or] at hh
      rw [hsingle i j m hij ho hm hh.1 hh.2, zero_mul]
  have hpair : ∀ i j, IsPair rows i j → r i + r j = 0 := by
    intro i j hij
    by_cases ho : i ≠ j → tol < pairGap mat rows u i j
    · rw [hzero i j i hij ho (Or.inl rfl), hzero i j j hij ho (Or.inr rfl), add_zero]
    · push Not at ho
      obtain ⟨hne, hg⟩ := ho
      obtain ⟨e1, e2⟩ := touching_alike (Z := Z) hcr hij hg
      simp only [hr, ← e1, ← e2]
      by_cases hh : Pressed mat rows tol Z u i ∨ Grounded mat rows tol u i
      · simp [hh]
      · rw [if_neg hh, if_neg hh]
        rw [not_or] at hh
        rw [← (hf i j hij).2.1 hne hg, ← add_mul, htouch i j hij hne hg hh.1 hh.2, zero_mul]
  have hsum : ∑ m ∈ Finset.range rows.length, r m = 0 := by
    refine Finset.sum_involution (fun m _ => partner rows m) ?_ ?_ ?_ ?_
    · intro m hm
      rcases (partner_spec hcr (Finset.mem_range.1 hm)).2.2 with hp | hp
      · exact hpair _ _ hp
      · rw [add_comm]; exact hpair _ _ hp
    · intro m hm hne he
      rcases (partner_spec hcr (Finset.mem_range.1 hm)).2.2 with hp | hp
      · rw [he] at hp
        exact hne (hzero m m m hp (fun h => absurd rfl h) (Or.inl rfl))
      · rw [he] at hp
        exact hne (hzero m m m hp (fun h => absurd rfl h) (Or.inl rfl))
    · intro m hm
      exact Finset.mem_range.2 (partner_spec hcr (Finset.mem_range.1 hm)).1
    · intro m hm
      exact (partner_spec hcr (Finset.mem_range.1 hm)).2.1
  rw [Finset.sum_congr rfl (fun m _ => hsplit m), Finset.sum_add_distrib, hsum, add_zero]

open Classical in
/-- Sum over the beams of the transverse stiffness times the square of the difference of the displacements. -/
noncomputable def springEnergy (mat : Mat K) (rows : List (MeshRow K)) (L v : ℕ → K) : K :=
  ∑ i ∈ Finset.range rows.length, if StartsBeam rows i then
    match nodeFiber mat rows i with
    | none => 0
    | some f => transverse f (L i) * (v (2 * i) - v (2 * succNode rows i)) ^ 2
  else 0

/-- The beams of a successful run belong to fibers of the mat and end at nodes of the mesh. -/
theorem run_ends (h : solve mat mesh lmin lmax coupling o perm = .ok (S, recs, stop)) (hm : GoodMat mat)
    (hv : ValidMesh mesh.frame) {i : ℕ} (hb : StartsBeam mesh.rows i) :
    succNode mesh.rows i < mesh.rows.length ∧ ∃ f, nodeFiber mat mesh.rows i = some f := by
  obtain ⟨Km, cs, hK, hC, -, -⟩ := solve_run h
  obtain ⟨hs, l, hc⟩ := contacts_of hC
  have hbeams : BeamsCyclic mesh.rows := by have := hv.beams; rwa [rows_meshFrame] at this
  obtain ⟨r, hr, hlt⟩ := hb
  obtain ⟨j, hj, -⟩ := hbeams i r hr
  constructor
  · obtain ⟨-, p, hp, -⟩ := beam_next hbeams hr hj (by omega)
    have e : succNode mesh.rows i = j := by
      unfold succNode
      rw [hr, Option.map_some, Option.getD_some, hj, Int.toNat_natCast]
    rw [e]
    exact (List.getElem?_eq_some_iff.1 hp).1
  · have hpos := nodeThick_pos hm hc.thick (List.getElem?_eq_some_iff.1 hr).1
    unfold nodeThick at hpos
    unfold nodeFiber
    rw [hr] at hpos ⊢
    simp only [Option.bind_some] at hpos ⊢
    cases hf : mat.fibers[r.fiber.toNat]? with
    | none => rw [hf] at hpos; simp at hpos
    | some f => exact ⟨f, rfl⟩

/-- Cauchy's inequality for a flow and a motion that follows the plates. -/
theorem flow_bound (h : solve mat mesh lmin lmax coupling o perm = .ok (S, recs, stop)) (hm : GoodMat mat)
    (hv : ValidMesh mesh.frame) (hp : PositiveLengths mesh.rows lmin lmax) {L : ℕ → K} (hL : BeamLengths mesh.rows lmin lmax L)
    {tol Z : K} {u v θ : ℕ → K} (hf : Follows mat mesh.rows tol Z u v) (hθ : UnitFlow mat mesh.rows tol Z u θ) :
    1 ≤ springEnergy mat mesh.rows L v * flowCost mat mesh.rows L θ ∧ 0 ≤ flowCost mat mesh.rows L θ := by
  classical
  have hcr : ConstraintsReciprocal mesh.rows := by have := hv.constraints; rwa [rows_meshFrame] at this
  have hLpos := (run_beams h hm hv hp hL).1
  obtain ⟨s, -, hfib⟩ := hm.size
  have h1 := outflow_held hcr hf hθ.single hθ.touching
  rw [hθ.unit, outflow_sum (fun i hi => (run_ends h hm hv hi).1) θ (fun m => v (2 * m))] at h1
  have hcost : ∀ i ∈ Finset.range mesh.rows.length, 0 ≤ (if StartsBeam mesh.rows i then
      match nodeFiber mat mesh.rows i with
      | none => 0
      | some f => θ i ^ 2 / transverse f (L i)
    else 0) := by
    intro i _
    split_ifs with hb
    · obtain ⟨f, hfi⟩ := (run_ends h hm hv hb).2
      rw [hfi]
      have := transverse_pos' (hfib f (nodeFiber_mem hfi)) (hLpos i hb)
      simp only
      positivity
    · exact le_rfl
  refine ⟨?_, Finset.sum_nonneg hcost⟩
  have h2 := Finset.sum_sq_le_sum_mul_sum_of_sq_eq_mul (Finset.range mesh.rows.length)
    (r := fun i => if StartsBeam mesh.rows i then θ i * (v (2 * i) - v (2 * succNode mesh.rows i)) else 0)
    (f := fun i => if StartsBeam mesh.rows i then
      match nodeFiber mat mesh.rows i with
      | none => 0
      | some f => transverse f (L i) * (v (2 * i) - v (2 * succNode mesh.rows i)) ^ 2
      else 0)
    (g := fun i => if StartsBeam mesh.rows i then
      match nodeFiber mat mesh.rows i with
      | none => 0
      | some f => θ i ^ 2 / transverse f (L i)
      else 0) ?_ hcost ?_
  · beta_reduce at h2
    rw [h1] at h2
    rw [one_pow] at h2
    exact h2
  · intro i _
    split_ifs with hb
    · obtain ⟨f, hfi⟩ := (run_ends h hm hv hb).2
      rw [hfi]
      have := transverse_pos' (hfib f (nodeFiber_mem hfi)) (hLpos i hb)
      simp only
      positivity
    · exact le_rfl
  · intro i _
    split_ifs with hb
    · obtain ⟨f, hfi⟩ := (run_ends h hm hv hb).2
      rw [hfi]
      have := transverse_pos' (hfib f (nodeFiber_mem hfi)) (hLpos i hb)
      simp only
      field_simp
    · ring

/-- Least elastic energy for given displacements of the nodes. -/
theorem spring_le (h : solve mat mesh lmin lmax coupling o perm = .ok (S, recs, stop)) (hm : GoodMat mat)
    (hv : ValidMesh mesh.frame) (hp : PositiveLengths mesh.rows lmin lmax) {L : ℕ → K} (hL : BeamLengths mesh.rows lmin lmax L)
    (v : ℕ → K) : (1 - coupling ^ 2) * springEnergy mat mesh.rows L v ≤ elasticEnergy mat mesh.rows coupling L v := by
  classical
  have hLpos := (run_beams h hm hv hp hL).1
  obtain ⟨s, -, hfib⟩ := hm.size
  unfold springEnergy elasticEnergy
  rw [Finset.mul_sum]
  apply Finset.sum_le_sum
  intro i _
  split_ifs with hb
  · obtain ⟨f, hfi⟩ := (run_ends h hm hv hb).2
    rw [hfi]
    exact element_ge (hfib f (nodeFiber_mem hfi)) (hLpos i hb)
  · simp

/-- Without coupling, or with rotations held, the energy is at least that of the springs, and equal to it without rotations. -/
theorem spring_le_string (h : solve mat mesh lmin lmax coupling o perm = .ok (S, recs, stop)) (hm : GoodMat mat)
    (hv : ValidMesh mesh.frame) (hp : PositiveLengths mesh.rows lmin lmax) {L : ℕ → K} (hL : BeamLengths mesh.rows lmin lmax L)
    (hcoup : coupling = 0 ∨ ∀ f ∈ mat.fibers, f.E = ⊤) {v : ℕ → K} (hg : Guided mat mesh.rows v) :
    springEnergy mat mesh.rows L v ≤ elasticEnergy mat mesh.rows coupling L v := by
  classical
  rcases hcoup with rfl | hE
  · have := spring_le h hm hv hp hL v
    linarith
  · unfold springEnergy elasticEnergy
    apply le_of_eq
    apply Finset.sum_congr rfl
    intro i _
    split_ifs with hb
    · obtain ⟨f, hfi⟩ := (run_ends h hm hv hb).2
      have hfE := hE f (nodeFiber_mem hfi)
      have h1 := hg i f hfi hfE (Or.inl hb)
      have h2 := hg _ f (by rw [(run_beams h hm hv hp hL).2 i hb]; exact hfi) hfE (Or.inr ⟨i, hb, rfl⟩)
      rw [hfi]
      simp only [elementEnergy, h1, h2]
      ring
    · rfl

/-- C132: the force of the plate grows in a step at least by `1 - coupling²` times the descent of the plate, divided by the cost of
any unit flow from the upper plate to the lower one. -/
theorem C132_flow (h : solve mat mesh lmin lmax coupling o perm = .ok (S, recs, stop)) (hm : GoodMat mat)
    (hv : ValidMesh mesh.frame) (hp : PositiveLengths mesh.rows lmin lmax) (hcoup : |coupling| ≤ 1) {L : ℕ → K}
    (hL : BeamLengths mesh.rows lmin lmax L) (htol : 0 ≤ o.tol) (hlin : ExactLin o.lin) (hperm : PermOf S.n perm)
    {cs : ConstraintSys K} (hC : constraint mat mesh = .ok cs)
    (k : ℕ) (a b : Rec K) (ha : recs[k]? = some a) (hb : recs[k + 1]? = some b)
    {θ : ℕ → K} (hθ : UnitFlow mat mesh.rows o.tol a.Z a.x θ) :
    (1 - coupling ^ 2) * (a.Z - b.Z) ≤
      (totalForce cs.C (fun j => b.x (2 * mesh.rows.length + j)) 2 - totalForce cs.C (fun j => a.x (2 * mesh.rows.length + j)) 2) *
        flowCost mat mesh.rows L θ := by
  obtain ⟨v, hx, hf, -, -⟩ := C76_least h hm hv hp hcoup hL htol hlin hperm k a b ha hb
  have hslope := C114_slope h hm hp hL htol hlin hperm hC k a b ha hb v hx
  have ht : 0 < a.Z - b.Z := by
    obtain ⟨Km, bl, v', t, -, -, -, ht, hZ, -⟩ := step_variation h hm hp htol hlin hperm ha hb
    rw [hZ]; linarith
  rw [div_eq_iff ht.ne'] at hslope
  rw [hslope]
  obtain ⟨h1, h2⟩ := flow_bound h hm hv hp hL hf hθ
  have h3 := spring_le h hm hv hp hL v
  have hc : 0 ≤ 1 - coupling ^ 2 := by
    have := (sq_le_one_iff_abs_le_one coupling).2 hcoup
    linarith
  have h4 : (1 - coupling ^ 2) * 1 ≤ elasticEnergy mat mesh.rows coupling L v * flowCost mat mesh.rows L θ :=
    le_trans (mul_le_mul_of_nonneg_left h1 hc) (by rw [← mul_assoc]; exact mul_le_mul_of_nonneg_right h3 h2)
  have h5 := mul_le_mul_of_nonneg_right h4 ht.le
  linarith

/-- C132: without coupling, or with infinite tensile moduli, the factor `1 - coupling²` is not needed. -/
theorem C132_springs (h : solve mat mesh lmin lmax coupling o perm = .ok (S, recs, stop)) (hm : GoodMat mat)
    (hv : ValidMesh mesh.frame) (hp : PositiveLengths mesh.rows lmin lmax) (hcoup : |coupling| ≤ 1)
    (hstr : coupling = 0 ∨ ∀ f ∈ mat.fibers, f.E = ⊤) {L : ℕ → K}
    (hL : BeamLengths mesh.rows lmin lmax L) (htol : 0 ≤ o.tol) (hlin : ExactLin o.lin) (hperm : PermOf S.n perm)
    {cs : ConstraintSys K} (hC : constraint mat mesh = .ok cs)
    (k : ℕ) (a b : Rec K) (ha : recs[k]? = some a) (hb : recs[k + 1]? = some b)
    {θ : ℕ → K} (hθ : UnitFlow mat mesh.rows o.tol a.Z a.x θ) :
    a.Z - b.Z ≤
      (totalForce cs.C (fun j => b.x (2 * mesh.rows.length + j)) 2 - totalForce cs.C (fun j => a.x (2 * mesh.rows.length + j)) 2) *
        flowCost mat mesh.rows L θ := by
  obtain ⟨v, hx, hf, hg, -⟩ := C76_least h hm hv hp hcoup hL htol hlin hperm k a b ha hb
  have hslope := C114_slope h hm hp hL htol hlin hperm hC k a b ha hb v hx
  have ht : 0 < a.Z - b.Z := by
    obtain ⟨Km, bl, v', t, -, -, -, ht, hZ, -⟩ := step_variation h hm hp htol hlin hperm ha hb
    rw [hZ]; linarith
  rw [div_eq_iff ht.ne'] at hslope
  rw [hslope]
  obtain ⟨h1, h2⟩ := flow_bound h hm hv hp hL hf hθ
  have h3 := spring_le_string h hm hv hp hL hstr hg
  have h4 : 1 ≤ elasticEnergy mat mesh.rows coupling L v * flowCost mat mesh.rows L θ :=
    le_trans h1 (mul_le_mul_of_nonneg_right h3 h2)
  have h5 := mul_le_mul_of_nonneg_right h4 ht.le
  linarith

/-- The motion with displacements `p` of the nodes, without rotation. -/
def flatMotion (p : ℕ → K) (r : ℕ) : K := if r % 2 = 0 then p (r / 2) else 0

theorem flatMotion_even (p : ℕ → K) (i : ℕ) : flatMotion p (2 * i) = p i := by
  unfold flatMotion
  rw [Nat.mul_mod_right, Nat.mul_div_cancel_left i (by omega : 0 < 2), if_pos rfl]

theorem flatMotion_odd (p : ℕ → K) (i : ℕ) : flatMotion p (2 * i + 1) = 0 := by
  unfold flatMotion
  rw [if_neg (by omega)]

theorem flat_energy (mat : Mat K) (rows : List (MeshRow K)) (c : K) (L p : ℕ → K) :
    elasticEnergy mat rows c L (flatMotion p) = springEnergy mat rows L (flatMotion p) := by
  classical
  unfold elasticEnergy springEnergy
  apply Finset.sum_congr rfl
  intro i _
  split_ifs
  · rcases nodeFiber mat rows i with _ | f
    · rfl
    · simp only [elementEnergy, flatMotion_odd]
      ring
  · rfl

theorem flat_guided (p : ℕ → K) : Guided mat rows (flatMotion p) := fun i _ _ _ _ => flatMotion_odd p i

theorem flat_follows {tol Z : K} {u p : ℕ → K} : Follows mat rows tol Z u (flatMotion p) ↔
    ∀ i j, IsPair rows i j → (floorGap mat rows u i ≤ tol → p i = 0) ∧
      (i ≠ j → pairGap mat rows u i j ≤ tol → p i = p j) ∧ (roofGap mat rows Z u j ≤ tol → p j = 1) := by
  unfold Follows
  simp only [flatMotion_even]

open Classical in
/-- The product of two motions of the springs. -/
noncomputable def springCross (mat : Mat K) (rows : List (MeshRow K)) (L p w : ℕ → K) : K :=
  ∑ i ∈ Finset.range rows.length, if StartsBeam rows i then
    match nodeFiber mat rows i with
    | none => 0
    | some f => transverse f (L i) * (p i - p (succNode rows i)) * (w i - w (succNode rows i))
  else 0

theorem spring_add (mat : Mat K) (rows : List (MeshRow K)) (L p w : ℕ → K) (ε : K) :
    springEnergy mat rows L (flatMotion (fun i => p i + ε * w i)) = springEnergy mat rows L (flatMotion p) +
      2 * ε * springCross mat rows L p w + ε ^ 2 * springEnergy mat rows L (flatMotion w) := by
  classical
  unfold springEnergy springCross
  rw [Finset.mul_sum, Finset.mul_sum, ← Finset.sum_add_distrib, ← Finset.sum_add_distrib]
  apply Finset.sum_congr rfl
  intro i _
  split_ifs
  · rcases nodeFiber mat rows i with _ | f
    · simp
    · simp only [flatMotion_even]
      ring
  · simp

/-- A parabola that is nowhere negative and starts at zero is flat there. -/
theorem flat_of_nonneg {B Q : K} (hQ : 0 ≤ Q) (h : ∀ ε : K, 0 ≤ 2 * ε * B + ε ^ 2 * Q) : B = 0 := by
  have h1 := h (-B / (Q + 1))
  have hQ1 : (0 : K) < Q + 1 := by linarith
  have e : 2 * (-B / (Q + 1)) * B + (-B / (Q + 1)) ^ 2 * Q = -(B ^ 2 * (Q + 2) / (Q + 1) ^ 2) := by
    field_simp
    ring
  rw [e] at h1
  by_contra hne
  have : 0 < B ^ 2 * (Q + 2) / (Q + 1) ^ 2 := by positivity
  linarith

theorem pair_lt (hcr : ConstraintsReciprocal rows) {i j : ℕ} (h : IsPair rows i j) : i < rows.length ∧ j < rows.length := by
  obtain ⟨-, r, hr, hc⟩ := h
  obtain ⟨j', p, h1, h2, -⟩ := hcr i r hr
  have : j' = j := by rw [hc] at h1; exact_mod_cast h1.symm
  subst this
  exact ⟨(List.getElem?_eq_some_iff.1 hr).1, (List.getElem?_eq_some_iff.1 h2).1⟩

/-- C132: without coupling, or with infinite tensile moduli, the bound is reached: when the force of the plate grows in a step, its
growth is the descent of the plate divided by the cost of some unit flow. -/
theorem C132_exact (h : solve mat mesh lmin lmax coupling o perm = .ok (S, recs, stop)) (hm : GoodMat mat)
    (hv : ValidMesh mesh.frame) (hp : PositiveLengths mesh.rows lmin lmax) (hcoup : |coupling| ≤ 1)
    (hstr : coupling = 0 ∨ ∀ f ∈ mat.fibers, f.E = ⊤) {L : ℕ → K}
    (hL : BeamLengths mesh.rows lmin lmax L) (htol : 0 ≤ o.tol) (hlin : ExactLin o.lin) (hperm : PermOf S.n perm)
    {cs : ConstraintSys K} (hC : constraint mat mesh = .ok cs)
    (k : ℕ) (a b : Rec K) (ha : recs[k]? = some a) (hb : recs[k + 1]? = some b)
    (hgrow : totalForce cs.C (fun j => a.x (2 * mesh.rows.length + j)) 2 < totalForce cs.C (fun j => b.x (2 * mesh.rows.length + j)) 2) :
    ∃ θ, UnitFlow mat mesh.rows o.tol a.Z a.x θ ∧ a.Z - b.Z =
      (totalForce cs.C (fun j => b.x (2 * mesh.rows.length + j)) 2 - totalForce cs.C (fun j => a.x (2 * mesh.rows.length + j)) 2) *
        flowCost mat mesh.rows L θ := by
  classical
  have hcr : ConstraintsReciprocal mesh.rows := by have := hv.constraints; rwa [rows_meshFrame] at this
  have hLpos := (run_beams h hm hv hp hL).1
  have hends : ∀ i, StartsBeam mesh.rows i → succNode mesh.rows i < mesh.rows.length := fun i hi => (run_ends h hm hv hi).1
  obtain ⟨v, hx, hf, hg, hleast⟩ := C76_least h hm hv hp hcoup hL htol hlin hperm k a b ha hb
  have hslope := C114_slope h hm hp hL htol hlin hperm hC k a b ha hb v hx
  obtain ⟨s, -, hfib⟩ := hm.size
  have ht : 0 < a.Z - b.Z := by
    obtain ⟨Km, bl, v', t, -, -, -, ht, hZ, -⟩ := step_variation h hm hp htol hlin hperm ha hb
    rw [hZ]; linarith
  set p : ℕ → K := fun i => v (2 * i) with hpd
  have hflat : Follows mat mesh.rows o.tol a.Z a.x (flatMotion p) := flat_follows.2 hf
  have hspring : springEnergy mat mesh.rows L v = springEnergy mat mesh.rows L (flatMotion p) := by
    unfold springEnergy
    simp only [flatMotion_even, hpd]
  obtain ⟨e, he⟩ : ∃ e, e = elasticEnergy mat mesh.rows coupling L v := ⟨_, rfl⟩
  have he1 : e = springEnergy mat mesh.rows L (flatMotion p) := by
    apply le_antisymm
    · rw [he, ← flat_energy mat mesh.rows coupling]
      exact hleast _ hflat (flat_guided p)
    · rw [he, ← hspring]
      exact spring_le_string h hm hv hp hL hstr hg
  have hepos : 0 < e := by
    rw [he, ← hslope]
    exact div_pos (sub_pos.2 hgrow) ht
  have hQ : ∀ w : ℕ → K, 0 ≤ springEnergy mat mesh.rows L (flatMotion w) := by
    intro w
    unfold springEnergy
    apply Finset.sum_nonneg
    intro i _
    split_ifs with hbm
    · obtain ⟨f, hfi⟩ := (run_ends h hm hv hbm).2
      rw [hfi]
      have := transverse_pos' (hfib f (nodeFiber_mem hfi)) (hLpos i hbm)
      simp only
      positivity
    · exact le_rfl
  -- motions that respect the contacts do no work
  have hcross : ∀ w : ℕ → K, (∀ i j, IsPair mesh.rows i j → (floorGap mat mesh.rows a.x i ≤ o.tol → w i = 0) ∧
      (i ≠ j → pairGap mat mesh.rows a.x i j ≤ o.tol → w i = w j) ∧ (roofGap mat mesh.rows a.Z a.x j ≤ o.tol → w j = 0)) →
      springCross mat mesh.rows L p w = 0 := by
    intro w hw
    refine flat_of_nonneg (hQ w) fun ε => ?_
    have h1 : Follows mat mesh.rows o.tol a.Z a.x (flatMotion (fun i => p i + ε * w i)) := by
      rw [flat_follows] at hflat ⊢
      intro i j hij
      obtain ⟨f1, f2, f3⟩ := hflat i j hij
      obtain ⟨w1, w2, w3⟩ := hw i j hij
      refine ⟨fun hh => ?_, fun hne hh => ?_, fun hh => ?_⟩
      · rw [f1 hh, w1 hh]; ring
      · rw [f2 hne hh, w2 hne hh]
      · rw [f3 hh, w3 hh]; ring
    have h2 := hleast _ h1 (flat_guided _)
    rw [flat_energy, spring_add, ← he, he1] at h2
    linarith
  set θ : ℕ → K := fun i => match nodeFiber mat mesh.rows i with
    | none => 0
    | some f => transverse f (L i) * (p i - p (succNode mesh.rows i)) / e with hθ
  have hwork : ∀ w : ℕ → K, ∑ m ∈ Finset.range mesh.rows.length, outflow mesh.rows θ m * w m = springCross mat mesh.rows L p w / e := by
    intro w
    rw [outflow_sum hends]
    unfold springCross
    rw [Finset.sum_div]
    apply Finset.sum_congr rfl
    intro i _
    split_ifs with hbm
    · obtain ⟨f, hfi⟩ := (run_ends h hm hv hbm).2
      simp only [hθ, hfi]
      ring
    · simp
  have hsingle : ∀ i j m, IsPair mesh.rows i j → (i ≠ j → o.tol < pairGap mat mesh.rows a.x i j) → m = i ∨ m = j →
      ¬ Pressed mat mesh.rows o.tol a.Z a.x m → ¬ Grounded mat mesh.rows o.tol a.x m → outflow mesh.rows θ m = 0 := by
    intro i j m hij ho hmm hP hG
    have hml : m < mesh.rows.length := by
      rcases hmm with rfl | rfl
      · exact (pair_lt hcr hij).1
      · exact (pair_lt hcr hij).2
    have h1 := hwork (fun m' => if m' = m then 1 else 0)
    rw [hcross, zero_div] at h1
    · simpa [hml] using h1
    · intro i' j' hij'
      refine ⟨fun hh => ?_, fun hne hh => ?_, fun hh => ?_⟩
      · rw [if_neg]
        rintro rfl
        exact hG ⟨_, _, hij', hh, Or.inl rfl⟩
      · have h3 : i' ≠ m ∧ j' ≠ m := by
          constructor
          · rintro rfl
            obtain ⟨rfl, rfl⟩ := pair_unique hcr hij hij' (by rcases hmm with rfl | rfl <;> simp)
            exact absurd (ho hne) (not_lt.2 hh)
          · rintro rfl
            obtain ⟨rfl, rfl⟩ := pair_unique hcr hij hij' (by rcases hmm with rfl | rfl <;> simp)
            exact absurd (ho hne) (not_lt.2 hh)
        simp [h3.1, h3.2]
      · rw [if_neg]
        rintro rfl
        exact hP ⟨_, _, hij', hh, Or.inl rfl⟩
  have htouch : ∀ i j, IsPair mesh.rows i j → i ≠ j → pairGap mat mesh.rows a.x i j ≤ o.tol →
      ¬ Pressed mat mesh.rows o.tol a.Z a.x i → ¬ Grounded mat mesh.rows o.tol a.x i → outflow mesh.rows θ i + outflow mesh.rows θ j = 0 := by
    intro i j hij hne hgap hP hG
    obtain ⟨hil, hjl⟩ := pair_lt hcr hij
    obtain ⟨e1, e2⟩ := touching_alike (Z := a.Z) hcr hij hgap
    have h1 := hwork (fun m' => if m' = i then 1 else if m' = j then 1 else 0)
    rw [hcross, zero_div] at h1
    · have h2 : ∀ m, outflow mesh.rows θ m * (if m = i then (1 : K) else if m = j then 1 else 0) =
          (if m = i then outflow mesh.rows θ m else 0) + (if m = j then outflow mesh.rows θ m else 0) := by
        intro m
        by_cases c1 : m = i
        · subst c1; simp [hne]
        · simp [c1]
      rw [Finset.sum_congr rfl (fun m _ => h2 m), Finset.sum_add_distrib, Finset.sum_ite_eq', Finset.sum_ite_eq',
        if_pos (Finset.mem_range.2 hil), if_pos (Finset.mem_range.2 hjl)] at h1
      exact h1
    · intro i' j' hij'
      refine ⟨fun hh => ?_, fun hne' hh => ?_, fun hh => ?_⟩
      · rw [if_neg, if_neg]
        · rintro rfl
          exact hG (e2.2 ⟨_, _, hij', hh, Or.inl rfl⟩)
        · rintro rfl
          exact hG ⟨_, _, hij', hh, Or.inl rfl⟩
      · by_cases hs : i = i' ∨ i = j' ∨ j = i' ∨ j = j'
        · obtain ⟨rfl, rfl⟩ := pair_unique hcr hij hij' hs
          simp
        · push Not at hs
          simp [Ne.symm hs.1, Ne.symm hs.2.1, Ne.symm hs.2.2.1, Ne.symm hs.2.2.2]
      · rw [if_neg, if_neg]
        · rintro rfl
          exact hP (e1.2 ⟨_, _, hij', hh, Or.inl rfl⟩)
        · rintro rfl
          exact hP ⟨_, _, hij', hh, Or.inl rfl⟩
  have hself : springCross mat mesh.rows L p p = e := by
    rw [he1]
    unfold springCross springEnergy
    apply Finset.sum_congr rfl
    intro i _
    split_ifs
    · rcases nodeFiber mat mesh.rows i with _ | f
      · rfl
      · simp only [flatMotion_even]; ring
    · rfl
  have hcost : flowCost mat mesh.rows L θ = 1 / e := by
    have : flowCost mat mesh.rows L θ = springCross mat mesh.rows L p p / e ^ 2 := by
      unfold flowCost springCross
      rw [Finset.sum_div]
      apply Finset.sum_congr rfl
      intro i _
      split_ifs with hbm
      · obtain ⟨f, hfi⟩ := (run_ends h hm hv hbm).2
        simp only [hθ, hfi]
        have := (transverse_pos' (hfib f (nodeFiber_mem hfi)) (hLpos i hbm)).ne'
        field_simp
      · simp
    rw [this, hself]
    field_simp
  refine ⟨θ, ⟨hsingle, htouch, ?_⟩, ?_⟩
  · rw [← outflow_held hcr hflat hsingle htouch]
    simp only [flatMotion_even]
    rw [hwork p, hself, div_self hepos.ne']
  · rw [div_eq_iff ht.ne', ← he] at hslope
    rw [hslope, hcost]
    field_simp

/-- Successive nodes of a fiber are joined by beams. -/
theorem chain_beams (hv : ValidMesh mesh.frame) {i j m : ℕ} (h : SameFiber mesh.rows i j) (him : i ≤ m) (hmj : m < j) :
    StartsBeam mesh.rows m ∧ succNode mesh.rows m = m + 1 := by
  have hbeams : BeamsCyclic mesh.rows := by have := hv.beams; rwa [rows_meshFrame] at this
  obtain ⟨r, q, hr, hq, hrq⟩ := sameFiber_between hv h him hmj.le
  obtain ⟨r', q', hr', hq', hrq'⟩ := sameFiber_between hv h (by omega : i ≤ m + 1) hmj
  rw [hr] at hr'; cases hr'
  obtain ⟨n, hn, q'', p, h1, h2, h3, h4⟩ := hbeams m q hq
  rw [hq] at h1; cases h1
  rcases h4 with ⟨-, rfl⟩ | ⟨⟨q2, e1, e2⟩, -⟩
  · refine ⟨⟨q, hq, by rw [hn]; push_cast; omega⟩, ?_⟩
    unfold succNode
    rw [hq, Option.map_some, Option.getD_some, hn, Int.toNat_natCast]
  · rw [hq] at e1; cases e1
    exact absurd (by rw [← hrq', hrq]) (e2 (m + 1) q' (by omega) hq')

/-- The flow of `σ` along the beams between nodes `i` and `j`. -/
def chainFlow (i j : ℕ) (σ : K) (m : ℕ) : K := if i ≤ m ∧ m < j then σ else 0

theorem chain_outflow (hv : ValidMesh mesh.frame) {i j : ℕ} (h : SameFiber mesh.rows i j) (hij : i < j) (σ : K) (m : ℕ) :
    outflow mesh.rows (chainFlow i j σ) m = (if m = i then σ else 0) - (if m = j then σ else 0) := by
  classical
  have hjl : j < mesh.rows.length := by
    obtain ⟨r, q, hr, hq, -⟩ := h
    exact (List.getElem?_eq_some_iff.1 hq).1
  have h1 : outflow mesh.rows (chainFlow i j σ) m = ∑ k ∈ Finset.Ico i j, ((if m = k then σ else 0) - (if m = k + 1 then σ else 0)) := by
    unfold outflow
    have hsub : Finset.Ico i j ⊆ Finset.range mesh.rows.length := by
      intro k hk
      rw [Finset.mem_Ico] at hk
      rw [Finset.mem_range]; omega
    rw [← Finset.sum_subset hsub]
    · apply Finset.sum_congr rfl
      intro k hk
      rw [Finset.mem_Ico] at hk
      obtain ⟨b1, b2⟩ := chain_beams hv h hk.1 hk.2
      rw [if_pos b1, b2]
      simp only [chainFlow, hk.1, hk.2, and_self, if_true]
    · intro k _ hk
      rw [Finset.mem_Ico] at hk
      simp [chainFlow, hk]
  rw [h1]
  have h2 : ∀ n, i ≤ n → ∑ k ∈ Finset.Ico i n, ((if m = k then σ else 0) - (if m = k + 1 then σ else 0)) =
      (if m = i then σ else 0) - (if m = n then σ else 0) := by
    intro n hn
    induction n, hn using Nat.le_induction with
    | base => simp
    | succ n hn ih =>
      rw [Finset.sum_Ico_succ_top hn, ih]
      ring
  exact h2 j hij.le

theorem chain_cost (hv : ValidMesh mesh.frame) {i j : ℕ} (h : SameFiber mesh.rows i j) (hij : i < j) {σ : K} (hσ : σ ^ 2 = 1)
    (L : ℕ → K) : flowCost mat mesh.rows L (chainFlow i j σ) = chainCost mat mesh.rows L i j := by
  classical
  have hjl : j < mesh.rows.length := by
    obtain ⟨r, q, hr, hq, -⟩ := h
    exact (List.getElem?_eq_some_iff.1 hq).1
  unfold flowCost chainCost
  have hsub : Finset.Ico i j ⊆ Finset.range mesh.rows.length := by
    intro k hk
    rw [Finset.mem_Ico] at hk
    rw [Finset.mem_range]; omega
  rw [← Finset.sum_subset hsub]
  · apply Finset.sum_congr rfl
    intro k hk
    rw [Finset.mem_Ico] at hk
    rw [if_pos (chain_beams hv h hk.1 hk.2).1]
    simp only [chainFlow, hk.1, hk.2, and_self, if_true, hσ]
  · intro k _ hk
    rw [Finset.mem_Ico] at hk
    rcases nodeFiber mat mesh.rows k with _ | f <;> simp [chainFlow, hk]

/-- A chain of beams from a pressed node to a grounded one carries a unit flow. -/
theorem chain_flow (hv : ValidMesh mesh.frame) {i j : ℕ} (h : SameFiber mesh.rows i j) (hij : i < j) {tol Z : K} {u v : ℕ → K}
    (hf : Follows mat mesh.rows tol Z u v)
    (hends : (Pressed mat mesh.rows tol Z u i ∧ Grounded mat mesh.rows tol u j) ∨ (Grounded mat mesh.rows tol u i ∧ Pressed mat mesh.rows tol Z u j)) :
    ∃ σ : K, σ ^ 2 = 1 ∧ UnitFlow mat mesh.rows tol Z u (chainFlow i j σ) := by
  classical
  have hcr : ConstraintsReciprocal mesh.rows := by have := hv.constraints; rwa [rows_meshFrame] at this
  have hjl : j < mesh.rows.length := by
    obtain ⟨r, q, hr, hq, -⟩ := h
    exact (List.getElem?_eq_some_iff.1 hq).1
  have hil : i < mesh.rows.length := by omega
  have hnot : ∀ m, Grounded mat mesh.rows tol u m → ¬ Pressed mat mesh.rows tol Z u m := by
    intro m hG hP
    have h1 := (follows_pressed hf).1 hP
    rw [(follows_pressed hf).2 hG] at h1
    exact zero_ne_one h1
  have hzero : ∀ σ : K, ∀ m, ¬ Pressed mat mesh.rows tol Z u m → ¬ Grounded mat mesh.rows tol u m →
      outflow mesh.rows (chainFlow i j σ) m = 0 := by
    intro σ m hP hG
    rw [chain_outflow hv h hij, if_neg, if_neg, sub_zero]
    · rintro rfl
      rcases hends with hh | hh
      · exact hG hh.2
      · exact hP hh.2
    · rintro rfl
      rcases hends with hh | hh
      · exact hP hh.1
      · exact hG hh.1
  have hsum : ∀ σ : K, ∑ m ∈ Finset.range mesh.rows.length, (if Pressed mat mesh.rows tol Z u m then outflow mesh.rows (chainFlow i j σ) m else 0) =
      (if Pressed mat mesh.rows tol Z u i then σ else 0) - (if Pressed mat mesh.rows tol Z u j then σ else 0) := by
    intro σ
    have e : ∀ m, (if Pressed mat mesh.rows tol Z u m then outflow mesh.rows (chainFlow i j σ) m else 0) =
        (if m = i then (if Pressed mat mesh.rows tol Z u m then σ else 0) else 0) -
          (if m = j then (if Pressed mat mesh.rows tol Z u m then σ else 0) else 0) := by
      intro m
      rw [chain_outflow hv h hij]
      split_ifs <;> simp
    rw [Finset.sum_congr rfl (fun m _ => e m), Finset.sum_sub_distrib, Finset.sum_ite_eq', Finset.sum_ite_eq',
      if_pos (Finset.mem_range.2 hil), if_pos (Finset.mem_range.2 hjl)]
  have hmk : ∀ σ : K, (if Pressed mat mesh.rows tol Z u i then σ else 0) - (if Pressed mat mesh.rows tol Z u j then σ else 0) = 1 →
      UnitFlow mat mesh.rows tol Z u (chainFlow i j σ) := by
    intro σ hσ
    refine ⟨fun i' j' m _ _ _ hP hG => hzero σ m hP hG, fun i' j' hij' _ hgap hP hG => ?_, by rw [hsum, hσ]⟩
    obtain ⟨e1, e2⟩ := touching_alike (Z := Z) hcr hij' hgap
    rw [hzero σ i' hP hG, hzero σ j' (fun hh => hP (e1.2 hh)) (fun hh => hG (e2.2 hh)), add_zero]
  rcases hends with ⟨hP, hG⟩ | ⟨hG, hP⟩
  · exact ⟨1, by norm_num, hmk 1 (by rw [if_pos hP, if_neg (hnot j hG), sub_zero])⟩
  · exact ⟨-1, by norm_num, hmk (-1) (by rw [if_pos hP, if_neg (hnot i hG)]; norm_num)⟩

/-- C132: when a node of a fiber is pressed and another one rests on the lower plate, the force of the plate grows at least as for the
beams between them alone, put in series (times `1 - coupling²`, which is not needed without coupling or with infinite tensile
moduli). -/
theorem C132_chain (h : solve mat mesh lmin lmax coupling o perm = .ok (S, recs, stop)) (hm : GoodMat mat)
    (hv : ValidMesh mesh.frame) (hp : PositiveLengths mesh.rows lmin lmax) (hcoup : |coupling| ≤ 1) {L : ℕ → K}
    (hL : BeamLengths mesh.rows lmin lmax L) (htol : 0 ≤ o.tol) (hlin : ExactLin o.lin) (hperm : PermOf S.n perm)
    {cs : ConstraintSys K} (hC : constraint mat mesh = .ok cs)
    (k : ℕ) (a b : Rec K) (ha : recs[k]? = some a) (hb : recs[k + 1]? = some b)
    {i j : ℕ} (hs : SameFiber mesh.rows i j) (hij : i < j)
    (hends : (Pressed mat mesh.rows o.tol a.Z a.x i ∧ Grounded mat mesh.rows o.tol a.x j) ∨
      (Grounded mat mesh.rows o.tol a.x i ∧ Pressed mat mesh.rows o.tol a.Z a.x j)) :
    (1 - coupling ^ 2) * (a.Z - b.Z) ≤
      (totalForce cs.C (fun j => b.x (2 * mesh.rows.length + j)) 2 - totalForce cs.C (fun j => a.x (2 * mesh.rows.length + j)) 2) *
        chainCost mat mesh.rows L i j ∧
    ((coupling = 0 ∨ ∀ f ∈ mat.fibers, f.E = ⊤) → a.Z - b.Z ≤
      (totalForce cs.C (fun j => b.x (2 * mesh.rows.length + j)) 2 - totalForce cs.C (fun j => a.x (2 * mesh.rows.length + j)) 2) *
        chainCost mat mesh.rows L i j) := by
  obtain ⟨v, -, hf, -, -⟩ := C76_least h hm hv hp hcoup hL htol hlin hperm k a b ha hb
  obtain ⟨σ, hσ, hθ⟩ := chain_flow hv hs hij hf hends
  rw [← chain_cost hv hs hij hσ]
  exact ⟨C132_flow h hm hv hp hcoup hL htol hlin hperm hC k a b ha hb hθ,
    fun hstr => C132_springs h hm hv hp hcoup hstr hL htol hlin hperm hC k a b ha hb hθ⟩

end Fibermat
