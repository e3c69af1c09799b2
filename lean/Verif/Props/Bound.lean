import Verif.Props.Stiffer
import Verif.Props.Pull
import Verif.Props.SolverStop
import Verif.Props.Regular
import Verif.Spec.Bound

/-! # A bound on the force of the plate (C130) -/

set_option linter.unusedSectionVars false
set_option linter.unusedSimpArgs false

namespace Fibermat
variable {K : Type} [Field K] [LinearOrder K] [IsStrictOrderedRing K]
open Spec

variable {mat : Mat K} {mesh : Mesh K} {lmin lmax : Option K} {coupling : K} {o : Opts K} {perm : Option (List ℕ)}
  {S : Sys K} {recs : List (Rec K)} {stop : Stop}

open Classical in
/-- The motion of unit velocity of the nodes in `P`, without rotation; the other nodes stay where they are. -/
noncomputable def blockMotion (P : ℕ → Prop) (r : ℕ) : K := if r % 2 = 0 ∧ P (r / 2) then 1 else 0

open Classical in
theorem blockMotion_even (P : ℕ → Prop) (i : ℕ) : blockMotion (K := K) P (2 * i) = if P i then 1 else 0 := by
  unfold blockMotion
  rw [Nat.mul_mod_right, Nat.mul_div_cancel_left i (by omega : 0 < 2)]
  simp

theorem blockMotion_odd (P : ℕ → Prop) (i : ℕ) : blockMotion (K := K) P (2 * i + 1) = 0 := by
  unfold blockMotion
  rw [if_neg]
  omega

/-- The energy of such a motion is the stiffness of the beams that leave the moving nodes. -/
theorem block_energy (mat : Mat K) (rows : List (MeshRow K)) (c : K) (L : ℕ → K) (P : ℕ → Prop) :
    elasticEnergy mat rows c L (blockMotion P) = cutStiffness mat rows L P := by
  classical
  unfold elasticEnergy cutStiffness
  apply Finset.sum_congr rfl
  intro i _
  by_cases hb : StartsBeam rows i
  · rw [if_pos hb]
    rcases hf : nodeFiber mat rows i with _ | f
    · simp
    · simp only [elementEnergy, blockMotion_even, blockMotion_odd]
      by_cases h1 : P i <;> by_cases h2 : P (succNode rows i) <;> simp [hb, h1, h2]
  · rw [if_neg hb, if_neg (fun h => hb h.1)]

/-- The motion of the pressed nodes follows the plate, unless the material is jammed. -/
theorem block_follows {rows : List (MeshRow K)} (hcr : ConstraintsReciprocal rows) {tol Z : K} {u : ℕ → K}
    (hj : ¬ Jammed mat rows tol Z u) : Follows mat rows tol Z u (blockMotion (Pressed mat rows tol Z u)) := by
  classical
  intro i j hij
  simp only [blockMotion_even]
  refine ⟨fun hg => ?_, fun hne hg => ?_, fun hg => ?_⟩
  · rw [if_neg]
    rintro ⟨i', j', hp, hr, hm⟩
    obtain ⟨rfl, rfl⟩ := pair_unique hcr hij hp (by rcases hm with rfl | ⟨rfl, -⟩ <;> simp)
    refine hj ⟨i, j, hij, hg, fun hne => ?_, hr⟩
    rcases hm with h | ⟨-, h⟩
    · exact absurd h hne
    · exact h
  · have : Pressed mat rows tol Z u i ↔ Pressed mat rows tol Z u j := by
      constructor
      · rintro ⟨i', j', hp, hr, hm⟩
        obtain ⟨rfl, rfl⟩ := pair_unique hcr hij hp (by rcases hm with rfl | ⟨rfl, -⟩ <;> simp)
        exact ⟨i, j, hij, hr, Or.inl rfl⟩
      · rintro ⟨i', j', hp, hr, hm⟩
        obtain ⟨rfl, rfl⟩ := pair_unique hcr hij hp (by rcases hm with rfl | ⟨rfl, -⟩ <;> simp)
        exact ⟨i, j, hij, hr, Or.inr ⟨rfl, hg⟩⟩
    simp only [this]
  · rw [if_pos ⟨i, j, hij, hg, Or.inl rfl⟩]

theorem stiffness_nonneg (hm : GoodMat mat) {rows : List (MeshRow K)} {L : ℕ → K} (hL : ∀ i, StartsBeam rows i → 0 < L i) (i : ℕ)
    (hb : StartsBeam rows i) : 0 ≤ (match nodeFiber mat rows i with | none => (0 : K) | some f => transverse f (L i)) := by
  rcases hf : nodeFiber mat rows i with _ | f
  · exact le_rfl
  · obtain ⟨s, -, hfib⟩ := hm.size
    exact (transverse_pos' (hfib f (nodeFiber_mem hf)) (hL i hb)).le

/-- The beams that leave a set of nodes are not stiffer than all the beams together. -/
theorem cut_le_all (hm : GoodMat mat) {rows : List (MeshRow K)} {L : ℕ → K} (hL : ∀ i, StartsBeam rows i → 0 < L i) (P : ℕ → Prop) :
    cutStiffness mat rows L P ≤ allStiffness mat rows L := by
  classical
  unfold cutStiffness allStiffness
  apply Finset.sum_le_sum
  intro i _
  by_cases hb : StartsBeam rows i
  · have := stiffness_nonneg hm hL i hb
    rw [if_pos hb]
    split
    · exact le_rfl
    · exact this
  · rw [if_neg hb, if_neg (fun h => hb h.1)]

/-- In a step, the force of the plate grows by at most the descent of the plate times the transverse stiffness of the beams that
join the nodes pressed by the plate to the others. -/
theorem C130_step (h : solve mat mesh lmin lmax coupling o perm = .ok (S, recs, stop)) (hm : GoodMat mat)
    (hv : ValidMesh mesh.frame) (hp : PositiveLengths mesh.rows lmin lmax) (hcoup : |coupling| ≤ 1) {L : ℕ → K}
    (hL : BeamLengths mesh.rows lmin lmax L) (htol : 0 ≤ o.tol) (hlin : ExactLin o.lin) (hperm : PermOf S.n perm)
    {cs : ConstraintSys K} (hC : constraint mat mesh = .ok cs)
    (k : ℕ) (a b : Rec K) (ha : recs[k]? = some a) (hb : recs[k + 1]? = some b) :
    totalForce cs.C (fun j => b.x (2 * mesh.rows.length + j)) 2 - totalForce cs.C (fun j => a.x (2 * mesh.rows.length + j)) 2 ≤
      (a.Z - b.Z) * cutStiffness mat mesh.rows L (Pressed mat mesh.rows o.tol a.Z a.x) := by
  have hcr : ConstraintsReciprocal mesh.rows := by have := hv.constraints; rwa [rows_meshFrame] at this
  obtain ⟨v, hx, -, -, hleast⟩ := C76_least h hm hv hp hcoup hL htol hlin hperm k a b ha hb
  have hslope := C114_slope h hm hp hL htol hlin hperm hC k a b ha hb v hx
  have hj : ¬ Jammed mat mesh.rows o.tol a.Z a.x := by
    intro hj
    have h1 := C63_jammed h hm hp hlin hperm k a ha hj
    have h2 := (List.getElem?_eq_some_iff.1 hb).1
    omega
  have hw := hleast _ (block_follows hcr hj) (fun i f _ _ _ => blockMotion_odd _ i)
  rw [block_energy] at hw
  have ht : 0 < a.Z - b.Z := by
    obtain ⟨Km, bl, v', t, -, -, -, ht, hZ, -⟩ := step_variation h hm hp htol hlin hperm ha hb
    rw [hZ]; linarith
  rw [div_eq_iff ht.ne'] at hslope
  rw [hslope, mul_comm]
  exact mul_le_mul_of_nonneg_left hw ht.le

/-- A motion that follows the plates moves the pressed nodes with the upper plate and leaves the grounded nodes where they are. -/
theorem follows_pressed {rows : List (MeshRow K)} {tol Z : K} {u v : ℕ → K} (hf : Follows mat rows tol Z u v) {m : ℕ} :
    (Pressed mat rows tol Z u m → v (2 * m) = 1) ∧ (Grounded mat rows tol u m → v (2 * m) = 0) := by
  constructor
  · rintro ⟨i, j, hp, hr, rfl | ⟨rfl, hg⟩⟩
    · exact (hf _ _ hp).2.2 hr
    · by_cases hne : m = j
      · subst hne; exact (hf _ _ hp).2.2 hr
      · rw [(hf _ _ hp).2.1 hne hg]; exact (hf _ _ hp).2.2 hr
  · rintro ⟨i, j, hp, hr, rfl | ⟨rfl, hg⟩⟩
    · exact (hf _ _ hp).1 hr
    · by_cases hne : i = m
      · subst hne; exact (hf _ _ hp).1 hr
      · rw [← (hf _ _ hp).2.1 hne hg]; exact (hf _ _ hp).1 hr

/-- Least energy of a beam with given displacements. -/
theorem element_ge {size l c ui ti uj tj : K} {f : Fiber K} (hf : GoodFiber size f) (hl : 0 < l) :
    (1 - c ^ 2) * (transverse f l * (ui - uj) ^ 2) ≤ elementEnergy f l c ui ti uj tj := by
  have hT := transverse_pos' hf hl
  obtain ⟨q, hq, he⟩ : ∃ q, 0 ≤ q ∧ elementEnergy f l c ui ti uj tj =
      transverse f l * ((ui - uj) ^ 2 + c * l * (ui - uj) * (ti + tj) + l ^ 2 / 4 * (ti + tj) ^ 2 + q * (ti - tj) ^ 2) := by
    refine ⟨_, ?_, rfl⟩
    have hG := hf.G
    have hh := hf.h
    rcases hE : f.E with _ | E
    · positivity
    · have := tensile_pos hf hE
      positivity
  have : 0 ≤ transverse f l * ((c * (ui - uj) + l / 2 * (ti + tj)) ^ 2 + q * (ti - tj) ^ 2) := by positivity
  rw [he]
  linarith

/-- When every node of the beams is held by one of the plates, the growth of the force lies between `1 - coupling²` times the bound
and the bound. -/
theorem C130_held (h : solve mat mesh lmin lmax coupling o perm = .ok (S, recs, stop)) (hm : GoodMat mat)
    (hv : ValidMesh mesh.frame) (hp : PositiveLengths mesh.rows lmin lmax) (hcoup : |coupling| ≤ 1) {L : ℕ → K}
    (hL : BeamLengths mesh.rows lmin lmax L) (htol : 0 ≤ o.tol) (hlin : ExactLin o.lin) (hperm : PermOf S.n perm)
    {cs : ConstraintSys K} (hC : constraint mat mesh = .ok cs)
    (k : ℕ) (a b : Rec K) (ha : recs[k]? = some a) (hb : recs[k + 1]? = some b)
    (hheld : ∀ i, StartsBeam mesh.rows i → ∀ m, m = i ∨ m = succNode mesh.rows i →
      Pressed mat mesh.rows o.tol a.Z a.x m ∨ Grounded mat mesh.rows o.tol a.x m) :
    (1 - coupling ^ 2) * ((a.Z - b.Z) * cutStiffness mat mesh.rows L (Pressed mat mesh.rows o.tol a.Z a.x)) ≤
      totalForce cs.C (fun j => b.x (2 * mesh.rows.length + j)) 2 - totalForce cs.C (fun j => a.x (2 * mesh.rows.length + j)) 2 := by
  classical
  have hLpos := (run_beams h hm hv hp hL).1
  obtain ⟨s, -, hfib⟩ := hm.size
  obtain ⟨v, hx, hf, -, -⟩ := C76_least h hm hv hp hcoup hL htol hlin hperm k a b ha hb
  have hslope := C114_slope h hm hp hL htol hlin hperm hC k a b ha hb v hx
  have ht : 0 < a.Z - b.Z := by
    obtain ⟨Km, bl, v', t, -, -, -, ht, hZ, -⟩ := step_variation h hm hp htol hlin hperm ha hb
    rw [hZ]; linarith
  rw [div_eq_iff ht.ne'] at hslope
  rw [hslope]
  have hval : ∀ m, Pressed mat mesh.rows o.tol a.Z a.x m ∨ Grounded mat mesh.rows o.tol a.x m →
      v (2 * m) = if Pressed mat mesh.rows o.tol a.Z a.x m then 1 else 0 := by
    intro m hm'
    by_cases hP : Pressed mat mesh.rows o.tol a.Z a.x m
    · rw [if_pos hP]; exact (follows_pressed hf).1 hP
    · rw [if_neg hP]; exact (follows_pressed hf).2 (hm'.resolve_left hP)
  have hle : (1 - coupling ^ 2) * cutStiffness mat mesh.rows L (Pressed mat mesh.rows o.tol a.Z a.x) ≤
      elasticEnergy mat mesh.rows coupling L v := by
    unfold cutStiffness elasticEnergy
    rw [Finset.mul_sum]
    apply Finset.sum_le_sum
    intro i _
    by_cases hbm : StartsBeam mesh.rows i
    · rw [if_pos hbm]
      rcases hfi : nodeFiber mat mesh.rows i with _ | f
      · simp
      · have h1 := hval i (hheld i hbm i (Or.inl rfl))
        have h2 := hval _ (hheld i hbm _ (Or.inr rfl))
        have h3 := element_ge (c := coupling) (ui := v (2 * i)) (ti := v (2 * i + 1)) (uj := v (2 * succNode mesh.rows i))
          (tj := v (2 * succNode mesh.rows i + 1)) (hfib f (nodeFiber_mem hfi)) (hLpos i hbm)
        refine le_trans (le_of_eq ?_) h3
        rw [h1, h2]
        by_cases hp1 : Pressed mat mesh.rows o.tol a.Z a.x i <;>
          by_cases hp2 : Pressed mat mesh.rows o.tol a.Z a.x (succNode mesh.rows i) <;> simp [hbm, hp1, hp2]
    · rw [if_neg hbm, if_neg (fun h => hbm h.1), mul_zero]
  have := mul_le_mul_of_nonneg_right hle ht.le
  linarith

/-- While no beam joins a pressed node to one that is not, the force of the plate does not change. -/
theorem C130_free (h : solve mat mesh lmin lmax coupling o perm = .ok (S, recs, stop)) (hm : GoodMat mat)
    (hv : ValidMesh mesh.frame) (hp : PositiveLengths mesh.rows lmin lmax) (hcoup : |coupling| ≤ 1) {L : ℕ → K}
    (hL : BeamLengths mesh.rows lmin lmax L) (htol : 0 ≤ o.tol) (hlin : ExactLin o.lin) (hperm : PermOf S.n perm)
    {cs : ConstraintSys K} (hC : constraint mat mesh = .ok cs)
    (k : ℕ) (a b : Rec K) (ha : recs[k]? = some a) (hb : recs[k + 1]? = some b)
    (hfree : ∀ i, StartsBeam mesh.rows i →
      (Pressed mat mesh.rows o.tol a.Z a.x i ↔ Pressed mat mesh.rows o.tol a.Z a.x (succNode mesh.rows i))) :
    totalForce cs.C (fun j => b.x (2 * mesh.rows.length + j)) 2 = totalForce cs.C (fun j => a.x (2 * mesh.rows.length + j)) 2 := by
  classical
  have h1 := C130_step h hm hv hp hcoup hL htol hlin hperm hC k a b ha hb
  have h2 := C47_monotone h hm hp htol hlin hperm hcoup hC k a b ha hb
  have h3 : cutStiffness mat mesh.rows L (Pressed mat mesh.rows o.tol a.Z a.x) = 0 := by
    unfold cutStiffness
    apply Finset.sum_eq_zero
    intro i _
    rw [if_neg (fun hh => hh.2 (hfree i hh.1))]
  rw [h3, mul_zero] at h1
  exact le_antisymm (by linarith) h2

/-- The force of the plate does not change in a step exactly when every beam moves as a rigid body (it may turn only when
`|coupling| = 1` and its tensile modulus is finite). -/
theorem C130_unchanged (h : solve mat mesh lmin lmax coupling o perm = .ok (S, recs, stop)) (hm : GoodMat mat)
    (hv : ValidMesh mesh.frame) (hp : PositiveLengths mesh.rows lmin lmax) (hcoup : |coupling| ≤ 1) {L : ℕ → K}
    (hL : BeamLengths mesh.rows lmin lmax L) (htol : 0 ≤ o.tol) (hlin : ExactLin o.lin) (hperm : PermOf S.n perm)
    {cs : ConstraintSys K} (hC : constraint mat mesh = .ok cs)
    (k : ℕ) (a b : Rec K) (ha : recs[k]? = some a) (hb : recs[k + 1]? = some b) :
    totalForce cs.C (fun j => b.x (2 * mesh.rows.length + j)) 2 = totalForce cs.C (fun j => a.x (2 * mesh.rows.length + j)) 2 ↔
      ∀ i f, StartsBeam mesh.rows i → nodeFiber mat mesh.rows i = some f →
        b.x (2 * succNode mesh.rows i + 1) - a.x (2 * succNode mesh.rows i + 1) = b.x (2 * i + 1) - a.x (2 * i + 1) ∧
        b.x (2 * succNode mesh.rows i) - a.x (2 * succNode mesh.rows i) =
          b.x (2 * i) - a.x (2 * i) + coupling * L i * (b.x (2 * i + 1) - a.x (2 * i + 1)) ∧
        (|coupling| < 1 ∨ f.E = ⊤ → b.x (2 * i + 1) = a.x (2 * i + 1)) := by
  obtain ⟨Km, cs', hK, -, -, -⟩ := solve_run h
  obtain ⟨v, hx, -, hg, -⟩ := C76_least h hm hv hp hcoup hL htol hlin hperm k a b ha hb
  have hslope := C114_slope h hm hp hL htol hlin hperm hC k a b ha hb v hx
  have ht : 0 < a.Z - b.Z := by
    obtain ⟨Km, bl, v', t, -, -, -, ht, hZ, -⟩ := step_variation h hm hp htol hlin hperm ha hb
    rw [hZ]; linarith
  have hr := C72_rigid hK hm hv hp hcoup hL v
  rw [and_iff_right hg, ← hslope, div_eq_zero_iff, or_iff_left ht.ne', sub_eq_zero] at hr
  rw [hr]
  have hd : ∀ r, b.x r - a.x r = -((a.Z - b.Z) * v r) := fun r => by rw [hx r]; ring
  have ha' : ∀ r, b.x r = a.x r ↔ v r = 0 := fun r => by
    rw [← sub_eq_zero, hd r, neg_eq_zero, mul_eq_zero, or_iff_right ht.ne']
  refine forall_congr' fun i => forall_congr' fun f => forall_congr' fun _ => forall_congr' fun _ => ?_
  rw [hd, hd, hd, hd, ha']
  refine and_congr ?_ (and_congr ?_ Iff.rfl)
  · rw [neg_inj, mul_right_inj' ht.ne']
  · constructor
    · intro e; rw [e]; ring
    · intro e
      apply mul_left_cancel₀ ht.ne'
      linear_combination -e

/-- Once the force of the plate has grown in a step, it grows in every later step. -/
theorem C130_grows (h : solve mat mesh lmin lmax coupling o perm = .ok (S, recs, stop)) (hm : GoodMat mat)
    (hp : PositiveLengths mesh.rows lmin lmax) (hcoup : |coupling| ≤ 1) (htol : 0 ≤ o.tol) (hlin : ExactLin o.lin)
    (hperm : PermOf S.n perm) {cs : ConstraintSys K} (hC : constraint mat mesh = .ok cs)
    (k m : ℕ) (hkm : k ≤ m) (a b c d : Rec K) (ha : recs[k]? = some a) (hb : recs[k + 1]? = some b)
    (hc : recs[m]? = some c) (hd : recs[m + 1]? = some d)
    (hgrow : totalForce cs.C (fun j => a.x (2 * mesh.rows.length + j)) 2 < totalForce cs.C (fun j => b.x (2 * mesh.rows.length + j)) 2) :
    totalForce cs.C (fun j => c.x (2 * mesh.rows.length + j)) 2 < totalForce cs.C (fun j => d.x (2 * mesh.rows.length + j)) 2 := by
  induction m, hkm using Nat.le_induction generalizing c d with
  | base =>
    rw [ha] at hc; cases hc
    rw [hb] at hd; cases hd
    exact hgrow
  | succ m hkm ih =>
    have hm1 := (List.getElem?_eq_some_iff.1 hc).1
    have hp' : recs[m]? = some (recs[m]'(by omega)) := List.getElem?_eq_getElem _
    have h1 := ih _ c hp' hc
    have h2 := C69_stiffening h hm hp htol hlin hperm hcoup hC m _ c d hp' hc hd
    have ht : 0 < (recs[m]'(by omega)).Z - c.Z := by
      obtain ⟨Km, bl, v', t, -, -, -, ht, hZ, -⟩ := step_variation h hm hp htol hlin hperm hp' hc
      rw [hZ]; linarith
    have ht' : 0 < c.Z - d.Z := by
      obtain ⟨Km, bl, v', t, -, -, -, ht, hZ, -⟩ := step_variation h hm hp htol hlin hperm hc hd
      rw [hZ]; linarith
    have h3 := lt_of_lt_of_le (div_pos (sub_pos.2 h1) ht) h2
    exact sub_pos.1 ((div_pos_iff_of_pos_right ht').1 h3)

/-- The force of the plate is at most its total descent times the sum of the transverse stiffnesses of the beams. -/
theorem C130_force (h : solve mat mesh lmin lmax coupling o perm = .ok (S, recs, stop)) (hm : GoodMat mat)
    (hv : ValidMesh mesh.frame) (hp : PositiveLengths mesh.rows lmin lmax) (hcoup : |coupling| ≤ 1) {L : ℕ → K}
    (hL : BeamLengths mesh.rows lmin lmax L) (htol : 0 ≤ o.tol) (hlin : ExactLin o.lin) (hperm : PermOf S.n perm)
    {cs : ConstraintSys K} (hC : constraint mat mesh = .ok cs)
    (k : ℕ) (a : Rec K) (ha : recs[k]? = some a) :
    totalForce cs.C (fun j => a.x (2 * mesh.rows.length + j)) 2 ≤ (S.Z0 - a.Z) * allStiffness mat mesh.rows L := by
  have hLpos := (run_beams h hm hv hp hL).1
  induction k generalizing a with
  | zero =>
    obtain ⟨-, a', ha', hx, -, hZ, -⟩ := C40_itermax h
    rw [ha] at ha'; cases ha'
    rw [hZ]
    simp [totalForce, hx]
  | succ k ih =>
    have hk := (List.getElem?_eq_some_iff.1 ha).1
    have hp' : recs[k]? = some (recs[k]'(by omega)) := List.getElem?_eq_getElem _
    have h1 := ih _ hp'
    have h2 := C130_step h hm hv hp hcoup hL htol hlin hperm hC k _ a hp' ha
    have ht : 0 < (recs[k]'(by omega)).Z - a.Z := by
      obtain ⟨Km, bl, v', t, -, -, -, ht, hZ, -⟩ := step_variation h hm hp htol hlin hperm hp' ha
      rw [hZ]; linarith
    have h3 := mul_le_mul_of_nonneg_left (cut_le_all hm hLpos (Pressed mat mesh.rows o.tol (recs[k]'(by omega)).Z (recs[k]'(by omega)).x)) ht.le
    nlinarith

/-- Twice the elastic energy is at most the square of the total descent times the sum of the transverse stiffnesses. -/
theorem C130_energy (h : solve mat mesh lmin lmax coupling o perm = .ok (S, recs, stop)) (hm : GoodMat mat)
    (hv : ValidMesh mesh.frame) (hp : PositiveLengths mesh.rows lmin lmax) (hcoup : |coupling| ≤ 1) {L : ℕ → K}
    (hL : BeamLengths mesh.rows lmin lmax L) (htol : 0 ≤ o.tol) (hlin : ExactLin o.lin) (hperm : PermOf S.n perm)
    (k : ℕ) (a : Rec K) (ha : recs[k]? = some a) :
    elasticEnergy mat mesh.rows coupling L a.x ≤ (S.Z0 - a.Z) ^ 2 * allStiffness mat mesh.rows L := by
  obtain ⟨Km, cs, hK, hC, -, -⟩ := solve_run h
  induction k generalizing a with
  | zero =>
    obtain ⟨-, a', ha', hx, -, hZ, -⟩ := C40_itermax h
    rw [ha] at ha'; cases ha'
    rw [hZ]
    have : elasticEnergy mat mesh.rows coupling L a.x = 0 := by
      classical
      unfold elasticEnergy
      apply Finset.sum_eq_zero
      intro i _
      split
      · split
        · rfl
        · simp [elementEnergy, hx]
      · rfl
    rw [this]; simp
  | succ k ih =>
    have hk := (List.getElem?_eq_some_iff.1 ha).1
    have hp' : recs[k]? = some (recs[k]'(by omega)) := List.getElem?_eq_getElem _
    have h1 := ih _ hp'
    have h2 := C68_work h hm hp htol hlin hperm hC hL k _ a hp' ha
    have ht : 0 < (recs[k]'(by omega)).Z - a.Z := by
      obtain ⟨Km, bl, v', t, -, -, -, ht, hZ, -⟩ := step_variation h hm hp htol hlin hperm hp' ha
      rw [hZ]; linarith
    have h3 := C130_force h hm hv hp hcoup hL htol hlin hperm hC k _ hp'
    have h4 := C130_force h hm hv hp hcoup hL htol hlin hperm hC (k + 1) a ha
    have h5 := mul_le_mul_of_nonneg_right (add_le_add h3 h4) ht.le
    nlinarith

end Fibermat
