import Verif.Props.Flow
import Verif.Spec.Linked

/-! # The force of the plate and the chains between the plates (C134) -/

set_option linter.unusedSectionVars false
set_option linter.unusedSimpArgs false

namespace Fibermat
variable {K : Type} [Field K] [LinearOrder K] [IsStrictOrderedRing K]
open Spec

variable {mat : Mat K} {mesh : Mesh K} {lmin lmax : Option K} {coupling : K} {o : Opts K} {perm : Option (List ℕ)}
  {S : Sys K} {recs : List (Rec K)} {stop : Stop}

section
variable {rows : List (MeshRow K)} {tol Z : K} {u : ℕ → K}

theorem linked_symm {i j : ℕ} (h : Chained mat rows tol u i j) : Chained mat rows tol u j i := by
  induction h with
  | refl => exact Relation.ReflTransGen.refl
  | tail _ h2 ih => exact Relation.ReflTransGen.head h2.symm ih

theorem hung_linked {i j : ℕ} (h : Chained mat rows tol u i j) : Hung mat rows tol Z u i ↔ Hung mat rows tol Z u j :=
  ⟨fun ⟨n, h1, h2⟩ => ⟨n, h1, (linked_symm h).trans h2⟩, fun ⟨n, h1, h2⟩ => ⟨n, h1, h.trans h2⟩⟩

theorem based_linked {i j : ℕ} (h : Chained mat rows tol u i j) : Based mat rows tol u i ↔ Based mat rows tol u j :=
  ⟨fun ⟨n, h1, h2⟩ => ⟨n, h1, (linked_symm h).trans h2⟩, fun ⟨n, h1, h2⟩ => ⟨n, h1, h.trans h2⟩⟩

theorem linked_beam {i : ℕ} (h : StartsBeam rows i) : Chained mat rows tol u i (succNode rows i) :=
  Relation.ReflTransGen.single (Or.inl (Or.inl ⟨h, rfl⟩))

theorem linked_pair {i j : ℕ} (h : IsPair rows i j) (hne : i ≠ j) (hg : pairGap mat rows u i j ≤ tol) : Chained mat rows tol u i j :=
  Relation.ReflTransGen.single (Or.inl (Or.inr ⟨h, hne, hg⟩))

/-- A quantity equal at the ends of the beams and at closed contacts is the same all along a chain. -/
theorem linked_const {P : ℕ → Prop} (hP : ∀ i j, Chained mat rows tol u i j → (P i ↔ P j)) {g : ℕ → K}
    (hb : ∀ i, StartsBeam rows i → P i → g (succNode rows i) = g i)
    (hc : ∀ i j, IsPair rows i j → i ≠ j → pairGap mat rows u i j ≤ tol → P i → g i = g j) {m n : ℕ} (h : Chained mat rows tol u m n) (hm : P m) :
    g m = g n := by
  induction h with
  | refl => rfl
  | tail h1 h2 ih =>
    rename_i x y
    have hx : P x := (hP m x h1).1 hm
    have hy : P y := (hP m y (h1.tail h2)).1 hm
    rw [ih]
    rcases h2 with (⟨s, rfl⟩ | ⟨p1, p2, p3⟩) | (⟨s, rfl⟩ | ⟨p1, p2, p3⟩)
    · exact (hb x s hx).symm
    · exact hc x y p1 p2 p3 hx
    · exact hb y s hy
    · exact (hc y x p1 p2 p3 hy).symm

open Classical in
/-- The motion `v` of the nodes linked with both plates; the other nodes move with the upper plate if they are linked with it and else
stay where they are. -/
noncomputable def looseMotion (mat : Mat K) (rows : List (MeshRow K)) (tol Z : K) (u v : ℕ → K) (r : ℕ) : K :=
  if Hung mat rows tol Z u (r / 2) then
    if Based mat rows tol u (r / 2) then v r else if r % 2 = 0 then 1 else 0
  else 0

theorem loose_even (v : ℕ → K) (i : ℕ) : looseMotion mat rows tol Z u v (2 * i) = open Classical in
    if Hung mat rows tol Z u i then if Based mat rows tol u i then v (2 * i) else 1 else 0 := by
  unfold looseMotion
  rw [Nat.mul_mod_right, Nat.mul_div_cancel_left i (by omega : 0 < 2)]
  simp

theorem loose_odd (v : ℕ → K) (i : ℕ) : looseMotion mat rows tol Z u v (2 * i + 1) = open Classical in
    if Hung mat rows tol Z u i then if Based mat rows tol u i then v (2 * i + 1) else 0 else 0 := by
  unfold looseMotion
  rw [show (2 * i + 1) / 2 = i by omega, if_neg (by omega : ¬ (2 * i + 1) % 2 = 0)]

theorem loose_follows {v : ℕ → K} (hf : Follows mat rows tol Z u v) : Follows mat rows tol Z u (looseMotion mat rows tol Z u v) := by
  classical
  intro i j hij
  rw [loose_even, loose_even]
  refine ⟨fun hg => ?_, fun hne hg => ?_, fun hg => ?_⟩
  · have hB : Based mat rows tol u i := ⟨i, ⟨j, hij, hg⟩, Relation.ReflTransGen.refl⟩
    rw [if_pos hB, (hf i j hij).1 hg, ite_self]
  · have hl := linked_pair (mat := mat) (tol := tol) (u := u) hij hne hg
    simp only [hung_linked (Z := Z) hl, based_linked hl, (hf i j hij).2.1 hne hg]
  · have hH : Hung mat rows tol Z u j := ⟨j, ⟨i, hij, hg⟩, Relation.ReflTransGen.refl⟩
    rw [if_pos hH, (hf i j hij).2.2 hg, ite_self]

open Classical in
/-- The motion `v` of the nodes that are not linked with both plates. -/
noncomputable def offMotion (mat : Mat K) (rows : List (MeshRow K)) (tol Z : K) (u v : ℕ → K) (r : ℕ) : K :=
  if Hung mat rows tol Z u (r / 2) ∧ Based mat rows tol u (r / 2) then 0 else v r

theorem off_even (v : ℕ → K) (i : ℕ) : offMotion mat rows tol Z u v (2 * i) = open Classical in
    if Hung mat rows tol Z u i ∧ Based mat rows tol u i then 0 else v (2 * i) := by
  unfold offMotion
  rw [Nat.mul_div_cancel_left i (by omega : 0 < 2)]

theorem off_odd (v : ℕ → K) (i : ℕ) : offMotion mat rows tol Z u v (2 * i + 1) = open Classical in
    if Hung mat rows tol Z u i ∧ Based mat rows tol u i then 0 else v (2 * i + 1) := by
  unfold offMotion
  rw [show (2 * i + 1) / 2 = i by omega]

/-- The energy of `v` is that of both parts. -/
theorem energy_parts (c : K) (L v : ℕ → K) : elasticEnergy mat rows c L v =
    elasticEnergy mat rows c L (looseMotion mat rows tol Z u v) + elasticEnergy mat rows c L (offMotion mat rows tol Z u v) := by
  classical
  unfold elasticEnergy
  rw [← Finset.sum_add_distrib]
  apply Finset.sum_congr rfl
  intro i _
  by_cases hb : StartsBeam rows i
  · rw [if_pos hb, if_pos hb, if_pos hb]
    rcases hf : nodeFiber mat rows i with _ | f
    · simp
    · have hl := linked_beam (mat := mat) (tol := tol) (u := u) hb
      simp only [loose_even, loose_odd, off_even, off_odd, ← hung_linked (Z := Z) hl, ← based_linked hl]
      by_cases h1 : Hung mat rows tol Z u i <;> by_cases h2 : Based mat rows tol u i <;> simp [h1, h2, elementEnergy]
  · rw [if_neg hb, if_neg hb, if_neg hb, add_zero]

end

section
variable (h : solve mat mesh lmin lmax coupling o perm = .ok (S, recs, stop)) (hm : GoodMat mat)
    (hv : ValidMesh mesh.frame) (hp : PositiveLengths mesh.rows lmin lmax) (hcoup : |coupling| ≤ 1) {L : ℕ → K}
    (hL : BeamLengths mesh.rows lmin lmax L) (htol : 0 ≤ o.tol) (hlin : ExactLin o.lin) (hperm : PermOf S.n perm)
include h hm hv hp hcoup hL htol hlin hperm

/-- The nodes that are not linked with both plates move without energy. -/
theorem off_energy (k : ℕ) (a b : Rec K) (ha : recs[k]? = some a) (hb : recs[k + 1]? = some b) :
    ∃ v : ℕ → K, (∀ r, b.x r = a.x r - (a.Z - b.Z) * v r) ∧ Follows mat mesh.rows o.tol a.Z a.x v ∧ Guided mat mesh.rows v ∧
      Guided mat mesh.rows (offMotion mat mesh.rows o.tol a.Z a.x v) ∧
      elasticEnergy mat mesh.rows coupling L (offMotion mat mesh.rows o.tol a.Z a.x v) = 0 := by
  classical
  obtain ⟨v, hx, hf, hg, hleast⟩ := C76_least h hm hv hp hcoup hL htol hlin hperm k a b ha hb
  obtain ⟨-, cs', -, hC', -, -⟩ := solve_run h
  obtain ⟨Km, bl, hs, l, has, hpos, hbl, -⟩ := solve_lengths h hm hp hC'
  have hw := hleast _ (loose_follows hf) (by
    intro i f hi hE ho
    rw [loose_odd, hg i f hi hE ho, ite_self, ite_self])
  rw [energy_parts (tol := o.tol) (Z := a.Z) (u := a.x) coupling L v] at hw
  refine ⟨v, hx, hf, hg, ?_, le_antisymm (by linarith) (by
    rw [← has.energy_doc hm hpos ((hbl L).1 hL)]
    exact has.energy_nonneg hm hpos hcoup _)⟩
  intro i f hi hE ho
  rw [off_odd, hg i f hi hE ho, ite_self]

/-- C134: as long as no chain of beams and closed contacts connects the plates, the force of the plate does not change. -/
theorem C134_free {cs : ConstraintSys K} (hC : constraint mat mesh = .ok cs) (k : ℕ) (a b : Rec K) (ha : recs[k]? = some a)
    (hb : recs[k + 1]? = some b) (hbr : ¬ Bridged mat mesh.rows o.tol a.Z a.x) :
    totalForce cs.C (fun j => b.x (2 * mesh.rows.length + j)) 2 = totalForce cs.C (fun j => a.x (2 * mesh.rows.length + j)) 2 := by
  classical
  obtain ⟨v, hx, -, -, -, he⟩ := off_energy h hm hv hp hcoup hL htol hlin hperm k a b ha hb
  have hslope := C114_slope h hm hp hL htol hlin hperm hC k a b ha hb v hx
  have e : offMotion mat mesh.rows o.tol a.Z a.x v = v := by
    funext r
    unfold offMotion
    rw [if_neg (fun hh => hbr ⟨_, hh⟩)]
  have ht : 0 < a.Z - b.Z := sub_pos.2 (C41_down h hm hp htol k a b ha hb)
  rw [e] at he
  rw [he, div_eq_zero_iff, or_iff_left ht.ne'] at hslope
  linarith

/-- C134: the force of the plate grows in a step exactly if a chain of beams and closed contacts connects the plates. -/
theorem C134_grows (hstiff : |coupling| < 1 ∨ ∀ f ∈ mat.fibers, f.E = ⊤) {cs : ConstraintSys K} (hC : constraint mat mesh = .ok cs)
    (k : ℕ) (a b : Rec K) (ha : recs[k]? = some a) (hb : recs[k + 1]? = some b) :
    totalForce cs.C (fun j => a.x (2 * mesh.rows.length + j)) 2 < totalForce cs.C (fun j => b.x (2 * mesh.rows.length + j)) 2 ↔
      Bridged mat mesh.rows o.tol a.Z a.x := by
  constructor
  · intro hgrow
    by_contra hbr
    exact hgrow.ne' (C134_free h hm hv hp hcoup hL htol hlin hperm hC k a b ha hb hbr)
  · rintro ⟨m, ⟨n, ⟨i, hi, hg⟩, hn⟩, ⟨n', ⟨j, hj, hg'⟩, hn'⟩⟩
    have hle := C47_monotone h hm hp htol hlin hperm hcoup hC k a b ha hb
    refine lt_of_le_of_ne hle (fun heq => ?_)
    have hr := (C130_unchanged h hm hv hp hcoup hL htol hlin hperm hC k a b ha hb).1 heq.symm
    obtain ⟨v, hx, hf, -, -⟩ := C76_least h hm hv hp hcoup hL htol hlin hperm k a b ha hb
    have ht : 0 < a.Z - b.Z := sub_pos.2 (C41_down h hm hp htol k a b ha hb)
    have hd : ∀ r, b.x r - a.x r = -((a.Z - b.Z) * v r) := fun r => by rw [hx r]; ring
    have hbeam : ∀ i, StartsBeam mesh.rows i → v (2 * succNode mesh.rows i) = v (2 * i) := by
      intro i hi
      obtain ⟨f, hf⟩ := (run_ends h hm hv hi).2
      obtain ⟨-, e2, e3⟩ := hr i f hi hf
      have e4 := e3 (hstiff.imp id (fun hh => hh f (nodeFiber_mem hf)))
      rw [e4, sub_self, mul_zero, add_zero, hd, hd, neg_inj] at e2
      exact mul_left_cancel₀ ht.ne' e2
    have hconst : ∀ {m n : ℕ}, Chained mat mesh.rows o.tol a.x m n → v (2 * m) = v (2 * n) := fun {m n} hl =>
      linked_const (P := fun _ => True) (fun _ _ _ => Iff.rfl) (g := fun i => v (2 * i)) (fun i hi _ => hbeam i hi)
        (fun i j hij hne hg _ => (hf i j hij).2.1 hne hg) hl trivial
    have h1 : v (2 * n) = 1 := (hf i n hi).2.2 hg
    have h0 : v (2 * n') = 0 := (hf n' j hj).1 hg'
    rw [← hconst hn] at h1
    rw [← hconst hn', h1] at h0
    exact one_ne_zero h0

/-- The beams that are not linked with both plates move without rotation and without deformation. -/
theorem off_beams (hstiff : |coupling| < 1 ∨ ∀ f ∈ mat.fibers, f.E = ⊤) (k : ℕ) (a b : Rec K) (ha : recs[k]? = some a)
    (hb : recs[k + 1]? = some b) :
    ∃ v : ℕ → K, (∀ r, b.x r = a.x r - (a.Z - b.Z) * v r) ∧ Follows mat mesh.rows o.tol a.Z a.x v ∧
      ∀ i, StartsBeam mesh.rows i → ¬ (Hung mat mesh.rows o.tol a.Z a.x i ∧ Based mat mesh.rows o.tol a.x i) →
        v (2 * succNode mesh.rows i) = v (2 * i) ∧ v (2 * i + 1) = 0 ∧ v (2 * succNode mesh.rows i + 1) = 0 := by
  classical
  obtain ⟨v, hx, hf, -, hg, he⟩ := off_energy h hm hv hp hcoup hL htol hlin hperm k a b ha hb
  obtain ⟨Km, cs', hK, -, -, -⟩ := solve_run h
  refine ⟨v, hx, hf, fun i hi hn => ?_⟩
  obtain ⟨f, hfi⟩ := (run_ends h hm hv hi).2
  obtain ⟨e1, e2, e3⟩ := (C72_rigid hK hm hv hp hcoup hL _).1 ⟨hg, he⟩ i f hi hfi
  have hl := linked_beam (mat := mat) (tol := o.tol) (u := a.x) hi
  have hn' : ¬ (Hung mat mesh.rows o.tol a.Z a.x (succNode mesh.rows i) ∧ Based mat mesh.rows o.tol a.x (succNode mesh.rows i)) := by
    rwa [← hung_linked hl, ← based_linked hl]
  have e4 := e3 (hstiff.imp id (fun hh => hh f (nodeFiber_mem hfi)))
  rw [e4, mul_zero, add_zero, off_even, off_even, if_neg hn, if_neg hn'] at e2
  rw [e4, off_odd, if_neg hn'] at e1
  rw [off_odd, if_neg hn] at e4
  exact ⟨e2, e4, e1⟩

/-- C134: a node linked with the lower plate and not with the upper plate stays at rest. -/
theorem C134_still (hstiff : |coupling| < 1 ∨ ∀ f ∈ mat.fibers, f.E = ⊤) (k : ℕ) (a b : Rec K) (ha : recs[k]? = some a)
    (hb : recs[k + 1]? = some b) (m : ℕ) (hbase : Based mat mesh.rows o.tol a.x m) (hhung : ¬ Hung mat mesh.rows o.tol a.Z a.x m) :
    b.x (2 * m) = a.x (2 * m) ∧ (OnBeam mesh.rows m → b.x (2 * m + 1) = a.x (2 * m + 1)) := by
  obtain ⟨v, hx, hf, hbeam⟩ := off_beams h hm hv hp hcoup hL htol hlin hperm hstiff k a b ha hb
  constructor
  · obtain ⟨n, ⟨j, hj, hg⟩, hl⟩ := hbase
    have := linked_const (P := fun i => ¬ Hung mat mesh.rows o.tol a.Z a.x i) (fun i j hl => not_congr (hung_linked hl))
      (g := fun i => v (2 * i)) (fun i hi hP => (hbeam i hi (fun hh => hP hh.1)).1)
      (fun i j hij hne hg _ => (hf i j hij).2.1 hne hg) hl hhung
    simp only [(hf n j hj).1 hg] at this
    rw [hx, this, mul_zero, sub_zero]
  · intro ho
    have : v (2 * m + 1) = 0 := by
      rcases ho with hi | ⟨i, hi, rfl⟩
      · exact (hbeam m hi (fun hh => hhung hh.1)).2.1
      · exact (hbeam i hi (fun hh => hhung ((hung_linked (linked_beam hi)).1 hh.1))).2.2
    rw [hx, this, mul_zero, sub_zero]

/-- C134: a node linked with the upper plate and not with the lower plate goes down with the plate. -/
theorem C134_carried (hstiff : |coupling| < 1 ∨ ∀ f ∈ mat.fibers, f.E = ⊤) (k : ℕ) (a b : Rec K) (ha : recs[k]? = some a)
    (hb : recs[k + 1]? = some b) (m : ℕ) (hhung : Hung mat mesh.rows o.tol a.Z a.x m) (hbase : ¬ Based mat mesh.rows o.tol a.x m) :
    b.x (2 * m) - a.x (2 * m) = b.Z - a.Z ∧ (OnBeam mesh.rows m → b.x (2 * m + 1) = a.x (2 * m + 1)) := by
  obtain ⟨v, hx, hf, hbeam⟩ := off_beams h hm hv hp hcoup hL htol hlin hperm hstiff k a b ha hb
  constructor
  · obtain ⟨n, ⟨i, hi, hg⟩, hl⟩ := hhung
    have := linked_const (P := fun i => ¬ Based mat mesh.rows o.tol a.x i) (fun i j hl => not_congr (based_linked hl))
      (g := fun i => v (2 * i)) (fun i hi hP => (hbeam i hi (fun hh => hP hh.2)).1)
      (fun i j hij hne hg _ => (hf i j hij).2.1 hne hg) hl hbase
    simp only [(hf i n hi).2.2 hg] at this
    rw [hx, this]; ring
  · intro ho
    have : v (2 * m + 1) = 0 := by
      rcases ho with hi | ⟨i, hi, rfl⟩
      · exact (hbeam m hi (fun hh => hbase hh.2)).2.1
      · exact (hbeam i hi (fun hh => hbase ((based_linked (linked_beam hi)).1 hh.2))).2.2
    rw [hx, this, mul_zero, sub_zero]

/-- C134: once a chain connects the plates, some chain connects them at every later step of the run. -/
theorem C134_stays (hstiff : |coupling| < 1 ∨ ∀ f ∈ mat.fibers, f.E = ⊤) (k m : ℕ) (hkm : k ≤ m) (a c d : Rec K)
    (ha : recs[k]? = some a) (hc : recs[m]? = some c) (hd : recs[m + 1]? = some d) (hbr : Bridged mat mesh.rows o.tol a.Z a.x) :
    Bridged mat mesh.rows o.tol c.Z c.x := by
  obtain ⟨-, cs, -, hC, -, -⟩ := solve_run h
  have hlt := (List.getElem?_eq_some_iff.1 hd).1
  have hb : recs[k + 1]? = some (recs[k + 1]'(by omega)) := List.getElem?_eq_getElem _
  have h1 := (C134_grows h hm hv hp hcoup hL htol hlin hperm hstiff hC k a _ ha hb).2 hbr
  exact (C134_grows h hm hv hp hcoup hL htol hlin hperm hstiff hC m c d hc hd).1
    (C130_grows h hm hp hcoup htol hlin hperm hC k m hkm a _ c d ha hb hc hd h1)

/-- C134: the plate carries a force at a record exactly if a chain connected the plates at some earlier record. -/
theorem C134_first (hstiff : |coupling| < 1 ∨ ∀ f ∈ mat.fibers, f.E = ⊤) {cs : ConstraintSys K} (hC : constraint mat mesh = .ok cs)
    (k : ℕ) (a : Rec K) (ha : recs[k]? = some a) :
    0 < totalForce cs.C (fun j => a.x (2 * mesh.rows.length + j)) 2 ↔
      ∃ j c, j < k ∧ recs[j]? = some c ∧ Bridged mat mesh.rows o.tol c.Z c.x := by
  induction k generalizing a with
  | zero =>
    obtain ⟨-, a', ha', hx, -, hZ, -⟩ := C40_itermax h
    rw [ha] at ha'; cases ha'
    simp [totalForce, hx]
  | succ k ih =>
    have hk := (List.getElem?_eq_some_iff.1 ha).1
    have hp' : recs[k]? = some (recs[k]'(by omega)) := List.getElem?_eq_getElem _
    have h1 := ih _ hp'
    have h2 := C134_grows h hm hv hp hcoup hL htol hlin hperm hstiff hC k _ a hp' ha
    have hle : totalForce cs.C (fun j => (recs[k]'(by omega)).x (2 * mesh.rows.length + j)) 2 ≤
        totalForce cs.C (fun j => a.x (2 * mesh.rows.length + j)) 2 := C47_monotone h hm hp htol hlin hperm hcoup hC k _ a hp' ha
    constructor
    · intro hpos
      by_cases hg : Bridged mat mesh.rows o.tol (recs[k]'(by omega)).Z (recs[k]'(by omega)).x
      · exact ⟨k, _, by omega, hp', hg⟩
      · have := C134_free h hm hv hp hcoup hL htol hlin hperm hC k _ a hp' ha hg
        rw [this] at hpos
        obtain ⟨j, c, hj, hc, hbr⟩ := h1.1 hpos
        exact ⟨j, c, by omega, hc, hbr⟩
    · rintro ⟨j, c, hj, hc, hbr⟩
      rcases Nat.lt_succ_iff_lt_or_eq.1 hj with hj | rfl
      · exact lt_of_lt_of_le (h1.2 ⟨j, c, hj, hc, hbr⟩) hle
      · rw [hp'] at hc; cases hc
        have hnn : 0 ≤ totalForce cs.C (fun i => (recs[j]'(by omega)).x (2 * mesh.rows.length + i)) 2 :=
          C47_nonneg h hm hp htol hlin hperm hcoup hC j _ hp'
        exact lt_of_le_of_lt hnn (h2.2 hbr)

end

end Fibermat
